import Verif.SpecRaw
import Verif.Lemmas.RawMul
import Verif.Lemmas.RawRun
import Verif.Props.Mul

/-!
# C64: the multiplication kernels in memory

The theorems are about the literal transcription of `src/math/mul.rs`: arrays in memory order of a
little-endian or a big-endian machine, checked indexing, checked native arithmetic (the products and
sums in the double-width type) and the assertions.  The run ends normally and leaves the exact result.

The flag of the signed product is the one of C08: products in `Mul.Gap`, just below `MIN`, are not
reported.
-/

namespace I256

open Sample

variable {w : Nat} {be : Bool} {a b : Limbs w}

/-- C64: the multiply-accumulate step never overflows its double-width type, and its two limbs hold
the exact value. -/
theorem C64_mac (hw : 0 < w) (r x y c : BitVec w) :
    ∃ lo hi, Raw.mac r x y c = .ok (lo, hi) ∧
      lo.toNat + 2 ^ w * hi.toNat = r.toNat + x.toNat * y.toNat + c.toNat :=
  ⟨_, _, Raw.mac_ok hw r x y c, mac_spec r x y c⟩

example := C64_mac (by decide) (0xffffffffffffffff : BitVec 64) 0xffffffffffffffff 0xffffffffffffffff
  0xffffffffffffffff
example : Raw.mac (0xffffffff : BitVec 32) 0xffffffff 0xffffffff 0xffffffff =
    .ok (0xffffffff, 0xffffffff) := by decide

/-- C64: unsigned product of two arrays, wrapping and overflowing. -/
theorem C64_uint_mul (hw : 0 < w) (h2 : 1 ≤ a.length) (hl : a.length = b.length) :
    Holds be (WrapU a.length ((memNat be a : Int) * memNat be b)) (Raw.Mul.wrappingFull be a b) ∧
      HoldsO be (OverU a.length ((memNat be a : Int) * memNat be b))
        (Raw.Mul.overflowingFull be a b) := by
  obtain ⟨x, rfl⟩ := Raw.exists_mem be a
  obtain ⟨y, rfl⟩ := Raw.exists_mem be b
  simp only [Raw.mem_length, Raw.memNat_mem] at *
  rw [Raw.Mul.wrappingFull_ok be hw x y (by omega), Raw.Mul.overflowingFull_ok be hw x y (by omega)]
  exact ⟨Raw.holds (Mul.wrapU x y (by omega)), Raw.holdsO (Mul.overU x y (by omega))⟩

example := C64_uint_mul (be := true) (a := ones) (b := top) (by decide) (by decide) (by decide)
example : Raw.Mul.overflowingFull true ones ones = .ok ([0, 0, 0, 1], true) := by decide +kernel
example : Raw.Mul.overflowingFull true [0, 0, 3, 5] ([0, 0, 0, 7] : Limbs 64) =
    .ok ([0, 0, 21, 35], false) := by decide +kernel

/-- C64: a right factor longer than the left is rejected by the assertion. -/
theorem C64_uint_mul_rejects (h : a.length < b.length) :
    Raw.Mul.wrappingFull be a b = .panic ∧ Raw.Mul.overflowingFull be a b = .panic := by
  have e : Raw.assert (decide (a.length ≥ b.length)) = .panic := by
    simp [Raw.assert]; omega
  constructor
  · rw [Raw.Mul.wrappingFull]
    simp only [e]
    rfl
  · rw [Raw.Mul.overflowingFull]
    simp only [e]
    rfl

example := C64_uint_mul_rejects (be := true) (a := [1]) (b := one) (by decide)

/-- C64: unsigned product with a limb and a double limb. -/
theorem C64_uint_mul_scalar (hw : 0 < w) (h2 : 2 ≤ a.length) (n : BitVec w) (m : BitVec (w + w)) :
    (Holds be (WrapU a.length ((memNat be a : Int) * n.toNat)) (Raw.Mul.wrappingLimb be a n) ∧
      HoldsO be (OverU a.length ((memNat be a : Int) * n.toNat)) (Raw.Mul.overflowingLimb be a n)) ∧
    (Holds be (WrapU a.length ((memNat be a : Int) * m.toNat)) (Raw.Mul.wrappingWide be a m) ∧
      HoldsO be (OverU a.length ((memNat be a : Int) * m.toNat))
        (Raw.Mul.overflowingWide be a m)) := by
  obtain ⟨x, rfl⟩ := Raw.exists_mem be a
  simp only [Raw.mem_length, Raw.memNat_mem] at *
  rw [Raw.Mul.wrappingLimb_ok be hw x n (by omega), Raw.Mul.overflowingLimb_ok be hw x n (by omega),
    Raw.Mul.wrappingWide_ok be hw x m h2, Raw.Mul.overflowingWide_ok be hw x m h2]
  have h1 := C06_uint_wrapping_mul_scalar (x := x) n m
  have h3 := C07_uint_mul_scalar (x := x) n m true
  exact ⟨⟨Raw.holds h1.1, Raw.holdsO h3.1.1⟩, ⟨Raw.holds h1.2, Raw.holdsO h3.2.1⟩⟩

example := C64_uint_mul_scalar (be := true) (a := ones) (by decide) (by decide) 7 0x10000000000000003
example : Raw.Mul.overflowingWide true [0, 0, 0, 5] (0x10000000000000003 : BitVec (64 + 64)) =
    .ok ([0, 0, 5, 15], false) := by decide +kernel

/-- C64: signed products, wrapping forms. -/
theorem C64_int_mul_wrapping (hw : 0 < w) (h2 : 2 ≤ a.length) (hl : a.length = b.length)
    (n : BitVec w) (m : BitVec (w + w)) :
    Holds be (WrapS a.length (memInt be a * memInt be b)) (Raw.Mul.wrappingFull be a b) ∧
      Holds be (WrapS a.length (memInt be a * n.toNat)) (Raw.Mul.wrappingLimb be a n) ∧
      Holds be (WrapS a.length (memInt be a * m.toNat)) (Raw.Mul.wrappingWide be a m) ∧
      Holds be (WrapS a.length (memInt be a * n.toInt)) (Raw.Mul.wrappingILimb be a n) ∧
      Holds be (WrapS a.length (memInt be a * m.toInt)) (Raw.Mul.wrappingIWide be a m) := by
  obtain ⟨x, rfl⟩ := Raw.exists_mem be a
  obtain ⟨y, rfl⟩ := Raw.exists_mem be b
  simp only [Raw.mem_length, Raw.memInt_mem] at *
  rw [Raw.Mul.wrappingFull_ok be hw x y (by omega), Raw.Mul.wrappingLimb_ok be hw x n (by omega),
    Raw.Mul.wrappingWide_ok be hw x m h2, Raw.Mul.wrappingILimb_ok be hw x n (by omega),
    Raw.Mul.wrappingIWide_ok be hw x m h2]
  have u := C06_int_wrapping_mul_uscalar (x := x) n m
  have i := C06_int_wrapping_mul_iscalar (x := x) h2 n m
  exact ⟨Raw.holds (Mul.wrapS x y (by omega) hl), Raw.holds u.1, Raw.holds u.2, Raw.holds i.1,
    Raw.holds i.2⟩

example := C64_int_mul_wrapping (be := true) (a := ones) (b := top) (by decide) (by decide) (by decide)
  7 (-7)
example : Raw.Mul.wrappingIWide true [0, 0, 0, 5] (-1 : BitVec (64 + 64)) =
    .ok [0xffffffffffffffff, 0xffffffffffffffff, 0xffffffffffffffff, 0xfffffffffffffffb] := by
  decide +kernel

/-- C64: signed products, overflowing forms.  The flag is set iff the product is out of range and not
in the gap of C08. -/
theorem C64_int_mul_overflowing (hw : 0 < w) (h3 : 3 ≤ a.length) (hl : a.length = b.length)
    (n : BitVec w) (m : BitVec (w + w)) :
    let P (z : Int) (r : Limbs w × Bool) := WrapS a.length z r.1 ∧
      (r.2 = true ↔ ¬ InS (w * a.length) z ∧ ¬ Mul.Gap w a.length z)
    HoldsO be (P (memInt be a * memInt be b)) (Raw.Mul.overflowingFullS be a b) ∧
      HoldsO be (P (memInt be a * n.toNat)) (Raw.Mul.overflowingULimbS be a n) ∧
      HoldsO be (P (memInt be a * m.toNat)) (Raw.Mul.overflowingUWideS be a m) ∧
      HoldsO be (P (memInt be a * n.toInt)) (Raw.Mul.overflowingILimbS be a n) ∧
      HoldsO be (P (memInt be a * m.toInt)) (Raw.Mul.overflowingIWideS be a m) := by
  obtain ⟨x, rfl⟩ := Raw.exists_mem be a
  obtain ⟨y, rfl⟩ := Raw.exists_mem be b
  simp only [Raw.mem_length, Raw.memInt_mem] at *
  have h2 : 2 ≤ x.length := by omega
  rw [Raw.Mul.overflowingFullS_ok be hw x y hl.symm h2, Raw.Mul.overflowingULimbS_ok be hw x n h2,
    Raw.Mul.overflowingUWideS_ok be hw x m h2, Raw.Mul.overflowingILimbS_ok be hw x n h2,
    Raw.Mul.overflowingIWideS_ok be hw x m h2]
  have hx0 : x ≠ [] := List.length_pos_iff.1 (by omega)
  have h1 := Mul.overflowingFullS_spec hw hx0 (extU_length (by omega : 1 ≤ x.length) n).symm
  have h2' := Mul.overflowingFullS_spec hw hx0 (extI_length (by omega : 1 ≤ x.length) n).symm
  have h3' := Mul.overflowingFullS_spec hw hx0 (extUW_length h2 m).symm
  have h4 := Mul.overflowingFullS_spec hw hx0 (extIW_length h2 m).symm
  rw [extU_toInt hw (by omega)] at h1
  rw [extI_toInt (by omega)] at h2'
  rw [extUW_toInt hw (by omega)] at h3'
  rw [extIW_toInt (by omega)] at h4
  exact ⟨Raw.holdsO (Mul.overflowingFullS_spec hw hx0 hl), Raw.holdsO h1, Raw.holdsO h3',
    Raw.holdsO h2', Raw.holdsO h4⟩

example := C64_int_mul_overflowing (be := true) (a := ones) (b := top) (by decide) (by decide)
  (by decide) 7 (-7)
example : Raw.Mul.overflowingFullS true [0x8000000000000000, 0, 0, 0] ones =
    .ok ([0x8000000000000000, 0, 0, 0], true) := by decide +kernel
example : Raw.Mul.overflowingILimbS true [0, 0, 0, 5] (-1 : BitVec 64) =
    .ok ([0xffffffffffffffff, 0xffffffffffffffff, 0xffffffffffffffff, 0xfffffffffffffffb], false) := by
  decide +kernel

/-- C64: the widening product: two arrays, low and high half of the exact product. -/
theorem C64_widening_mul (hw : 0 < w) (h1 : 1 ≤ a.length) (hl : a.length = b.length) :
    ∃ lo hi, Raw.Mul.widening be a b = .ok (lo, hi) ∧ lo.length = a.length ∧ hi.length = a.length ∧
      memNat be lo + 2 ^ (w * a.length) * memNat be hi = memNat be a * memNat be b := by
  obtain ⟨x, rfl⟩ := Raw.exists_mem be a
  obtain ⟨y, rfl⟩ := Raw.exists_mem be b
  simp only [Raw.mem_length, Raw.memNat_mem] at *
  refine ⟨_, _, Raw.Mul.widening_ok be hw x y hl.symm, ?_⟩
  simp only [Raw.mem_length, Raw.memNat_mem]
  exact Mul.widening_spec x y hl h1

example := C64_widening_mul (be := true) (a := ones) (b := top) (by decide) (by decide) (by decide)
example : Raw.Mul.widening true ones ones = .ok ([0, 0, 0, 1],
    [0xffffffffffffffff, 0xffffffffffffffff, 0xffffffffffffffff, 0xfffffffffffffffe]) := by
  decide +kernel

end I256
