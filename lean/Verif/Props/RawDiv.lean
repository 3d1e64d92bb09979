import Verif.SpecRaw
import Verif.Lemmas.RawDivApi
import Verif.Props.DivZero

/-!
# C67: long division in memory

The theorems are about the literal transcription of `src/math/div.rs` and its callers: checked indexing,
`usize` subtractions, the assertions, the choice between the `div` instruction and portable code, and
for every function one run per kind of build (`cf`: overflow checks, debug assertions, inline assembler)
and per byte order (`be`).  They say exactly when the run panics and what it leaves in memory
otherwise.  A loop that does not end counts as a panic.
-/

namespace I256

open Sample Raw.Div

variable {w : Nat} {be : Bool} {a b : Limbs w} {cf : Cfg}

/-- C67: unsigned division of two arrays panics iff the add-back step would index past the divisor;
otherwise quotient and remainder are exact, up to the stray limbs of the add-back step. -/
theorem C67_uint_div_rem (hw : 0 < w) (hl : a.length = b.length) (h2 : 2 ≤ a.length)
    (h128 : 128 ∣ w * a.length) (hb : memNat be b ≠ 0) :
    Yields (DivPanics w a.length (memNat be a) (memNat be b))
      (fun r => (r.1.length = a.length ∧ memNat be r.1 = memNat be a / memNat be b) ∧
        (r.2.length = a.length ∧ memNat be r.2 =
          memNat be a % memNat be b + strayRem w a.length (memNat be a) (memNat be b)))
      (Raw.U.wrappingDivRem cf be a b) := by
  obtain ⟨x, rfl⟩ := Raw.exists_mem be a
  obtain ⟨y, rfl⟩ := Raw.exists_mem be b
  simp only [Raw.mem_length, Raw.memNat_mem] at *
  rw [Raw.U.wrappingDivRem_ok cf be hw hl h2 h128]
  refine (Div.full_spec hw hl h2 hb).map fun r hr => ?_
  simpa only [Raw.mem_length, Raw.memNat_mem] using hr

example := C67_uint_div_rem (be := true) (cf := ⟨true, true, true⟩) (a := Sample.a) (b := ones) (by decide) (by decide)
  (by decide) (by decide) (by decide +kernel)
example : Raw.U.wrappingDivRem ⟨true, true, false⟩ true ([3, 0, 7, 9] : Limbs 64) [0, 0, 2, 0] =
    .ok ([0, 1, 0x8000000000000000, 3], [0, 0, 1, 9]) := by decide +kernel
example : Raw.U.wrappingDivRem ⟨false, false, true⟩ false n3 d3 = .panic ∧
    Raw.U.wrappingDivRem ⟨true, true, false⟩ false n3 d3 = .panic := by decide +kernel

/-- C67: unsigned division by zero: a panic, except that `0 / 0` returns `(1, 0)`. -/
theorem C67_uint_div_rem_zero (hw : 0 < w) (hl : a.length = b.length) (h2 : 2 ≤ a.length)
    (h128 : 128 ∣ w * a.length) (hb : memNat be b = 0) :
    Yields (memNat be a ≠ 0)
      (fun r => (r.1.length = a.length ∧ memNat be r.1 = 1) ∧
        (r.2.length = a.length ∧ memNat be r.2 = 0))
      (Raw.U.wrappingDivRem cf be a b) := by
  obtain ⟨x, rfl⟩ := Raw.exists_mem be a
  obtain ⟨y, rfl⟩ := Raw.exists_mem be b
  simp only [Raw.mem_length, Raw.memNat_mem] at *
  rw [Raw.U.wrappingDivRem_ok cf be hw hl h2 h128]
  obtain ⟨h1, h0⟩ := Div.full_zero hw hl h2 hb
  obtain ⟨l1, v1⟩ := Div.scalar1_spec (N := x.length) (by omega) (1 : BitVec w)
  obtain ⟨l0, v0⟩ := Div.scalar1_spec (N := x.length) (by omega) (0 : BitVec w)
  refine ⟨fun h => by rw [h1 h]; rfl, fun h => ⟨_, by rw [h0 (by simpa using h)]; rfl, ?_⟩⟩
  simp only [Raw.mem_length, Raw.memNat_mem]
  refine ⟨⟨l1, ?_⟩, ?_⟩
  · rw [v1, BitVec.ofNat_eq_ofNat, BitVec.toNat_ofNat, Nat.mod_eq_of_lt (Nat.one_lt_two_pow (by omega))]
  · rw [← hl]
    exact ⟨l0, by rw [v0]; simp⟩

example := C67_uint_div_rem_zero (be := true) (cf := ⟨true, true, true⟩) (a := Sample.a) (b := zero)
  (by decide) (by decide) (by decide) (by decide) (by decide +kernel)
example : Raw.U.wrappingDivRem ⟨true, true, true⟩ true zero zero = .ok ([0, 0, 0, 1], zero) ∧
    Raw.U.wrappingDivRem ⟨true, true, true⟩ true one zero = .panic := by decide +kernel

/-- C67: unsigned division by a limb never panics, except for a zero divisor. -/
theorem C67_uint_div_rem_ulimb (hw : 0 < w) (ha : a ≠ []) (h128 : 128 ∣ w * a.length) (n : BitVec w) :
    Yields (n = 0)
      (fun r => (r.1.length = a.length ∧ memNat be r.1 = memNat be a / n.toNat) ∧
        r.2.toNat = memNat be a % n.toNat)
      (Raw.U.wrappingDivRemULimb cf be a n) := by
  have ha' := List.length_pos_iff.2 ha
  obtain ⟨x, rfl⟩ := Raw.exists_mem be a
  simp only [Raw.mem_length, Raw.memNat_mem] at *
  have hx : x ≠ [] := List.length_pos_iff.1 ha'
  rw [Raw.U.wrappingDivRemULimb_ok cf be hw hx h128]
  refine ⟨fun h => by rw [h, Div.limb_zero hx]; rfl, fun h => ?_⟩
  obtain ⟨q, r, e, hq, vq, vr⟩ := Div.limb_spec h x
  refine ⟨_, by rw [e]; rfl, ?_⟩
  simp only [Raw.mem_length, Raw.memNat_mem]
  exact ⟨⟨hq, vq⟩, vr⟩

example := C67_uint_div_rem_ulimb (be := true) (cf := ⟨true, true, true⟩) (a := Sample.a) (by decide)
  (by decide) (by decide) 7
example : Raw.U.wrappingDivRemULimb ⟨true, true, true⟩ true ([3, 0, 7, 9] : Limbs 64) 2 =
    .ok ([1, 0x8000000000000000, 3, 0x8000000000000004], 1) := by decide +kernel

/-- C67: unsigned division by a double limb panics iff the add-back step would index past the divisor of
two limbs; quotient and remainder are exact otherwise. -/
theorem C67_uint_div_rem_uwide (hw : 0 < w) (h2 : 2 ≤ a.length) (h128 : 128 ∣ w * a.length)
    (n : BitVec (w + w)) :
    (n ≠ 0 → Yields (DivPanics w 2 (memNat be a) n.toNat)
      (fun r => (r.1.length = a.length ∧ memNat be r.1 = memNat be a / n.toNat) ∧
        r.2.toNat = memNat be a % n.toNat)
      (Raw.U.wrappingDivRemUWide cf be a n)) ∧
    (n = 0 → Yields (memNat be a ≠ 0)
      (fun r => (r.1.length = a.length ∧ memNat be r.1 = 0) ∧ r.2 = 0)
      (Raw.U.wrappingDivRemUWide cf be a n)) := by
  obtain ⟨x, rfl⟩ := Raw.exists_mem be a
  simp only [Raw.mem_length, Raw.memNat_mem] at *
  rw [Raw.U.wrappingDivRemUWide_ok cf be hw h2 h128]
  refine ⟨fun hn => (Div.wideDiv_spec hw h2 hn).map fun r hr => ?_, fun hn => ?_⟩
  · simpa only [Raw.mem_length, Raw.memNat_mem] using hr
  · obtain ⟨h1, h0⟩ := Div.wideDiv_zero hw h2
    obtain ⟨l0, v0⟩ := Div.scalar1_spec (N := x.length) (by omega) (0 : BitVec w)
    rw [hn]
    refine ⟨fun h => by rw [h1 h]; rfl, fun h => ⟨_, by rw [h0 (by simpa using h)]; rfl, ?_⟩⟩
    simp only [Raw.mem_length, Raw.memNat_mem]
    exact ⟨⟨l0, by rw [v0]; simp⟩, trivial⟩

example := (C67_uint_div_rem_uwide (be := true) (cf := ⟨true, true, true⟩) (a := Sample.a) (by decide)
  (by decide) (by decide) 0x70000000000000001).1 (by decide)
example : Raw.U.wrappingDivRemUWide ⟨true, true, true⟩ true ([3, 0, 7, 9] : Limbs 64)
    0x20000000000000000 = .ok ([0, 1, 0x8000000000000000, 3], 0x10000000000000009) := by decide +kernel

/-- C67: unsigned division by a `u128` with limbs of 32 bits never panics, except for a zero divisor;
the quotient is exact, and the remainder is exact up to the stray limbs of the add-back step. -/
theorem C67_uint_div_rem_u128 {a : Limbs 32} (h4 : 4 < a.length) (h128 : 128 ∣ 32 * a.length)
    (n : BitVec 128) :
    (n ≠ 0 → ∃ q r, Raw.U.wrappingDivRemU128 cf be a n = .ok (q, r) ∧ q.length = a.length ∧
      memNat be q = memNat be a / n.toNat ∧
      r.toNat = (memNat be a % n.toNat + strayRem 32 a.length (memNat be a) n.toNat) % 2 ^ 128) ∧
    (n = 0 → Yields (memNat be a ≠ 0)
      (fun r => (r.1.length = a.length ∧ memNat be r.1 = 0) ∧ r.2 = 0)
      (Raw.U.wrappingDivRemU128 cf be a n)) := by
  obtain ⟨x, rfl⟩ := Raw.exists_mem be a
  simp only [Raw.mem_length, Raw.memNat_mem] at *
  rw [Raw.U.wrappingDivRemU128_ok cf be h4 h128]
  constructor
  · intro hn
    obtain ⟨q, r, e, ⟨hq, vq⟩, vr⟩ := Div.fromU128_spec h4 hn
    refine ⟨_, _, by rw [e]; rfl, ?_⟩
    simp only [Raw.mem_length, Raw.memNat_mem]
    exact ⟨hq, vq, vr⟩
  · intro hn
    obtain ⟨h1, h0⟩ := Div.fromU128_zero (le_of_lt h4)
    obtain ⟨l0, v0⟩ := Div.scalar1_spec (N := x.length) (by omega) (0 : BitVec 32)
    rw [hn]
    refine ⟨fun h => by rw [h1 h]; rfl, fun h => ⟨_, by rw [h0 (by simpa using h)]; rfl, ?_⟩⟩
    simp only [Raw.mem_length, Raw.memNat_mem]
    exact ⟨⟨l0, by rw [v0]; simp⟩, trivial⟩

example := (C67_uint_div_rem_u128 (be := true) (cf := ⟨true, true, true⟩) (a := b32) (by decide) (by decide)
  0x70000000000000001).1 (by decide)
example : Raw.U.wrappingDivRemU128 ⟨true, true, false⟩ true ([0, 0, 0, 1, 0, 0, 7, 9] : Limbs 32)
    0x20000000000000000 = .ok ([0, 0, 0, 0, 0, 0, 0x80000000, 0], 0x700000009) := by decide +kernel

/-- C67: `wrapping_neg`, `overflowing_neg`, `overflowing_abs` and `unsigned_abs` end normally; the
debug assertion of `wrapping_neg` always holds. -/
theorem C67_int_neg (hw : 0 < w) (h8 : 8 ∣ w) (h2 : 2 ≤ a.length) (he : a.length % 2 = 0)
    (h128 : 128 ∣ w * a.length) :
    Holds be (WrapS a.length (-memInt be a)) (Raw.I.wrappingNeg cf be a) ∧
      HoldsO be (OverS a.length (-memInt be a)) (Raw.I.overflowingNeg cf be a) ∧
      HoldsO be (OverS a.length |memInt be a|) (Raw.I.overflowingAbs cf be a) ∧
      Holds be (ExactU a.length |memInt be a|) (Raw.I.unsignedAbs cf be a) := by
  obtain ⟨x, rfl⟩ := Raw.exists_mem be a
  simp only [Raw.mem_length, Raw.memInt_mem] at *
  rw [Raw.I.wrappingNeg_ok cf be hw h8 h2 he h128, Raw.I.overflowingNeg_ok cf be hw h8 h2 he h128,
    Raw.I.overflowingAbs_ok cf be hw h8 h2 he h128, Raw.I.unsignedAbs_ok cf be hw h8 h2 he h128]
  exact ⟨Raw.holds (wrappingNegS hw h2), Raw.holdsO (overflowingNegS hw h2 he),
    Raw.holdsO (overflowingAbsS hw h2 he), Raw.holds (unsignedAbsU hw h2 he)⟩

example := C67_int_neg (be := true) (cf := ⟨true, true, true⟩) (a := top) (by decide) (by decide) (by decide)
  (by decide) (by decide)
example : Raw.I.wrappingNeg ⟨true, true, true⟩ true ([0, 0, 0, 5] : Limbs 64) =
    .ok [0xffffffffffffffff, 0xffffffffffffffff, 0xffffffffffffffff, 0xfffffffffffffffb] ∧
    Raw.I.overflowingAbs ⟨true, true, true⟩ false top = .ok (top, true) := by decide +kernel

/-- C67: signed division of two arrays panics iff the unsigned division of the absolute values does;
otherwise the quotient is exact and the remainder is exact up to the stray limbs. -/
theorem C67_int_div_rem (hw : 1 < w) (h8 : 8 ∣ w) (hl : a.length = b.length) (h2 : 2 ≤ a.length)
    (he : a.length % 2 = 0) (h128 : 128 ∣ w * a.length) (hb : memInt be b ≠ 0) :
    Yields (DivPanics w a.length (memInt be a).natAbs (memInt be b).natAbs)
      (fun r => WrapS a.length ((memInt be a).tdiv (memInt be b)) (logical be r.1) ∧
        ExactS a.length ((memInt be a).tmod (memInt be b) + (memInt be a).sign *
          strayRem w a.length (memInt be a).natAbs (memInt be b).natAbs) (logical be r.2))
      (Raw.I.wrappingDivRem cf be a b) := by
  obtain ⟨x, rfl⟩ := Raw.exists_mem be a
  obtain ⟨y, rfl⟩ := Raw.exists_mem be b
  simp only [Raw.mem_length, Raw.memInt_mem] at *
  rw [Raw.I.wrappingDivRem_ok cf be (by omega) h8 hl h2 he h128]
  refine (C17_int_rem_partial hw hl h2 he hb).2.map fun r hr => ?_
  simpa only [Raw.logical_mem] using hr

example := C67_int_div_rem (be := true) (cf := ⟨true, true, true⟩) (a := top) (b := ones) (by decide) (by decide)
  (by decide) (by decide) (by decide) (by decide) (by decide +kernel)
example : Raw.I.wrappingDivRem ⟨true, true, false⟩ true
    ([0xffffffffffffffff, 0xffffffffffffffff, 0xffffffffffffffff, 0xfffffffffffffff9] : Limbs 64) [0, 0, 0, 2] =
    .ok ([0xffffffffffffffff, 0xffffffffffffffff, 0xffffffffffffffff, 0xfffffffffffffffd], ones) := by
  decide +kernel

/-- C67: signed division by zero: a panic, except that `0 / 0` returns `(1, 0)`. -/
theorem C67_int_div_rem_zero (hw : 1 < w) (h8 : 8 ∣ w) (hl : a.length = b.length) (h2 : 2 ≤ a.length)
    (he : a.length % 2 = 0) (h128 : 128 ∣ w * a.length) (hb : memInt be b = 0) :
    Yields (memInt be a ≠ 0)
      (fun r => ExactS a.length 1 (logical be r.1) ∧ ExactS a.length 0 (logical be r.2))
      (Raw.I.wrappingDivRem cf be a b) := by
  obtain ⟨x, rfl⟩ := Raw.exists_mem be a
  obtain ⟨y, rfl⟩ := Raw.exists_mem be b
  simp only [Raw.mem_length, Raw.memInt_mem] at *
  rw [Raw.I.wrappingDivRem_ok cf be (by omega) h8 hl h2 he h128]
  refine ((C15_int_div_zero_all_partial hw hl h2 he hb).2.2.1 _ (List.mem_cons_self ..)).map fun r hr => ?_
  simpa only [Raw.logical_mem] using hr

example := C67_int_div_rem_zero (be := true) (cf := ⟨true, true, true⟩) (a := top) (b := zero) (by decide) (by decide)
  (by decide) (by decide) (by decide) (by decide) (by decide +kernel)
example : Raw.I.wrappingDivRem ⟨true, true, true⟩ true zero zero = .ok ([0, 0, 0, 1], zero) ∧
    Raw.I.wrappingDivRem ⟨true, true, true⟩ true ones zero = .panic := by decide +kernel

/-- C67: all builds agree: no overflow check and no debug assertion ever fires on its own, and the `div`
instruction never faults where the portable code returns. -/
theorem C67_builds_agree (hw : 0 < w) (h8 : 8 ∣ w) (hl : a.length = b.length) (h2 : 2 ≤ a.length)
    (he : a.length % 2 = 0) (h128 : 128 ∣ w * a.length) (n : BitVec w) (m : BitVec (w + w))
    (cf cf' : Cfg) :
    Raw.U.wrappingDivRem cf be a b = Raw.U.wrappingDivRem cf' be a b ∧
      Raw.I.wrappingDivRem cf be a b = Raw.I.wrappingDivRem cf' be a b ∧
      Raw.U.wrappingDivRemULimb cf be a n = Raw.U.wrappingDivRemULimb cf' be a n ∧
      Raw.U.wrappingDivRemUWide cf be a m = Raw.U.wrappingDivRemUWide cf' be a m := by
  obtain ⟨x, rfl⟩ := Raw.exists_mem be a
  obtain ⟨y, rfl⟩ := Raw.exists_mem be b
  simp only [Raw.mem_length] at *
  have hx : x ≠ [] := length_ne (n := 0) (by omega)
  simp only [Raw.U.wrappingDivRem_ok _ be hw hl h2 h128, Raw.I.wrappingDivRem_ok _ be hw h8 hl h2 he h128,
    Raw.U.wrappingDivRemULimb_ok _ be hw hx h128, Raw.U.wrappingDivRemUWide_ok _ be hw h2 h128, and_self]

example := C67_builds_agree (be := true) (a := n3) (b := d3) (by decide) (by decide) (by decide) (by decide)
  (by decide) (by decide) 0 7 ⟨true, true, true⟩ ⟨false, false, false⟩

end I256
