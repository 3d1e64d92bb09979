import Verif.Lemmas.MathArith
import Verif.Props.Samples

/-!
# C84: the public functions of `math::add`, `math::sub` and `math::mul` on arrays of any lengths

The theorems are about the literal transcription (checked indexing, checked native arithmetic, the
assertions, either byte order).  They say for every length of the arrays whether the function panics and
what it returns otherwise.
-/

namespace I256

open Sample

variable {w : Nat} {be : Bool} {a b : Limbs w}

/-! ### Sums and differences -/

/-- C84: unsigned sums of arrays of equal length.  One limb is enough, and `overflowing_full` also takes
empty arrays. -/
theorem C84_uint_add (hw : 0 < w) (hl : a.length = b.length) :
    Leaves be (a.length = 0) (WrapU a.length (memNat be a + memNat be b)) (Raw.Add.wrappingFull be a b) ∧
      HoldsO be (OverU a.length (memNat be a + memNat be b)) (Raw.Add.overflowingFull be a b) := by
  obtain ⟨x, rfl⟩ := Raw.exists_mem be a
  obtain ⟨y, rfl⟩ := Raw.exists_mem be b
  simp only [Raw.mem_length, Raw.memNat_mem] at *
  rw [Raw.Add.overflowingFull_ok be x y hl]
  refine ⟨⟨fun h => ?_, fun h => ?_⟩, Raw.holdsO (Add.overU hw hl)⟩
  · rw [Raw.Add.wrappingFull, Raw.mem_length, h]; rfl
  · rw [Raw.Add.wrappingFull_ok be x y hl (by omega)]
    exact Raw.holds (Add.wrapU hw hl)

example := C84_uint_add (w := 64) (be := true) (a := [5]) (b := [0xffffffffffffffff]) (by decide) (by decide)
example : Raw.Add.wrappingFull true ([5] : Limbs 64) [0xffffffffffffffff] = .ok [4] ∧
    Raw.Add.overflowingFull true ([5] : Limbs 64) [0xffffffffffffffff] = .ok ([4], true) ∧
    Raw.Add.wrappingFull true ([] : Limbs 64) [] = .panic ∧
    Raw.Add.overflowingFull true ([] : Limbs 64) [] = .ok ([], false) := by decide

/-- C84: unsigned differences of arrays of equal length, which need two limbs. -/
theorem C84_uint_sub (hw : 0 < w) (hl : a.length = b.length) :
    Leaves be (a.length < 2) (WrapU a.length (memNat be a - memNat be b)) (Raw.Sub.wrappingFull be a b) ∧
      LeavesO be (a.length < 2) (OverU a.length (memNat be a - memNat be b))
        (Raw.Sub.overflowingFull be a b) := by
  obtain ⟨x, rfl⟩ := Raw.exists_mem be a
  obtain ⟨y, rfl⟩ := Raw.exists_mem be b
  simp only [Raw.mem_length, Raw.memNat_mem] at *
  refine ⟨⟨fun h => ?_, fun h => ?_⟩, ⟨fun h => ?_, fun h => ?_⟩⟩
  · exact Raw.assert_panic (by simpa using h) _
  · rw [Raw.Sub.wrappingFull_ok be x y hl (by omega)]
    exact Raw.holds (Sub.wrapU hw hl)
  · exact Raw.assert_panic (by simpa using h) _
  · rw [Raw.Sub.overflowingFull_ok be x y hl (by omega)]
    exact Raw.holdsO (Sub.overU hw hl)

example := C84_uint_sub (w := 64) (be := true) (a := [5, 7]) (b := [6, 7]) (by decide) (by decide)
example : Raw.Sub.wrappingFull true ([5, 7] : Limbs 64) [6, 8] = .ok [0xfffffffffffffffe, 0xffffffffffffffff] ∧
    Raw.Sub.overflowingFull false ([5] : Limbs 64) [6] = .panic := by decide

/-- C84: unsigned sum and difference with one limb: exact from two limbs on, a panic below. -/
theorem C84_uint_limb (hw : 0 < w) (n : BitVec w) :
    (Leaves be (a.length < 2) (WrapU a.length (memNat be a + n.toNat)) (Raw.Add.wrappingLimb be a n) ∧
      LeavesO be (a.length < 2) (OverU a.length (memNat be a + n.toNat)) (Raw.Add.overflowingLimb be a n)) ∧
    (Leaves be (a.length < 2) (WrapU a.length (memNat be a - n.toNat)) (Raw.Sub.wrappingLimb be a n) ∧
      LeavesO be (a.length < 2) (OverU a.length (memNat be a - n.toNat))
        (Raw.Sub.overflowingLimb be a n)) := by
  obtain ⟨x, rfl⟩ := Raw.exists_mem be a
  simp only [Raw.mem_length, Raw.memNat_mem] at *
  have h0 : ¬ x.length < 2 → x ≠ [] := fun h => List.length_pos_iff.1 (by omega)
  refine ⟨⟨⟨fun h => ?_, fun h => ?_⟩, ⟨fun h => ?_, fun h => ?_⟩⟩,
    ⟨⟨fun h => ?_, fun h => ?_⟩, ⟨fun h => ?_, fun h => ?_⟩⟩⟩
  · exact Raw.assert_panic (by simpa using h) _
  · rw [Raw.Add.wrappingLimb_ok be x n (by omega)]
    exact Raw.holds (Add.limbWrapU hw (h0 h) n)
  · exact Raw.assert_panic (by simpa using h) _
  · rw [Raw.Add.overflowingLimb_ok be x n (by omega)]
    exact Raw.holdsO (Add.limbOverU hw (h0 h) n)
  · exact Raw.assert_panic (by simpa using h) _
  · rw [Raw.Sub.wrappingLimb_ok be x n (by omega)]
    exact Raw.holds (Sub.limbWrapU hw (h0 h) n)
  · exact Raw.assert_panic (by simpa using h) _
  · rw [Raw.Sub.overflowingLimb_ok be x n (by omega)]
    exact Raw.holdsO (Sub.limbOverU hw (h0 h) n)

example := C84_uint_limb (w := 64) (be := true) (a := [5, 0xffffffffffffffff]) (by decide) 9
example : Raw.Add.overflowingLimb true ([5, 0xffffffffffffffff] : Limbs 64) 9 = .ok ([6, 8], false) ∧
    Raw.Add.overflowingLimb true ([5] : Limbs 64) 9 = .panic ∧
    Raw.Sub.overflowingLimb true ([0, 5] : Limbs 64) 9 =
      .ok ([0xffffffffffffffff, 0xfffffffffffffffc], true) := by decide

/-- C84: unsigned sum and difference of arrays of unequal lengths, `wrapping_mn` and `overflowing_mn`:
exact if the second has at least two limbs and fewer than the first, otherwise a panic. -/
theorem C84_uint_mn (hw : 0 < w) :
    (Leaves be (¬ (2 ≤ b.length ∧ b.length < a.length)) (WrapU a.length (memNat be a + memNat be b))
        (Raw.Add.wrappingMn be a b) ∧
      LeavesO be (¬ (2 ≤ b.length ∧ b.length < a.length)) (OverU a.length (memNat be a + memNat be b))
        (Raw.Add.overflowingMn be a b)) ∧
    (Leaves be (¬ (2 ≤ b.length ∧ b.length < a.length)) (WrapU a.length (memNat be a - memNat be b))
        (Raw.Sub.wrappingMn be a b) ∧
      LeavesO be (¬ (2 ≤ b.length ∧ b.length < a.length)) (OverU a.length (memNat be a - memNat be b))
        (Raw.Sub.overflowingMn be a b)) := by
  obtain ⟨x, rfl⟩ := Raw.exists_mem be a
  obtain ⟨y, rfl⟩ := Raw.exists_mem be b
  simp only [Raw.mem_length, Raw.memNat_mem] at *
  have e : ¬ (2 ≤ y.length ∧ y.length < x.length) →
      (decide ((Raw.mem be y).length ≥ 2) && decide ((Raw.mem be x).length > (Raw.mem be y).length)) = false := by
    intro h
    simp only [Raw.mem_length, Bool.and_eq_false_iff, decide_eq_false_iff_not]
    omega
  refine ⟨⟨⟨fun h => ?_, fun h => ?_⟩, ⟨fun h => ?_, fun h => ?_⟩⟩,
    ⟨⟨fun h => ?_, fun h => ?_⟩, ⟨fun h => ?_, fun h => ?_⟩⟩⟩
  · exact Raw.assert_panic (e h) _
  · obtain ⟨h2, h3⟩ := not_not.1 h
    rw [Raw.Add.wrappingMn_ok be x y h2 h3]
    obtain ⟨r, e1, h1⟩ := Add.mnWrapU hw h2 h3
    rw [e1, Res.map_ok]
    exact Raw.holds h1
  · exact Raw.assert_panic (e h) _
  · obtain ⟨h2, h3⟩ := not_not.1 h
    rw [Raw.Add.overflowingMn_ok be x y h2 h3]
    obtain ⟨r, e1, h1⟩ := Add.mnOverU hw h2 h3
    rw [e1, Res.map_ok]
    exact Raw.holdsO h1
  · exact Raw.assert_panic (e h) _
  · obtain ⟨h2, h3⟩ := not_not.1 h
    rw [Raw.Sub.wrappingMn_ok be x y h2 h3]
    obtain ⟨r, e1, h1⟩ := Sub.mnWrapU hw h2 h3
    rw [e1, Res.map_ok]
    exact Raw.holds h1
  · exact Raw.assert_panic (e h) _
  · obtain ⟨h2, h3⟩ := not_not.1 h
    rw [Raw.Sub.overflowingMn_ok be x y h2 h3]
    obtain ⟨r, e1, h1⟩ := Sub.mnOverU hw h2 h3
    rw [e1, Res.map_ok]
    exact Raw.holdsO h1

example := (C84_uint_mn (w := 64) (be := true) (a := [5, 7, 9, 0]) (b := [6, 7, 8]) (by decide)).1.1.2 (by decide)
example : Raw.Add.overflowingMn true ([0xffffffffffffffff, 0xffffffffffffffff, 9, 0] : Limbs 64)
      [0xffffffffffffffff, 0xfffffffffffffff7, 8] = .ok ([0, 0xffffffffffffffff, 0, 8], true) ∧
    Raw.Sub.overflowingMn false ([0, 0, 0, 1] : Limbs 64) [1, 0, 5] =
      .ok ([0xffffffffffffffff, 0xffffffffffffffff, 0xfffffffffffffffa, 0], false) ∧
    Raw.Add.wrappingMn true ([5, 7] : Limbs 64) [6, 7] = .panic ∧
    Raw.Add.wrappingMn true ([5, 7] : Limbs 64) [6] = .panic := by decide

/-- C84: signed sum of arrays of equal length, and with a limb or a signed double limb: exact
from two limbs on, a panic below. -/
theorem C84_int_add (hw : 1 < w) (hl : a.length = b.length) (n : BitVec w) (m : BitVec (w + w)) :
    (Leaves be (a.length < 2) (WrapS a.length (memInt be a + memInt be b)) (Raw.Add.sWrappingFull be a b) ∧
      LeavesO be (a.length < 2) (OverS a.length (memInt be a + memInt be b))
        (Raw.Add.sOverflowingFull be a b)) ∧
    (Leaves be (a.length < 2) (WrapS a.length (memInt be a + n.toNat)) (Raw.Add.wrappingLimb be a n) ∧
      LeavesO be (a.length < 2) (OverS a.length (memInt be a + n.toNat)) (Raw.Add.sOverflowingULimb be a n)) ∧
    (Leaves be (a.length < 2) (WrapS a.length (memInt be a + n.toInt)) (Raw.Add.sWrappingILimb be a n) ∧
      LeavesO be (a.length < 2) (OverS a.length (memInt be a + n.toInt)) (Raw.Add.sOverflowingILimb be a n)) ∧
    (Leaves be (a.length < 2) (WrapS a.length (memInt be a + m.toInt)) (Raw.Add.sWrappingIWide be a m) ∧
      LeavesO be (a.length < 2) (OverS a.length (memInt be a + m.toInt))
        (Raw.Add.sOverflowingIWide be a m)) := by
  obtain ⟨x, rfl⟩ := Raw.exists_mem be a
  obtain ⟨y, rfl⟩ := Raw.exists_mem be b
  simp only [Raw.mem_length, Raw.memInt_mem] at *
  have h0 : ¬ x.length < 2 → x ≠ [] := fun h => List.length_pos_iff.1 (by omega)
  have p : ∀ {α : Type} (k : Unit → Res α), x.length < 2 →
      (Raw.assert (decide ((Raw.mem be x).length ≥ 2)) >>= k) = .panic := fun k h =>
    Raw.assert_panic (by simpa using h) k
  have pI : ∀ {α : Type} (k : Limbs w → Res α), x.length < 2 → (∀ z, k z = .panic) →
      (Raw.rhsI be (Raw.mem be x).length n >>= k) = .panic := by
    intro α k h hk
    rw [Raw.mem_length]
    by_cases hx : x.length = 0
    · rw [hx, Raw.rhsI_zero]; rfl
    · rw [Raw.rhsI_ok be (by omega), Res.mbind_ok, hk]
  have pW : ∀ {α : Type} (k : Limbs w → Res α), x.length < 2 →
      (Raw.rhsIW be (Raw.mem be x).length m >>= k) = .panic := by
    intro α k h
    rw [Raw.mem_length, Raw.rhsIW_panic be (by omega) h]
    rfl
  refine ⟨⟨⟨fun h => p _ h, fun h => ?_⟩, ⟨fun h => p _ h, fun h => ?_⟩⟩,
    ⟨⟨fun h => p _ h, fun h => ?_⟩, ⟨fun h => p _ h, fun h => ?_⟩⟩,
    ⟨⟨fun h => pI _ h fun _ => p _ h, fun h => ?_⟩, ⟨fun h => pI _ h fun _ => p _ h, fun h => ?_⟩⟩,
    ⟨⟨fun h => pW _ h, fun h => ?_⟩, ⟨fun h => pW _ h, fun h => ?_⟩⟩⟩
  · rw [Raw.Add.sWrappingFull_ok be x y hl (by omega)]
    exact Raw.holds (Add.wrapS (by omega) hl)
  · rw [Raw.Add.sOverflowingFull_ok be x y hl (by omega)]
    exact Raw.holdsO (Add.overS hw (h0 h) hl)
  · rw [Raw.Add.wrappingLimb_ok be x n (by omega)]
    exact Raw.holds (Add.limbWrapS (by omega) (h0 h) n)
  · rw [Raw.Add.sOverflowingULimb_ok be x n (by omega)]
    exact Raw.holdsO (Add.uLimbOverS hw (by omega) n)
  · rw [Raw.Add.sWrappingILimb_ok be x n (by omega)]
    exact Raw.holds (Add.iLimbWrapS hw (by omega) n)
  · rw [Raw.Add.sOverflowingILimb_ok be x n (by omega)]
    exact Raw.holdsO (Add.iLimbOverS hw (by omega) n)
  · rw [Raw.Add.sWrappingIWide_ok be (by omega) x m (by omega)]
    exact Raw.holds (Add.iWideWrapS hw (by omega) m)
  · rw [Raw.Add.sOverflowingIWide_ok be (by omega) x m (by omega)]
    exact Raw.holdsO (Add.iWideOverS hw (by omega) m)

example := C84_int_add (w := 64) (be := true) (a := [5, 7]) (b := [6, 7]) (by decide) (by decide) (-9) (-9)
example : Raw.Add.sOverflowingFull true ([0x8000000000000000, 7] : Limbs 64) [0xffffffffffffffff, 0] =
      .ok ([0x7fffffffffffffff, 7], true) ∧
    Raw.Add.sOverflowingILimb true ([0, 7] : Limbs 64) (-9) =
      .ok ([0xffffffffffffffff, 0xfffffffffffffffe], false) ∧
    Raw.Add.sOverflowingIWide true ([7] : Limbs 64) (-9) = .panic ∧
    Raw.Add.sWrappingFull true ([7] : Limbs 64) [3] = .panic := by decide

/-- C84: signed difference of arrays of equal length, and with a limb or a signed double limb: exact
from two limbs on, a panic below. -/
theorem C84_int_sub (hw : 1 < w) (hl : a.length = b.length) (n : BitVec w) (m : BitVec (w + w)) :
    (Leaves be (a.length < 2) (WrapS a.length (memInt be a - memInt be b)) (Raw.Sub.wrappingFull be a b) ∧
      LeavesO be (a.length < 2) (OverS a.length (memInt be a - memInt be b))
        (Raw.Sub.sOverflowingFull be a b)) ∧
    (Leaves be (a.length < 2) (WrapS a.length (memInt be a - n.toNat)) (Raw.Sub.wrappingLimb be a n) ∧
      LeavesO be (a.length < 2) (OverS a.length (memInt be a - n.toNat)) (Raw.Sub.sOverflowingULimb be a n)) ∧
    (Leaves be (a.length < 2) (WrapS a.length (memInt be a - n.toInt)) (Raw.Sub.sWrappingILimb be a n) ∧
      LeavesO be (a.length < 2) (OverS a.length (memInt be a - n.toInt)) (Raw.Sub.sOverflowingILimb be a n)) ∧
    (Leaves be (a.length < 2) (WrapS a.length (memInt be a - m.toInt)) (Raw.Sub.sWrappingIWide be a m) ∧
      LeavesO be (a.length < 2) (OverS a.length (memInt be a - m.toInt))
        (Raw.Sub.sOverflowingIWide be a m)) := by
  obtain ⟨x, rfl⟩ := Raw.exists_mem be a
  obtain ⟨y, rfl⟩ := Raw.exists_mem be b
  simp only [Raw.mem_length, Raw.memInt_mem] at *
  have h0 : ¬ x.length < 2 → x ≠ [] := fun h => List.length_pos_iff.1 (by omega)
  have p : ∀ {α : Type} (k : Unit → Res α), x.length < 2 →
      (Raw.assert (decide ((Raw.mem be x).length ≥ 2)) >>= k) = .panic := fun k h =>
    Raw.assert_panic (by simpa using h) k
  have pI : ∀ {α : Type} (k : Limbs w → Res α), x.length < 2 → (∀ z, k z = .panic) →
      (Raw.rhsI be (Raw.mem be x).length n >>= k) = .panic := by
    intro α k h hk
    rw [Raw.mem_length]
    by_cases hx : x.length = 0
    · rw [hx, Raw.rhsI_zero]; rfl
    · rw [Raw.rhsI_ok be (by omega), Res.mbind_ok, hk]
  have pW : ∀ {α : Type} (k : Limbs w → Res α), x.length < 2 →
      (Raw.rhsIW be (Raw.mem be x).length m >>= k) = .panic := by
    intro α k h
    rw [Raw.mem_length, Raw.rhsIW_panic be (by omega) h]
    rfl
  refine ⟨⟨⟨fun h => p _ h, fun h => ?_⟩, ⟨fun h => p _ h, fun h => ?_⟩⟩,
    ⟨⟨fun h => p _ h, fun h => ?_⟩, ⟨fun h => p _ h, fun h => ?_⟩⟩,
    ⟨⟨fun h => pI _ h fun _ => p _ h, fun h => ?_⟩, ⟨fun h => pI _ h fun _ => p _ h, fun h => ?_⟩⟩,
    ⟨⟨fun h => pW _ h, fun h => ?_⟩, ⟨fun h => pW _ h, fun h => ?_⟩⟩⟩
  · rw [Raw.Sub.wrappingFull_ok be x y hl (by omega)]
    exact Raw.holds (Sub.wrapS (by omega) hl)
  · rw [Raw.Sub.sOverflowingFull_ok be x y hl (by omega)]
    exact Raw.holdsO (Sub.overS hw (h0 h) hl)
  · rw [Raw.Sub.wrappingLimb_ok be x n (by omega)]
    exact Raw.holds (Sub.limbWrapS (by omega) (h0 h) n)
  · rw [Raw.Sub.sOverflowingULimb_ok be x n (by omega)]
    exact Raw.holdsO (Sub.uLimbOverS hw (by omega) n)
  · rw [Raw.Sub.sWrappingILimb_ok be x n (by omega)]
    exact Raw.holds (Sub.iLimbWrapS hw (by omega) n)
  · rw [Raw.Sub.sOverflowingILimb_ok be x n (by omega)]
    exact Raw.holdsO (Sub.iLimbOverS hw (by omega) n)
  · rw [Raw.Sub.sWrappingIWide_ok be (by omega) x m (by omega)]
    exact Raw.holds (Sub.iWideWrapS hw (by omega) m)
  · rw [Raw.Sub.sOverflowingIWide_ok be (by omega) x m (by omega)]
    exact Raw.holdsO (Sub.iWideOverS hw (by omega) m)

example := C84_int_sub (w := 64) (be := true) (a := [5, 7]) (b := [6, 7]) (by decide) (by decide) (-9) (-9)
example : Raw.Sub.sOverflowingFull true ([0x7fffffffffffffff, 7] : Limbs 64) [0xffffffffffffffff, 0] =
      .ok ([0x8000000000000000, 7], true) ∧
    Raw.Sub.sOverflowingILimb true ([0, 7] : Limbs 64) (-9) = .ok ([0, 16], false) ∧
    Raw.Sub.sOverflowingIWide true ([7] : Limbs 64) (-9) = .panic ∧
    Raw.Sub.wrappingFull true ([7] : Limbs 64) [3] = .panic := by decide

/-- C84 fails: `overflowing_uwide` of the signed addition and subtraction, called with two limbs, takes the
scalar for a signed number. -/
theorem C84_int_uwide_false :
    ¬ (∀ (a : Limbs 64) (m : BitVec (64 + 64)), a.length = 2 →
      HoldsO true (OverS a.length (memInt true a + m.toNat)) (Raw.Add.sOverflowingUWide true a m)) ∧
    ¬ (∀ (a : Limbs 64) (m : BitVec (64 + 64)), a.length = 2 →
      HoldsO true (OverS a.length (memInt true a - m.toNat)) (Raw.Sub.sOverflowingUWide true a m)) := by
  have e1 : Raw.Add.sOverflowingUWide (w := 64) true [0, 0] (BitVec.allOnes 128) =
      .ok ([BitVec.allOnes 64, BitVec.allOnes 64], false) := by decide +kernel
  have e2 : Raw.Sub.sOverflowingUWide (w := 64) true [0x8000000000000000, 0] (BitVec.allOnes 128) =
      .ok ([0x8000000000000000, 1], false) := by decide +kernel
  constructor
  · intro h
    obtain ⟨r, o, e, -, h2⟩ := h [0, 0] (BitVec.allOnes 128) rfl
    rw [e1] at e
    simp only [Res.ok.injEq, Prod.mk.injEq] at e
    obtain ⟨-, rfl⟩ := e
    exact absurd (h2.2 (by decide +kernel)) (by simp)
  · intro h
    obtain ⟨r, o, e, -, h2⟩ := h [0x8000000000000000, 0] (BitVec.allOnes 128) rfl
    rw [e2] at e
    simp only [Res.ok.injEq, Prod.mk.injEq] at e
    obtain ⟨-, rfl⟩ := e
    exact absurd (h2.2 (by decide +kernel)) (by simp)

/-- C84: signed sum and difference with an unsigned double limb: a panic below two limbs, and exact from
three limbs on; with two limbs the value is still right but the flag is the one for the scalar taken as a
signed number.  Missing: the flag for two limbs, see `C84_int_uwide_false`. -/
theorem C84_int_uwide_partial (hw : 1 < w) (m : BitVec (w + w)) :
    (Leaves be (a.length < 2) (WrapS a.length (memInt be a + m.toNat)) (Raw.Add.sWrappingUWide be a m) ∧
      LeavesO be (a.length < 2)
        (OverS a.length (memInt be a + if a.length = 2 then m.toInt else m.toNat))
        (Raw.Add.sOverflowingUWide be a m)) ∧
    (Leaves be (a.length < 2) (WrapS a.length (memInt be a - m.toNat)) (Raw.Sub.sWrappingUWide be a m) ∧
      LeavesO be (a.length < 2)
        (OverS a.length (memInt be a - if a.length = 2 then m.toInt else m.toNat))
        (Raw.Sub.sOverflowingUWide be a m)) := by
  obtain ⟨x, rfl⟩ := Raw.exists_mem be a
  simp only [Raw.mem_length, Raw.memInt_mem] at *
  have h0 : ¬ x.length < 2 → x ≠ [] := fun h => List.length_pos_iff.1 (by omega)
  have pW : ∀ {α : Type} (k : Limbs w → Res α), x.length < 2 →
      (Raw.rhsUW be (Raw.mem be x).length m >>= k) = .panic := by
    intro α k h
    rw [Raw.mem_length, Raw.rhsUW_panic be (by omega) h]
    rfl
  have ev : ¬ x.length < 2 → toInt (extUW x.length m) = if x.length = 2 then m.toInt else m.toNat := by
    intro h
    split
    · rename_i h2; rw [h2, extUW_two]
    · rw [extUW_toInt (by omega) (by omega)]
  have el : ¬ x.length < 2 → x.length = (extUW x.length m).length := fun h =>
    (extUW_length (by omega) m).symm
  have en : ¬ x.length < 2 → toInt (extUW x.length m) ≡ m.toNat [ZMOD 2 ^ (w * x.length)] := by
    intro h
    have := toInt_modEq (extUW x.length m)
    rwa [extUW_toNat, ← el h] at this
  refine ⟨⟨⟨fun h => pW _ h, fun h => ?_⟩, ⟨fun h => pW _ h, fun h => ?_⟩⟩,
    ⟨⟨fun h => pW _ h, fun h => ?_⟩, ⟨fun h => pW _ h, fun h => ?_⟩⟩⟩
  · rw [Raw.Add.sWrappingUWide_ok be (by omega) x m (by omega)]
    refine Raw.holds ((Add.wrapS (by omega) (el h)).congr ?_)
    exact (en h).add_left _
  · rw [Raw.Add.sOverflowingUWide_ok be (by omega) x m (by omega), ← ev h]
    exact Raw.holdsO (Add.overS hw (h0 h) (el h))
  · rw [Raw.Sub.sWrappingUWide_ok be (by omega) x m (by omega)]
    refine Raw.holds ((Sub.wrapS (by omega) (el h)).congr ?_)
    exact (en h).sub_left _
  · rw [Raw.Sub.sOverflowingUWide_ok be (by omega) x m (by omega), ← ev h]
    exact Raw.holdsO (Sub.overS hw (h0 h) (el h))

example := (C84_int_uwide_partial (w := 64) (be := true) (a := [5, 7]) (by decide) 9).1.2.2 (by decide)
example : Raw.Add.sOverflowingUWide true ([5, 7] : Limbs 64) (BitVec.allOnes 128) = .ok ([5, 6], false) ∧
    Raw.Add.sOverflowingUWide true ([5, 7, 0] : Limbs 64) (BitVec.allOnes 128) =
      .ok ([6, 6, 0xffffffffffffffff], false) ∧
    Raw.Add.sOverflowingUWide true ([5] : Limbs 64) 3 = .panic := by decide +kernel

/-! ### Products -/

/-- C84: unsigned products of arrays of any lengths: a panic exactly if the second is longer, otherwise the
exact product reduced to the length of the first, and the exact flag. -/
theorem C84_uint_mul (hw : 0 < w) :
    Leaves be (a.length < b.length) (WrapU a.length ((memNat be a : Int) * memNat be b))
        (Raw.Mul.wrappingFull be a b) ∧
      LeavesO be (a.length < b.length) (OverU a.length ((memNat be a : Int) * memNat be b))
        (Raw.Mul.overflowingFull be a b) := by
  obtain ⟨x, rfl⟩ := Raw.exists_mem be a
  obtain ⟨y, rfl⟩ := Raw.exists_mem be b
  simp only [Raw.mem_length, Raw.memNat_mem] at *
  refine ⟨⟨fun h => ?_, fun h => ?_⟩, ⟨fun h => ?_, fun h => ?_⟩⟩
  · exact Raw.assert_panic (by simpa using h) _
  · rw [Raw.Mul.wrappingFull_ok be hw x y (by omega)]
    exact Raw.holds (Mul.wrapU' x y)
  · exact Raw.assert_panic (by simpa using h) _
  · rw [Raw.Mul.overflowingFull_ok be hw x y (by omega)]
    exact Raw.holdsO (Mul.overU' x y)

example := (C84_uint_mul (w := 64) (be := true) (a := [5, 7, 9]) (b := [6, 7]) (by decide)).1.2 (by decide)
example : Raw.Mul.overflowingFull true ([0, 7, 9] : Limbs 64) [6, 7] = .ok ([42, 103, 63], false) ∧
    Raw.Mul.overflowingFull true ([1, 7, 9] : Limbs 64) [6, 7] = .ok ([49, 103, 63], true) ∧
    Raw.Mul.wrappingFull true ([1, 7, 9] : Limbs 64) [] = .ok [0, 0, 0] ∧
    Raw.Mul.wrappingFull true ([7, 9] : Limbs 64) [0, 0, 1] = .panic := by decide

/-- C84: unsigned products with a limb or a double limb: a panic exactly if the array has no room for the
scalar. -/
theorem C84_uint_mul_scalar (hw : 0 < w) (n : BitVec w) (m : BitVec (w + w)) :
    (Leaves be (a.length < 1) (WrapU a.length ((memNat be a : Int) * n.toNat)) (Raw.Mul.wrappingLimb be a n) ∧
      LeavesO be (a.length < 1) (OverU a.length ((memNat be a : Int) * n.toNat))
        (Raw.Mul.overflowingLimb be a n)) ∧
    (Leaves be (a.length < 2) (WrapU a.length ((memNat be a : Int) * m.toNat)) (Raw.Mul.wrappingWide be a m) ∧
      LeavesO be (a.length < 2) (OverU a.length ((memNat be a : Int) * m.toNat))
        (Raw.Mul.overflowingWide be a m)) := by
  have e : ∀ b : Limbs w, b = Raw.mem be [n] → memNat be b = n.toNat ∧ b.length = 1 := by
    rintro _ rfl
    rw [Raw.memNat_mem, Raw.mem_length]
    exact ⟨by simp, rfl⟩
  have e1 : [n] = Raw.mem be [n] := by cases be <;> rfl
  have e2 : memNat be (Raw.mem be (extUW 2 m)) = m.toNat ∧ (Raw.mem be (extUW 2 m)).length = 2 := by
    rw [Raw.memNat_mem, Raw.mem_length, extUW_toNat, extUW_length (Nat.le_refl 2)]
    exact ⟨rfl, rfl⟩
  refine ⟨?_, ?_⟩
  · have := C84_uint_mul (be := be) (a := a) (b := [n]) hw
    rwa [(e _ e1).1, (e _ e1).2] at this
  · have := C84_uint_mul (be := be) (a := a) (b := Raw.mem be (extUW 2 m)) hw
    rw [e2.1, e2.2] at this
    unfold Raw.Mul.wrappingWide Raw.Mul.overflowingWide
    rw [Raw.rhsUW_ok be hw (Nat.le_refl 2)]
    exact this

example := (C84_uint_mul_scalar (w := 64) (be := true) (a := [5, 7, 9]) (by decide) 7 9).1.1.2 (by decide)
example : Raw.Mul.overflowingLimb true ([5] : Limbs 64) 7 = .ok ([35], false) ∧
    Raw.Mul.overflowingWide true ([5, 7] : Limbs 64) 7 = .ok ([35, 49], false) ∧
    Raw.Mul.overflowingWide true ([7] : Limbs 64) 7 = .panic := by decide

/-- C84: the widening product of arrays of equal length, also of empty ones. -/
theorem C84_widening_mul (hw : 0 < w) (hl : a.length = b.length) :
    ∃ lo hi, Raw.Mul.widening be a b = .ok (lo, hi) ∧ lo.length = a.length ∧ hi.length = a.length ∧
      memNat be lo + 2 ^ (w * a.length) * memNat be hi = memNat be a * memNat be b := by
  by_cases h0 : a.length = 0
  · obtain rfl := List.length_eq_zero_iff.1 h0
    obtain rfl := List.length_eq_zero_iff.1 (hl.symm.trans h0)
    exact ⟨[], [], rfl, rfl, rfl, by cases be <;> rfl⟩
  obtain ⟨x, rfl⟩ := Raw.exists_mem be a
  obtain ⟨y, rfl⟩ := Raw.exists_mem be b
  simp only [Raw.mem_length, Raw.memNat_mem] at *
  refine ⟨_, _, Raw.Mul.widening_ok be hw x y hl.symm, ?_⟩
  simp only [Raw.mem_length, Raw.memNat_mem]
  exact Mul.widening_spec x y hl (by omega)

example := C84_widening_mul (w := 64) (be := true) (a := [5]) (b := [7]) (by decide) (by decide)
example : Raw.Mul.widening true ([0xffffffffffffffff] : Limbs 64) [0xffffffffffffffff] =
    .ok ([1], [0xfffffffffffffffe]) := by decide

/-- C84 fails: the signed `wrapping_full` does not extend the sign of a shorter second factor, although
`overflowing_full` does. -/
theorem C84_int_mul_wrapping_false :
    ¬ (∀ a b : Limbs 64, b ≠ [] → b.length ≤ a.length →
      Holds true (WrapS a.length (memInt true a * memInt true b)) (Raw.Mul.wrappingFull true a b)) := by
  intro h
  obtain ⟨r, e, -, h2⟩ := h [0, 1] [BitVec.allOnes 64] (by decide) (by decide)
  have e1 : Raw.Mul.wrappingFull true ([0, 1] : Limbs 64) [BitVec.allOnes 64] =
    .ok [0, BitVec.allOnes 64] := by decide
  rw [e1] at e
  obtain rfl := Res.ok.inj e
  exact absurd h2 (by decide +kernel)

/-- C84: the signed `wrapping_full` multiplies by the second factor read as an unsigned number.  The result
is the signed product exactly if the lengths agree, the second factor is not negative, or the first one is
a multiple of `2 ^ (w * (M - N))`.  Missing: the other cases, see `C84_int_mul_wrapping_false`. -/
theorem C84_int_mul_wrapping_partial (hw : 0 < w) :
    Leaves be (a.length < b.length) (WrapS a.length (memInt be a * memNat be b))
      (Raw.Mul.wrappingFull be a b) ∧
    (b.length ≤ a.length →
      (Holds be (WrapS a.length (memInt be a * memInt be b)) (Raw.Mul.wrappingFull be a b) ↔
        0 ≤ memInt be b ∨ (2 : Int) ^ (w * (a.length - b.length)) ∣ memInt be a)) := by
  have key : Leaves be (a.length < b.length) (WrapS a.length (memInt be a * memNat be b))
      (Raw.Mul.wrappingFull be a b) := by
    obtain ⟨h1, h2⟩ := (C84_uint_mul (be := be) (a := a) (b := b) hw).1
    refine ⟨h1, fun h => ?_⟩
    obtain ⟨r, e, hr⟩ := h2 h
    refine ⟨r, e, (hr.congr ?_).wrapS⟩
    obtain ⟨x, rfl⟩ := Raw.exists_mem be a
    rw [Raw.mem_length, Raw.memNat_mem, Raw.memInt_mem]
    exact ((toInt_modEq x).mul_right _).symm
  refine ⟨key, fun hl => ?_⟩
  obtain ⟨r, e, hr⟩ := key.2 (by omega)
  have hd : memInt be a * memNat be b = memInt be a * memInt be b +
      memInt be a * (if 0 ≤ memInt be b then 0 else 2 ^ (w * b.length)) := by
    rw [← mul_add]
    congr 1
    obtain ⟨y, rfl⟩ := Raw.exists_mem be b
    rw [Raw.memNat_mem, Raw.memInt_mem, Raw.mem_length]
    exact toNat_sub_toInt y
  have hM : (2 : Int) ^ (w * a.length) = 2 ^ (w * (a.length - b.length)) * 2 ^ (w * b.length) := by
    rw [← pow_add, ← Nat.mul_add]
    congr 2
    omega
  have hP : (2 : Int) ^ (w * b.length) ≠ 0 := by positivity
  rw [e]
  constructor
  · rintro ⟨r', e', hr'⟩
    obtain rfl := Res.ok.inj e'
    have h := (hr.modEq.symm.trans hr'.modEq).symm.dvd
    rw [hd, add_sub_cancel_left] at h
    by_cases h0 : 0 ≤ memInt be b
    · exact Or.inl h0
    · rw [if_neg h0, hM] at h
      exact Or.inr (Int.dvd_of_mul_dvd_mul_right hP h)
  · intro h
    refine ⟨r, rfl, hr.congr ?_⟩
    rw [hd]
    refine Int.ModEq.symm (Int.modEq_iff_dvd.2 ?_)
    rw [add_sub_cancel_left]
    split
    · simp
    · rename_i h0
      rw [hM]
      exact mul_dvd_mul_right (h.resolve_left h0) _

example := (C84_int_mul_wrapping_partial (w := 64) (be := true) (a := [5, 7]) (b := [BitVec.allOnes 64])
  (by decide)).1.2 (by decide)
example : Raw.Mul.wrappingFull true ([5, 7] : Limbs 64) [BitVec.allOnes 64] = .ok [1, 0xfffffffffffffff9] ∧
    Raw.Mul.overflowingFullS true ([5, 7] : Limbs 64) [BitVec.allOnes 64] =
      .ok ([0xfffffffffffffffa, 0xfffffffffffffff9], false) ∧
    Raw.Mul.wrappingFull true ([7, 0] : Limbs 64) [BitVec.allOnes 64] = .ok [0xfffffffffffffff9, 0] := by
  decide +kernel

/-- C84: the signed `overflowing_full` for arrays of any lengths: a panic exactly if the second is empty or
longer; otherwise the wrapped product, and the flag is set unless the product is representable or in the
gap just below `MIN`.  Missing: the products in the gap, as in C08. -/
theorem C84_int_mul_overflowing_partial (hw : 0 < w) :
    LeavesO be (b.length = 0 ∨ a.length < b.length) (OverG a.length (memInt be a * memInt be b))
      (Raw.Mul.overflowingFullS be a b) := by
  obtain ⟨x, rfl⟩ := Raw.exists_mem be a
  obtain ⟨y, rfl⟩ := Raw.exists_mem be b
  simp only [Raw.mem_length, Raw.memInt_mem] at *
  refine ⟨fun h => ?_, fun h => ?_⟩
  · exact Raw.Mul.overflowingFullS_panic be h
  · rw [Raw.Mul.overflowingFullS_gen be hw x y (by omega) (by omega)]
    obtain ⟨h1, h2⟩ := Mul.overflowingFullS_gen hw (x := x) (y := y) (List.length_pos_iff.1 (by omega))
      (List.length_pos_iff.1 (by omega))
    exact Raw.holdsO ⟨h1, h2.trans (by unfold Passes; tauto)⟩

example := (C84_int_mul_overflowing_partial (w := 64) (be := true) (a := [5, 7]) (b := [BitVec.allOnes 64])
  (by decide)).2 (by decide)

/-- C84: with a single limb in the first factor there is no gap: the flag is exact. -/
theorem C84_int_mul_one_limb (hw : 0 < w) (hl : a.length = 1) (hb : b.length = 1) :
    HoldsO be (OverS 1 (memInt be a * memInt be b)) (Raw.Mul.overflowingFullS be a b) := by
  obtain ⟨r, o, e, h1, h2⟩ := (C84_int_mul_overflowing_partial (be := be) (a := a) (b := b) hw).2 (by omega)
  rw [hl] at h1 h2
  refine ⟨r, o, e, h1, h2.trans (not_congr ⟨fun h => ?_, Or.inl⟩)⟩
  rcases h with h | ⟨h3, h4⟩
  · exact h
  · simp only [Nat.sub_self, Nat.mul_zero, pow_zero] at h4
    omega

example := C84_int_mul_one_limb (w := 64) (be := true) (a := [5]) (b := [7]) (by decide) (by decide) (by decide)
example : Raw.Mul.overflowingFullS true ([0x8000000000000000] : Limbs 64) [BitVec.allOnes 64] =
      .ok ([0x8000000000000000], true) ∧
    Raw.Mul.overflowingFullS true ([0x4000000000000000] : Limbs 64) [-2] =
      .ok ([0x8000000000000000], false) ∧
    Raw.Mul.overflowingFullS true ([0x4000000000000001] : Limbs 64) [-2] =
      .ok ([0x7ffffffffffffffe], true) ∧
    Raw.Mul.overflowingFullS true ([5] : Limbs 64) [] = .panic := by decide +kernel

/-- C84 fails: the signed `overflowing_ulimb` with one limb and `overflowing_uwide` with two take the scalar
for a signed number. -/
theorem C84_int_mul_uscalar_false :
    ¬ (∀ (a : Limbs 64) (n : BitVec 64), a.length = 1 →
      HoldsO true (OverS a.length (memInt true a * n.toNat)) (Raw.Mul.overflowingULimbS true a n)) ∧
    ¬ (∀ (a : Limbs 64) (m : BitVec (64 + 64)), a.length = 2 →
      HoldsO true (OverS a.length (memInt true a * m.toNat)) (Raw.Mul.overflowingUWideS true a m)) := by
  have e1 : Raw.Mul.overflowingULimbS (w := 64) true [1] (BitVec.allOnes 64) =
      .ok ([BitVec.allOnes 64], false) := by decide +kernel
  have e2 : Raw.Mul.overflowingUWideS (w := 64) true [0, 1] (BitVec.allOnes 128) =
      .ok ([BitVec.allOnes 64, BitVec.allOnes 64], false) := by decide +kernel
  constructor
  · intro h
    obtain ⟨r, o, e, -, h2⟩ := h [1] (BitVec.allOnes 64) rfl
    rw [e1] at e
    simp only [Res.ok.injEq, Prod.mk.injEq] at e
    obtain ⟨-, rfl⟩ := e
    exact absurd (h2.2 (by decide +kernel)) (by simp)
  · intro h
    obtain ⟨r, o, e, -, h2⟩ := h [0, 1] (BitVec.allOnes 128) rfl
    rw [e2] at e
    simp only [Res.ok.injEq, Prod.mk.injEq] at e
    obtain ⟨-, rfl⟩ := e
    exact absurd (h2.2 (by decide +kernel)) (by simp)

/-- C84: the signed products with a scalar and a flag, for an array of any length.  Missing: unsigned
scalars as wide as the array, see `C84_int_mul_uscalar_false`, and the gap of C08. -/
theorem C84_int_mul_scalar_partial (hw : 0 < w) (n : BitVec w) (m : BitVec (w + w)) :
    LeavesO be (a.length < 1) (OverG a.length (memInt be a * if a.length = 1 then n.toInt else n.toNat))
      (Raw.Mul.overflowingULimbS be a n) ∧
    LeavesO be (a.length < 2) (OverG a.length (memInt be a * if a.length = 2 then m.toInt else m.toNat))
      (Raw.Mul.overflowingUWideS be a m) ∧
    LeavesO be (a.length < 1) (OverG a.length (memInt be a * n.toInt)) (Raw.Mul.overflowingILimbS be a n) ∧
    LeavesO be (a.length < 2) (OverG a.length (memInt be a * m.toInt)) (Raw.Mul.overflowingIWideS be a m) := by
  obtain ⟨x, rfl⟩ := Raw.exists_mem be a
  simp only [Raw.mem_length, Raw.memInt_mem] at *
  have go : ∀ {k : Nat} (y : Limbs w) (z : Int), 1 ≤ k → ¬ x.length < k → y.length = x.length → toInt y = z →
      HoldsO be (OverG x.length (toInt x * z)) (Raw.Mul.overflowingFullS be (Raw.mem be x) (Raw.mem be y)) := by
    intro k y z hk h hl hz
    have := (C84_int_mul_overflowing_partial (be := be) (a := Raw.mem be x) (b := Raw.mem be y) hw).2
      (by simp only [Raw.mem_length]; omega)
    rwa [Raw.mem_length, Raw.memInt_mem, Raw.memInt_mem, hz] at this
  refine ⟨⟨fun h => ?_, fun h => ?_⟩, ⟨fun h => ?_, fun h => ?_⟩, ⟨fun h => ?_, fun h => ?_⟩,
    ⟨fun h => ?_, fun h => ?_⟩⟩
  · obtain rfl := List.length_eq_zero_iff.1 (show x.length = 0 by omega)
    cases be <;> rfl
  · unfold Raw.Mul.overflowingULimbS
    rw [Raw.mem_length, Raw.wr_rep be (by omega), Res.mbind_ok]
    have e : (List.replicate x.length 0).set 0 n = extU x.length n := by
      obtain ⟨m, hm⟩ : ∃ m, x.length = m + 1 := ⟨x.length - 1, by omega⟩
      simp [extU, hm, List.replicate_succ]
    rw [e]
    refine go _ _ (by omega) h (extU_length (by omega) n) ?_
    split
    · rename_i h1; rw [h1, extU_one]
    · rw [extU_toInt hw (by omega)]
  · rw [Raw.Mul.overflowingUWideS, Raw.mem_length, Raw.rhsUW_panic be hw h]
    rfl
  · rw [Raw.Mul.overflowingUWideS, Raw.mem_length, Raw.rhsUW_ok be hw (by omega), Res.mbind_ok]
    refine go _ _ (by omega) h (extUW_length (by omega) m) ?_
    split
    · rename_i h1; rw [h1, extUW_two]
    · rw [extUW_toInt hw (by omega)]
  · obtain rfl := List.length_eq_zero_iff.1 (show x.length = 0 by omega)
    cases be <;> rfl
  · rw [Raw.Mul.overflowingILimbS, Raw.mem_length, Raw.rhsI_ok be (by omega), Res.mbind_ok]
    exact go _ _ (by omega) h (extI_length (by omega) n) (extI_toInt (by omega) n)
  · rw [Raw.Mul.overflowingIWideS, Raw.mem_length, Raw.rhsIW_panic be hw h]
    rfl
  · rw [Raw.Mul.overflowingIWideS, Raw.mem_length, Raw.rhsIW_ok be hw (by omega), Res.mbind_ok]
    exact go _ _ (by omega) h (extIW_length (by omega) m) (extIW_toInt (by omega) m)

example := (C84_int_mul_scalar_partial (w := 64) (be := true) (a := [5, 7]) (by decide) 3 (-3)).1.2 (by decide)
example : Raw.Mul.overflowingULimbS true ([2] : Limbs 64) (-3) = .ok ([-6], false) ∧
    Raw.Mul.overflowingULimbS true ([0, 2] : Limbs 64) (-3) = .ok ([1, -6], false) ∧
    Raw.Mul.overflowingIWideS true ([0, 2] : Limbs 64) (-3) = .ok ([-1, -6], false) ∧
    Raw.Mul.overflowingIWideS true ([2] : Limbs 64) (-3) = .panic := by decide +kernel

end I256
