import Verif.SpecRaw
import Verif.Lemmas.RawMul
import Verif.Lemmas.RawRun
import Verif.Lemmas.Scalar
import Verif.Props.Samples

/-!
# C63: the addition, subtraction and negation kernels in memory

The theorems are about the literal transcription of `src/math/add.rs`, `src/math/sub.rs` and
`negate!`: arrays in memory order of a little-endian or a big-endian machine, checked indexing, checked
native arithmetic and the assertions.  They say that the run ends normally, never indexes out of range,
never fails an assertion, and leaves the array of the exact result.  `2 ≤ a.length` and `3 ≤ a.length`
are the crate's own assertions and hold for all its types (4 limbs or more).
-/

namespace I256

open Sample

variable {w : Nat} {be : Bool} {a b : Limbs w}

/-! ### add -/

/-- C63: unsigned add of two arrays. -/
theorem C63_uint_add (hw : 0 < w) (h1 : 1 ≤ a.length) (hl : a.length = b.length) :
    Holds be (WrapU a.length (memNat be a + memNat be b)) (Raw.Add.wrappingFull be a b) ∧
      HoldsO be (OverU a.length (memNat be a + memNat be b)) (Raw.Add.overflowingFull be a b) := by
  obtain ⟨x, rfl⟩ := Raw.exists_mem be a
  obtain ⟨y, rfl⟩ := Raw.exists_mem be b
  simp only [Raw.mem_length, Raw.memNat_mem] at *
  rw [Raw.Add.wrappingFull_ok be x y hl h1, Raw.Add.overflowingFull_ok be x y hl]
  exact ⟨Raw.holds (Add.wrapU hw hl), Raw.holdsO (Add.overU hw hl)⟩

example := C63_uint_add (w := 64) (be := true) (a := [0, 5, 0, 0xffffffffffffffff]) (b := one) (by decide) (by decide)
  (by decide)
example : Raw.Add.overflowingFull true [0, 5, 0, 0xffffffffffffffff] ([0, 0, 0, 1] : Limbs 64) =
    .ok ([0, 5, 1, 0], false) := by decide
example : Raw.Add.overflowingFull false ones one = .ok (zero, true) := by decide

/-- C63: unsigned add of a limb. -/
theorem C63_uint_add_limb (hw : 0 < w) (h2 : 2 ≤ a.length) (n : BitVec w) :
    Holds be (WrapU a.length (memNat be a + n.toNat)) (Raw.Add.wrappingLimb be a n) ∧
      HoldsO be (OverU a.length (memNat be a + n.toNat)) (Raw.Add.overflowingLimb be a n) := by
  obtain ⟨x, rfl⟩ := Raw.exists_mem be a
  simp only [Raw.mem_length, Raw.memNat_mem] at *
  rw [Raw.Add.wrappingLimb_ok be x n h2, Raw.Add.overflowingLimb_ok be x n h2]
  have h0 : x ≠ [] := by rintro rfl; simp at h2
  exact ⟨Raw.holds (Add.limbWrapU hw h0 n), Raw.holdsO (Add.limbOverU hw h0 n)⟩

example := C63_uint_add_limb (w := 64) (be := true) (a := [0, 5, 0, 0xffffffffffffffff]) (by decide) (by decide) 7
example : Raw.Add.overflowingLimb true [0, 5, 0, 0xffffffffffffffff] (7 : BitVec 64) =
    .ok ([0, 5, 1, 6], false) := by decide

/-- C63: unsigned add of a double limb; three limbs at least are needed. -/
theorem C63_uint_add_wide (hw : 0 < w) (n : BitVec (w + w)) :
    (3 ≤ a.length →
      Holds be (WrapU a.length (memNat be a + n.toNat)) (Raw.Add.wrappingWide be a n) ∧
        HoldsO be (OverU a.length (memNat be a + n.toNat)) (Raw.Add.overflowingWide be a n)) ∧
      (a.length ≤ 2 → Raw.Add.wrappingWide be a n = .panic ∧ Raw.Add.overflowingWide be a n = .panic) := by
  obtain ⟨x, rfl⟩ := Raw.exists_mem be a
  simp only [Raw.mem_length, Raw.memNat_mem] at *
  refine ⟨fun h3 => ?_, fun h2 => ?_⟩
  · rw [Raw.Add.wrappingWide_ok be hw x n h3, Raw.Add.overflowingWide_ok be hw x n h3]
    obtain ⟨v, e1, h1⟩ := Add.wideWrapU hw h3 n
    obtain ⟨r, e2, h2⟩ := Add.wideOverU hw h3 n
    rw [e1, e2, Res.map_ok, Res.map_ok]
    exact ⟨Raw.holds h1, Raw.holdsO h2⟩
  · have e : Raw.assert (decide ((Raw.mem be (extUW 2 n)).length ≥ 2) &&
        decide ((Raw.mem be x).length > (Raw.mem be (extUW 2 n)).length)) = .panic := by
      simp [Raw.assert, extUW, h2]
    constructor
    · rw [Raw.Add.wrappingWide, Raw.rhsUW_ok be hw (Nat.le_refl 2), Res.mbind_ok, Raw.Add.wrappingMn, e]
      rfl
    · rw [Raw.Add.overflowingWide, Raw.rhsUW_ok be hw (Nat.le_refl 2), Res.mbind_ok,
        Raw.Add.overflowingMn, e]
      rfl

example := (C63_uint_add_wide (w := 64) (be := true) (a := [0, 5, 0, 0xffffffffffffffff]) (by decide) 7).1 (by decide)
example := (C63_uint_add_wide (w := 64) (be := true) (a := [0, 5]) (by decide) (7 : BitVec (64 + 64))).2 (by decide)
example : Raw.Add.overflowingWide true [0xffffffffffffffff, 0xffffffffffffffff, 0xffffffffffffffff, 0]
    (0x10000000000000003 : BitVec (64 + 64)) = .ok ([0, 0, 0, 3], true) := by decide

/-- C63: signed add of two arrays. -/
theorem C63_int_add (hw : 1 < w) (h2 : 2 ≤ a.length) (hl : a.length = b.length) :
    Holds be (WrapS a.length (memInt be a + memInt be b)) (Raw.Add.sWrappingFull be a b) ∧
      HoldsO be (OverS a.length (memInt be a + memInt be b)) (Raw.Add.sOverflowingFull be a b) := by
  obtain ⟨x, rfl⟩ := Raw.exists_mem be a
  obtain ⟨y, rfl⟩ := Raw.exists_mem be b
  simp only [Raw.mem_length, Raw.memInt_mem] at *
  rw [Raw.Add.sWrappingFull_ok be x y hl h2, Raw.Add.sOverflowingFull_ok be x y hl h2]
  have h0 : x ≠ [] := by rintro rfl; simp at h2
  exact ⟨Raw.holds (Add.wrapS (by omega) hl), Raw.holdsO (Add.overS hw h0 hl)⟩

example := C63_int_add (w := 64) (be := true) (a := [0x8000000000000000, 0, 0, 0]) (b := one) (by decide) (by decide)
  (by decide)
example : Raw.Add.sOverflowingFull true [0x7fffffffffffffff, 0xffffffffffffffff] ([0, 1] : Limbs 64) =
    .ok ([0x8000000000000000, 0], true) := by decide

/-- C63: signed add of an unsigned limb. -/
theorem C63_int_add_ulimb (hw : 1 < w) (h2 : 2 ≤ a.length) (n : BitVec w) :
    Holds be (WrapS a.length (memInt be a + n.toNat)) (Raw.Add.wrappingLimb be a n) ∧
      HoldsO be (OverS a.length (memInt be a + n.toNat)) (Raw.Add.sOverflowingULimb be a n) := by
  obtain ⟨x, rfl⟩ := Raw.exists_mem be a
  simp only [Raw.mem_length, Raw.memInt_mem] at *
  have hw0 : 0 < w := by omega
  have h0 : x ≠ [] := by rintro rfl; simp at h2
  rw [Raw.Add.wrappingLimb_ok be x n (by omega), Raw.Add.sOverflowingULimb_ok be x n (by omega)]
  exact ⟨Raw.holds (Add.limbWrapS (by omega) h0 n), Raw.holdsO (Add.uLimbOverS hw h2 n)⟩

example := C63_int_add_ulimb (w := 64) (be := true) (a := [0x8000000000000000, 0, 0, 0]) (by decide) (by decide) 7
example : Raw.Add.sOverflowingULimb true [0x7fffffffffffffff, 0xffffffffffffffff, 0xffffffffffffffff, 0xffffffffffffffff]
    (1 : BitVec 64) = .ok ([0x8000000000000000, 0, 0, 0], true) := by decide

/-- C63: signed add of a signed limb. -/
theorem C63_int_add_ilimb (hw : 1 < w) (h2 : 2 ≤ a.length) (n : BitVec w) :
    Holds be (WrapS a.length (memInt be a + n.toInt)) (Raw.Add.sWrappingILimb be a n) ∧
      HoldsO be (OverS a.length (memInt be a + n.toInt)) (Raw.Add.sOverflowingILimb be a n) := by
  obtain ⟨x, rfl⟩ := Raw.exists_mem be a
  simp only [Raw.mem_length, Raw.memInt_mem] at *
  have hw0 : 0 < w := by omega
  have h0 : x ≠ [] := by rintro rfl; simp at h2
  rw [Raw.Add.sWrappingILimb_ok be x n (by omega), Raw.Add.sOverflowingILimb_ok be x n (by omega)]
  exact ⟨Raw.holds (Add.iLimbWrapS hw (by omega) n), Raw.holdsO (Add.iLimbOverS hw (by omega) n)⟩

example := C63_int_add_ilimb (w := 64) (be := true) (a := [0x8000000000000000, 0, 0, 0]) (by decide) (by decide) 7
example : Raw.Add.sOverflowingILimb true [0x8000000000000000, 0, 0, 0]
    (-1 : BitVec 64) = .ok ([0x7fffffffffffffff, 0xffffffffffffffff, 0xffffffffffffffff, 0xffffffffffffffff], true) := by decide

/-- C63: signed add of an unsigned double limb. -/
theorem C63_int_add_uwide (hw : 1 < w) (h2 : 3 ≤ a.length) (n : BitVec (w + w)) :
    Holds be (WrapS a.length (memInt be a + n.toNat)) (Raw.Add.sWrappingUWide be a n) ∧
      HoldsO be (OverS a.length (memInt be a + n.toNat)) (Raw.Add.sOverflowingUWide be a n) := by
  obtain ⟨x, rfl⟩ := Raw.exists_mem be a
  simp only [Raw.mem_length, Raw.memInt_mem] at *
  have hw0 : 0 < w := by omega
  have h0 : x ≠ [] := by rintro rfl; simp at h2
  rw [Raw.Add.sWrappingUWide_ok be hw0 x n (by omega), Raw.Add.sOverflowingUWide_ok be hw0 x n (by omega)]
  exact ⟨Raw.holds (Add.uWideWrapS hw h2 n), Raw.holdsO (Add.uWideOverS hw h2 n)⟩

example := C63_int_add_uwide (w := 64) (be := true) (a := [0x8000000000000000, 0, 0, 0]) (by decide) (by decide) 7
example : Raw.Add.sOverflowingUWide true [0x7fffffffffffffff, 0xffffffffffffffff, 0xffffffffffffffff, 0xffffffffffffffff]
    (1 : BitVec (64 + 64)) = .ok ([0x8000000000000000, 0, 0, 0], true) := by decide

/-- C63: signed add of a signed double limb. -/
theorem C63_int_add_iwide (hw : 1 < w) (h2 : 2 ≤ a.length) (n : BitVec (w + w)) :
    Holds be (WrapS a.length (memInt be a + n.toInt)) (Raw.Add.sWrappingIWide be a n) ∧
      HoldsO be (OverS a.length (memInt be a + n.toInt)) (Raw.Add.sOverflowingIWide be a n) := by
  obtain ⟨x, rfl⟩ := Raw.exists_mem be a
  simp only [Raw.mem_length, Raw.memInt_mem] at *
  have hw0 : 0 < w := by omega
  have h0 : x ≠ [] := by rintro rfl; simp at h2
  rw [Raw.Add.sWrappingIWide_ok be hw0 x n (by omega), Raw.Add.sOverflowingIWide_ok be hw0 x n (by omega)]
  exact ⟨Raw.holds (Add.iWideWrapS hw h2 n), Raw.holdsO (Add.iWideOverS hw h2 n)⟩

example := C63_int_add_iwide (w := 64) (be := true) (a := [0x8000000000000000, 0, 0, 0]) (by decide) (by decide) 7
example : Raw.Add.sOverflowingIWide true [0x8000000000000000, 0, 0, 0]
    (-1 : BitVec (64 + 64)) = .ok ([0x7fffffffffffffff, 0xffffffffffffffff, 0xffffffffffffffff, 0xffffffffffffffff], true) := by decide

/-! ### sub -/

/-- C63: unsigned sub of two arrays. -/
theorem C63_uint_sub (hw : 0 < w) (h2 : 2 ≤ a.length) (hl : a.length = b.length) :
    Holds be (WrapU a.length (memNat be a - memNat be b)) (Raw.Sub.wrappingFull be a b) ∧
      HoldsO be (OverU a.length (memNat be a - memNat be b)) (Raw.Sub.overflowingFull be a b) := by
  obtain ⟨x, rfl⟩ := Raw.exists_mem be a
  obtain ⟨y, rfl⟩ := Raw.exists_mem be b
  simp only [Raw.mem_length, Raw.memNat_mem] at *
  rw [Raw.Sub.wrappingFull_ok be x y hl h2, Raw.Sub.overflowingFull_ok be x y hl h2]
  exact ⟨Raw.holds (Sub.wrapU hw hl), Raw.holdsO (Sub.overU hw hl)⟩

example := C63_uint_sub (w := 64) (be := true) (a := [0, 5, 0, 0xffffffffffffffff]) (b := one) (by decide) (by decide)
  (by decide)
example : Raw.Sub.overflowingFull true ([0, 5, 0, 0] : Limbs 64) [0, 0, 0, 1] =
    .ok ([0, 4, 0xffffffffffffffff, 0xffffffffffffffff], false) := by decide
example : Raw.Sub.overflowingFull false zero one = .ok (ones, true) := by decide

/-- C63: unsigned sub of a limb. -/
theorem C63_uint_sub_limb (hw : 0 < w) (h2 : 2 ≤ a.length) (n : BitVec w) :
    Holds be (WrapU a.length (memNat be a - n.toNat)) (Raw.Sub.wrappingLimb be a n) ∧
      HoldsO be (OverU a.length (memNat be a - n.toNat)) (Raw.Sub.overflowingLimb be a n) := by
  obtain ⟨x, rfl⟩ := Raw.exists_mem be a
  simp only [Raw.mem_length, Raw.memNat_mem] at *
  rw [Raw.Sub.wrappingLimb_ok be x n h2, Raw.Sub.overflowingLimb_ok be x n h2]
  have h0 : x ≠ [] := by rintro rfl; simp at h2
  exact ⟨Raw.holds (Sub.limbWrapU hw h0 n), Raw.holdsO (Sub.limbOverU hw h0 n)⟩

example := C63_uint_sub_limb (w := 64) (be := true) (a := [0, 5, 0, 0xffffffffffffffff]) (by decide) (by decide) 7
example : Raw.Sub.overflowingLimb true [0, 5, 0, 6] (7 : BitVec 64) =
    .ok ([0, 4, 0xffffffffffffffff, 0xffffffffffffffff], false) := by decide

/-- C63: unsigned sub of a double limb; three limbs at least are needed. -/
theorem C63_uint_sub_wide (hw : 0 < w) (n : BitVec (w + w)) :
    (3 ≤ a.length →
      Holds be (WrapU a.length (memNat be a - n.toNat)) (Raw.Sub.wrappingWide be a n) ∧
        HoldsO be (OverU a.length (memNat be a - n.toNat)) (Raw.Sub.overflowingWide be a n)) ∧
      (a.length ≤ 2 → Raw.Sub.wrappingWide be a n = .panic ∧ Raw.Sub.overflowingWide be a n = .panic) := by
  obtain ⟨x, rfl⟩ := Raw.exists_mem be a
  simp only [Raw.mem_length, Raw.memNat_mem] at *
  refine ⟨fun h3 => ?_, fun h2 => ?_⟩
  · rw [Raw.Sub.wrappingWide_ok be hw x n h3, Raw.Sub.overflowingWide_ok be hw x n h3]
    obtain ⟨v, e1, h1⟩ := Sub.wideWrapU hw h3 n
    obtain ⟨r, e2, h2⟩ := Sub.wideOverU hw h3 n
    rw [e1, e2, Res.map_ok, Res.map_ok]
    exact ⟨Raw.holds h1, Raw.holdsO h2⟩
  · have e : Raw.assert (decide ((Raw.mem be (extUW 2 n)).length ≥ 2) &&
        decide ((Raw.mem be x).length > (Raw.mem be (extUW 2 n)).length)) = .panic := by
      simp [Raw.assert, extUW, h2]
    constructor
    · rw [Raw.Sub.wrappingWide, Raw.rhsUW_ok be hw (Nat.le_refl 2), Res.mbind_ok, Raw.Sub.wrappingMn, e]
      rfl
    · rw [Raw.Sub.overflowingWide, Raw.rhsUW_ok be hw (Nat.le_refl 2), Res.mbind_ok,
        Raw.Sub.overflowingMn, e]
      rfl

example := (C63_uint_sub_wide (w := 64) (be := true) (a := [0, 5, 0, 0xffffffffffffffff]) (by decide) 7).1 (by decide)
example := (C63_uint_sub_wide (w := 64) (be := true) (a := [0, 5]) (by decide) (7 : BitVec (64 + 64))).2 (by decide)
example : Raw.Sub.overflowingWide true [0, 0, 0, 3] (0x10000000000000003 : BitVec (64 + 64)) =
    .ok ([0xffffffffffffffff, 0xffffffffffffffff, 0xffffffffffffffff, 0], true) := by decide

/-- C63: signed sub of two arrays. -/
theorem C63_int_sub (hw : 1 < w) (h2 : 2 ≤ a.length) (hl : a.length = b.length) :
    Holds be (WrapS a.length (memInt be a - memInt be b)) (Raw.Sub.wrappingFull be a b) ∧
      HoldsO be (OverS a.length (memInt be a - memInt be b)) (Raw.Sub.sOverflowingFull be a b) := by
  obtain ⟨x, rfl⟩ := Raw.exists_mem be a
  obtain ⟨y, rfl⟩ := Raw.exists_mem be b
  simp only [Raw.mem_length, Raw.memInt_mem] at *
  rw [Raw.Sub.wrappingFull_ok be x y hl h2, Raw.Sub.sOverflowingFull_ok be x y hl h2]
  have h0 : x ≠ [] := by rintro rfl; simp at h2
  exact ⟨Raw.holds (Sub.wrapS (by omega) hl), Raw.holdsO (Sub.overS hw h0 hl)⟩

example := C63_int_sub (w := 64) (be := true) (a := [0x8000000000000000, 0, 0, 0]) (b := one) (by decide) (by decide)
  (by decide)
example : Raw.Sub.sOverflowingFull true [0x8000000000000000, 0] ([0, 1] : Limbs 64) =
    .ok ([0x7fffffffffffffff, 0xffffffffffffffff], true) := by decide

/-- C63: signed sub of an unsigned limb. -/
theorem C63_int_sub_ulimb (hw : 1 < w) (h2 : 2 ≤ a.length) (n : BitVec w) :
    Holds be (WrapS a.length (memInt be a - n.toNat)) (Raw.Sub.wrappingLimb be a n) ∧
      HoldsO be (OverS a.length (memInt be a - n.toNat)) (Raw.Sub.sOverflowingULimb be a n) := by
  obtain ⟨x, rfl⟩ := Raw.exists_mem be a
  simp only [Raw.mem_length, Raw.memInt_mem] at *
  have hw0 : 0 < w := by omega
  have h0 : x ≠ [] := by rintro rfl; simp at h2
  rw [Raw.Sub.wrappingLimb_ok be x n (by omega), Raw.Sub.sOverflowingULimb_ok be x n (by omega)]
  exact ⟨Raw.holds (Sub.limbWrapS (by omega) h0 n), Raw.holdsO (Sub.uLimbOverS hw h2 n)⟩

example := C63_int_sub_ulimb (w := 64) (be := true) (a := [0x8000000000000000, 0, 0, 0]) (by decide) (by decide) 7
example : Raw.Sub.sOverflowingULimb true [0x8000000000000000, 0, 0, 0]
    (1 : BitVec 64) = .ok ([0x7fffffffffffffff, 0xffffffffffffffff, 0xffffffffffffffff, 0xffffffffffffffff], true) := by decide

/-- C63: signed sub of a signed limb. -/
theorem C63_int_sub_ilimb (hw : 1 < w) (h2 : 2 ≤ a.length) (n : BitVec w) :
    Holds be (WrapS a.length (memInt be a - n.toInt)) (Raw.Sub.sWrappingILimb be a n) ∧
      HoldsO be (OverS a.length (memInt be a - n.toInt)) (Raw.Sub.sOverflowingILimb be a n) := by
  obtain ⟨x, rfl⟩ := Raw.exists_mem be a
  simp only [Raw.mem_length, Raw.memInt_mem] at *
  have hw0 : 0 < w := by omega
  have h0 : x ≠ [] := by rintro rfl; simp at h2
  rw [Raw.Sub.sWrappingILimb_ok be x n (by omega), Raw.Sub.sOverflowingILimb_ok be x n (by omega)]
  exact ⟨Raw.holds (Sub.iLimbWrapS hw (by omega) n), Raw.holdsO (Sub.iLimbOverS hw (by omega) n)⟩

example := C63_int_sub_ilimb (w := 64) (be := true) (a := [0x8000000000000000, 0, 0, 0]) (by decide) (by decide) 7
example : Raw.Sub.sOverflowingILimb true [0x7fffffffffffffff, 0xffffffffffffffff, 0xffffffffffffffff, 0xffffffffffffffff]
    (-1 : BitVec 64) = .ok ([0x8000000000000000, 0, 0, 0], true) := by decide

/-- C63: signed sub of an unsigned double limb. -/
theorem C63_int_sub_uwide (hw : 1 < w) (h2 : 3 ≤ a.length) (n : BitVec (w + w)) :
    Holds be (WrapS a.length (memInt be a - n.toNat)) (Raw.Sub.sWrappingUWide be a n) ∧
      HoldsO be (OverS a.length (memInt be a - n.toNat)) (Raw.Sub.sOverflowingUWide be a n) := by
  obtain ⟨x, rfl⟩ := Raw.exists_mem be a
  simp only [Raw.mem_length, Raw.memInt_mem] at *
  have hw0 : 0 < w := by omega
  have h0 : x ≠ [] := by rintro rfl; simp at h2
  rw [Raw.Sub.sWrappingUWide_ok be hw0 x n (by omega), Raw.Sub.sOverflowingUWide_ok be hw0 x n (by omega)]
  exact ⟨Raw.holds (Sub.uWideWrapS hw h2 n), Raw.holdsO (Sub.uWideOverS hw h2 n)⟩

example := C63_int_sub_uwide (w := 64) (be := true) (a := [0x8000000000000000, 0, 0, 0]) (by decide) (by decide) 7
example : Raw.Sub.sOverflowingUWide true [0x8000000000000000, 0, 0, 0]
    (1 : BitVec (64 + 64)) = .ok ([0x7fffffffffffffff, 0xffffffffffffffff, 0xffffffffffffffff, 0xffffffffffffffff], true) := by decide

/-- C63: signed sub of a signed double limb. -/
theorem C63_int_sub_iwide (hw : 1 < w) (h2 : 2 ≤ a.length) (n : BitVec (w + w)) :
    Holds be (WrapS a.length (memInt be a - n.toInt)) (Raw.Sub.sWrappingIWide be a n) ∧
      HoldsO be (OverS a.length (memInt be a - n.toInt)) (Raw.Sub.sOverflowingIWide be a n) := by
  obtain ⟨x, rfl⟩ := Raw.exists_mem be a
  simp only [Raw.mem_length, Raw.memInt_mem] at *
  have hw0 : 0 < w := by omega
  have h0 : x ≠ [] := by rintro rfl; simp at h2
  rw [Raw.Sub.sWrappingIWide_ok be hw0 x n (by omega), Raw.Sub.sOverflowingIWide_ok be hw0 x n (by omega)]
  exact ⟨Raw.holds (Sub.iWideWrapS hw h2 n), Raw.holdsO (Sub.iWideOverS hw h2 n)⟩

example := C63_int_sub_iwide (w := 64) (be := true) (a := [0x8000000000000000, 0, 0, 0]) (by decide) (by decide) 7
example : Raw.Sub.sOverflowingIWide true [0x7fffffffffffffff, 0xffffffffffffffff, 0xffffffffffffffff, 0xffffffffffffffff]
    (-1 : BitVec (64 + 64)) = .ok ([0x8000000000000000, 0, 0, 0], true) := by decide

/-! ### negation -/

/-- C63: `negate!`. -/
theorem C63_negate (hw : 0 < w) (h1 : 1 ≤ a.length) :
    Holds be (WrapU a.length (-(memNat be a : Int))) (Raw.negate be a) := by
  obtain ⟨x, rfl⟩ := Raw.exists_mem be a
  simp only [Raw.mem_length, Raw.memNat_mem] at *
  rw [Raw.negate_ok be x h1]
  exact Raw.holds (negateU hw x)

example := C63_negate (w := 64) (be := true) (a := [0x8000000000000000, 0, 0, 0]) (by decide) (by decide)
example : Raw.negate true ([0, 0, 0, 1] : Limbs 64) =
    .ok (List.replicate 4 0xffffffffffffffff) := by decide

/-- C63: out of range, `ne_index!` panics on both machines; the theorems above therefore include that
every access is in range. -/
theorem C63_index_checked (i : Nat) (v : BitVec w) (h : a.length ≤ i) :
    Raw.rd be a i = .panic ∧ Raw.wr be a i v = .panic := by
  obtain ⟨x, rfl⟩ := Raw.exists_mem be a
  simp only [Raw.mem_length] at h
  exact ⟨Raw.rd_panic be h, Raw.wr_panic be h v⟩

example := C63_index_checked (be := true) (a := one) 4 7 (by decide)

end I256
