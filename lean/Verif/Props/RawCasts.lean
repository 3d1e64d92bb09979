import Verif.SpecRaw
import Verif.Lemmas.RawCasts
import Verif.Props.Casts
import Verif.Props.Glue
import Verif.Props.Mul

/-!
# C69: conversions from and to primitive integers in memory

The theorems are about the literal transcription of `src/shared/casts.rs`: the arrays are in memory
order, the index accesses and the shifts are checked and the assertions are executed.  Every run ends
normally.
-/

namespace I256

open Sample

variable {w N : Nat} {be : Bool} {a : Limbs w}

/-- C69: `from_u8` … `from_u128` store the value, on the unsigned and on the signed types. -/
theorem C69_from_unsigned (hw : w = 32 ∨ w = 64) (hN : 4 ≤ N) (hB : 128 < w * N) (h128 : 128 ∣ w * N)
    (p : Prim) (v : BitVec p.n) :
    Holds (w := w) be (fun x => ExactU N v.toNat x ∧ ExactS N v.toNat x) (Raw.Cast.fromU be N p v) :=
  ⟨_, Raw.Cast.fromU_ok be hw hN h128 p v, by
    rw [Raw.logical_mem]; exact C27_from_unsigned hw hN hB p v⟩

example := C69_from_unsigned (w := 32) (N := 8) (be := true) (Or.inl rfl) (by decide) (by decide)
  (by decide) .b128 (BitVec.ofNat 128 (2 ^ 100 + 7))
example : (Raw.Cast.fromU true 4 .b128 0x10000000000000007#128 : Res (Limbs 64)) = .ok [0, 0, 1, 7] ∧
    (Raw.Cast.fromU true 8 .b64 0x100000007#64 : Res (Limbs 32)) = .ok [0, 0, 0, 0, 0, 0, 1, 7] ∧
    (Raw.Cast.fromU false 8 .b64 0x100000007#64 : Res (Limbs 32)) = .ok [7, 1, 0, 0, 0, 0, 0, 0] := by
  decide

/-- C69: `from_i8` … `from_i128` store the value on the signed types, and its residue on the unsigned
types. -/
theorem C69_from_signed (hw : w = 32 ∨ w = 64) (hN : 4 ≤ N) (h128 : 128 ∣ w * N) (p : Prim)
    (v : BitVec p.n) :
    Holds (w := w) be (fun x => ExactS N v.toInt x ∧ WrapU N v.toInt x) (Raw.Cast.fromI be N p v) :=
  ⟨_, Raw.Cast.fromI_ok be hw hN h128 p v, by
    rw [Raw.logical_mem]; exact C27_from_signed hw hN p v⟩

example := C69_from_signed (w := 64) (N := 4) (be := true) (Or.inr rfl) (by decide) (by decide) .b8
  (0xfe#8)
example : (Raw.Cast.fromI true 4 .b8 0xfe#8 : Res (Limbs 64)) = .ok m2.reverse ∧
    (Raw.Cast.fromI true 8 .b32 0xffffffff#32 : Res (Limbs 32)) = .ok ones32 := by decide

/-- C69: `as_u8` … `as_u128` read the value modulo `2^n`, `as_i8` … `as_i128` its two's complement
reading; for the unsigned and the signed types. -/
theorem C69_as (hw : w = 32 ∨ w = 64) (h4 : 4 ≤ a.length) (hB : 128 ≤ w * a.length) (p : Prim) :
    ∃ v, Raw.Cast.asP be a p = .ok v ∧ (v.toNat : Int) = (memNat be a : Int) % 2 ^ p.n ∧
      (v.toNat : Int) = memInt be a % 2 ^ p.n ∧ v.toInt = Int.bmod (memNat be a) (2 ^ p.n) ∧
      v.toInt = Int.bmod (memInt be a) (2 ^ p.n) := by
  obtain ⟨x, rfl⟩ := Raw.exists_mem be a
  simp only [Raw.mem_length, Raw.memNat_mem, Raw.memInt_mem] at *
  exact ⟨_, Raw.Cast.asP_ok be hw h4 p, C27_as hw h4 hB p⟩

example := C69_as (be := true) (a := m2) (Or.inr rfl) (by decide) (by decide) .b16
example : Raw.Cast.asP true m2.reverse .b16 = .ok 0xfffe#16 ∧
    Raw.Cast.asP true ([9, 8, 7, 6, 5, 4, 3, 2] : Limbs 32) .b128 =
      .ok 0x5000000040000000300000002#128 := by decide

/-- C69: the conversions from the limb types and the double-width types. -/
theorem C69_from_limb (hw : w = 32 ∨ w = 64) (hN : 4 ≤ N) (hB : 128 < w * N) (h128 : 128 ∣ w * N)
    (v : BitVec w) (u : BitVec (w + w)) :
    Holds be (fun x => ExactU N v.toNat x ∧ ExactS N v.toNat x) (Raw.Cast.fromULimb be N v) ∧
    Holds be (fun x => ExactU N u.toNat x ∧ ExactS N u.toNat x) (Raw.Cast.fromUWide be N u) ∧
    Holds be (ExactS N v.toInt) (Raw.Cast.fromILimb be N v) ∧
    Holds be (ExactS N u.toInt) (Raw.Cast.fromIWide be N u) := by
  obtain ⟨h1, h2, h3, h4⟩ := C27_limb hw hN hB v u
  refine ⟨⟨_, Raw.Cast.fromULimb_ok be hw hN h128 v, ?_⟩, ⟨_, Raw.Cast.fromUWide_ok be hw hN h128 u, ?_⟩,
    ⟨_, Raw.Cast.fromILimb_ok be hw hN h128 v, ?_⟩, ⟨_, Raw.Cast.fromIWide_ok be hw hN h128 u, ?_⟩⟩ <;>
    simpa only [Raw.logical_mem]

example := C69_from_limb (w := 64) (N := 4) (be := true) (Or.inr rfl) (by decide) (by decide) (by decide)
  5 (BitVec.allOnes _)
example : (Raw.Cast.fromIWide true 4 (-3) : Res (Limbs 64)) = .ok [-1, -1, -1, -3] := by decide

/-- C69: the conversions to the limb types and the double-width types (the signed forms are the same
bits). -/
theorem C69_as_limb (hw : w = 32 ∨ w = 64) (h4 : 4 ≤ a.length) :
    (∃ v, Raw.Cast.asULimb be a = .ok v ∧ v.toNat = memNat be a % 2 ^ w) ∧
    (∃ v, Raw.Cast.asUWide be a = .ok v ∧ v.toNat = memNat be a % 2 ^ (w + w)) := by
  obtain ⟨x, rfl⟩ := Raw.exists_mem be a
  simp only [Raw.mem_length, Raw.memNat_mem] at *
  obtain ⟨h1, h2⟩ := C27_as_limb hw h4
  exact ⟨⟨_, Raw.Cast.asULimb_ok be hw h4, h1⟩, ⟨_, Raw.Cast.asUWide_ok be hw h4, h2⟩⟩

example := C69_as_limb (be := true) (a := m2) (Or.inr rfl) (by decide)
example : Raw.Cast.asUWide true m2.reverse = .ok (-2) := by decide

/-- C69: the conversions between the signed and the unsigned type keep the array. -/
theorem C69_reinterpret (h128 : 128 ∣ w * a.length) : Raw.Cast.reinterpret a = .ok a :=
  Raw.fromNeLimbs_ok h128

example := C69_reinterpret (a := m2) (by decide)

/-- C69: the constants `MIN` and `MAX`. -/
theorem C69_min_max (hw : 0 < w) (hN : 0 < N) (h128 : 128 ∣ w * N) :
    Holds (w := w) be (ExactS N (-2 ^ (w * N - 1))) (Raw.I.minValue be N) ∧
    Holds (w := w) be (ExactS N (2 ^ (w * N - 1) - 1)) (Raw.I.maxValue be N) ∧
    Holds (w := w) be (ExactU N 0) (Raw.U.constant N 0) ∧
    Holds (w := w) be (ExactU N (2 ^ (w * N) - 1)) (Raw.U.constant N (BitVec.allOnes w)) := by
  refine ⟨⟨_, Raw.I.minValue_ok be hN h128, ?_⟩, ⟨_, Raw.I.maxValue_ok be hN h128, ?_⟩,
    ⟨_, Raw.fromNeLimbs_ok (by simpa using h128), ?_⟩, ⟨_, Raw.fromNeLimbs_ok (by simpa using h128), ?_⟩⟩
  · rw [Raw.logical_mem]; exact minValueS hw hN
  · rw [Raw.logical_mem]; exact maxValueS hw hN
  · rw [← Raw.mem_replicate be, Raw.logical_mem]; exact minValueU w N
  · rw [← Raw.mem_replicate be, Raw.logical_mem]; exact maxValueU w N

example := C69_min_max (w := 64) (N := 4) (be := true) (by decide) (by decide) (by decide)
example : (Raw.I.maxValue true 4 : Res (Limbs 64)) = .ok maxS.reverse := by decide

/-- C69: `is_even` and `is_odd` read the parity. -/
theorem C69_parity (hw : 0 < w) (ha : a ≠ []) :
    (∃ r, Raw.isEven be a = .ok r ∧ (r = true ↔ memNat be a % 2 = 0)) ∧
    (∃ r, Raw.isOdd be a = .ok r ∧ (r = true ↔ memNat be a % 2 = 1)) := by
  have ha' := List.length_pos_iff.2 ha
  obtain ⟨x, rfl⟩ := Raw.exists_mem be a
  simp only [Raw.mem_length, Raw.memNat_mem] at *
  have hx : x ≠ [] := List.length_pos_iff.1 ha'
  obtain ⟨h1, h2, -⟩ := C48_parity hw hx
  exact ⟨⟨_, Raw.isEven_ok be hx, h1⟩, ⟨_, Raw.isOdd_ok be hx, h2⟩⟩

example := C69_parity (be := true) (a := m2) (by decide) (by decide)
example : Raw.isEven true ([1, 0, 0, 2] : Limbs 64) = .ok true ∧
    Raw.isOdd false ([1, 0, 0, 2] : Limbs 64) = .ok true := by decide

/-- C69: `least_significant_limb` and `most_significant_limb` read the lowest and the highest limb of the
number, in either byte order; the highest limb, read with a sign, is the signed quotient. -/
theorem C69_ends (hw : 0 < w) (ha : a ≠ []) :
    (∃ v, Raw.leastSignificantLimb be a = .ok v ∧ v.toNat = memNat be a % 2 ^ w) ∧
    (∃ v, Raw.mostSignificantLimb be a = .ok v ∧ v.toNat = memNat be a / 2 ^ (w * (a.length - 1)) ∧
      v.toInt = memInt be a / 2 ^ (w * (a.length - 1))) := by
  have ha' := List.length_pos_iff.2 ha
  obtain ⟨x, rfl⟩ := Raw.exists_mem be a
  simp only [Raw.mem_length, Raw.memNat_mem, Raw.memInt_mem] at *
  obtain ⟨⟨v, h1, h2⟩, u, h3, h4⟩ := C59_ends hw (List.length_pos_iff.1 ha') be
  rw [Access.leastSignificantLimb, Access.getLimb_ok be x ha'] at h1
  rw [Access.mostSignificantLimb, Access.getLimb_ok be x (i := x.length - 1) (by omega)] at h3
  exact ⟨⟨v, (Raw.getLimb_ok be ha').trans (congrArg _ ((List.getD_eq_getElem _ _ _).trans
      (Res.ok.inj h1))), h2⟩, u,
    (Raw.mostSignificantLimb_ok be (List.length_pos_iff.1 ha')).trans (congrArg _
      ((List.getD_eq_getElem _ _ (by omega)).trans (Res.ok.inj h3))), h4⟩

example := C69_ends (be := true) (a := m2) (by decide) (by decide)
example : Raw.leastSignificantLimb true ([1, 0, 0, 2] : Limbs 64) = .ok 2 ∧
    Raw.mostSignificantLimb true ([1, 0, 0, 2] : Limbs 64) = .ok 1 ∧
    Raw.mostSignificantLimb false ([1, 0, 0, 2] : Limbs 64) = .ok 2 := by decide

end I256
