import Verif.Lemmas.NegAbs
import Verif.Props.Samples

/-!
# C26: comparison

The number of limbs is even on every type (the comparison works on double limbs), and at least 4.
-/

namespace I256

open Sample

variable {w : Nat} {x y : Limbs w}

/-- C26: the unsigned comparisons are the order of the denoted naturals. -/
theorem C26_uint_order (hw : 0 < w) (hl : x.length = y.length) (h2 : x.length % 2 = 0)
    (h4 : 4 ≤ x.length) :
    (Ord.lt false x y = true ↔ toNat x < toNat y) ∧
      (Ord.le false x y = true ↔ toNat x ≤ toNat y) ∧
      (Ord.gt false x y = true ↔ toNat y < toNat x) ∧
      (Ord.ge false x y = true ↔ toNat y ≤ toNat x) ∧
      Ord.cmp false x y = compare (toNat x) (toNat y) := by
  have h1 := Ord.lt_iff hw false hl h2 (by omega)
  have h3 := Ord.le_iff hw false hl h2 h4
  have h5 := Ord.cmp_iff hw false hl h2 (by omega)
  simp only [Ord.val, Bool.false_eq_true, if_false] at h1 h3 h5
  refine ⟨h1.trans (by omega), h3.trans (by omega), ?_, ?_, ?_⟩
  · rw [Ord.gt, Bool.not_eq_true', ← Bool.not_eq_true, h3]; omega
  · rw [Ord.ge, Bool.not_eq_true', ← Bool.not_eq_true, h1]; omega
  · rw [h5, Int.compare_eq_ite_lt, Nat.compare_eq_ite_lt]
    simp

example := C26_uint_order (x := a) (y := top) (by decide) (by decide) (by decide) (by decide)
example : Ord.lt false a top = true ∧ Ord.lt true a top = false ∧ Ord.le false a a = true := by
  decide

/-- C26: the signed comparisons are the order of the denoted integers. -/
theorem C26_int_order (hw : 0 < w) (hl : x.length = y.length) (h2 : x.length % 2 = 0)
    (h4 : 4 ≤ x.length) :
    (Ord.lt true x y = true ↔ toInt x < toInt y) ∧
      (Ord.le true x y = true ↔ toInt x ≤ toInt y) ∧
      (Ord.gt true x y = true ↔ toInt y < toInt x) ∧
      (Ord.ge true x y = true ↔ toInt y ≤ toInt x) ∧
      Ord.cmp true x y = compare (toInt x) (toInt y) := by
  have h1 := Ord.lt_iff hw true hl h2 (by omega)
  have h3 := Ord.le_iff hw true hl h2 h4
  have h5 := Ord.cmp_iff hw true hl h2 (by omega)
  simp only [Ord.val, if_true] at h1 h3 h5
  refine ⟨h1, h3, ?_, ?_, h5⟩
  · rw [Ord.gt, Bool.not_eq_true', ← Bool.not_eq_true, h3]; omega
  · rw [Ord.ge, Bool.not_eq_true', ← Bool.not_eq_true, h1]; omega

example := C26_int_order (x := a) (y := top) (by decide) (by decide) (by decide) (by decide)
example : Ord.cmp true top one = .lt ∧ Ord.cmp false top one = .gt := by decide

/-- C26: equality of representations is equality of values, unsigned and signed. -/
theorem C26_eq (hl : x.length = y.length) (h2 : x.length % 2 = 0) :
    (Ord.eqConst x y = true ↔ toNat x = toNat y) ∧
      (Ord.eqConst x y = true ↔ toInt x = toInt y) := by
  rw [Ord.eqConst_iff hl h2]
  exact ⟨⟨fun h => by rw [h], toNat_inj hl⟩, ⟨fun h => by rw [h], toInt_inj hl⟩⟩

example := C26_eq (x := a) (y := top) (by decide) (by decide)
example : Ord.eqConst a a = true ∧ Ord.eqConst a top = false := by decide

end I256
