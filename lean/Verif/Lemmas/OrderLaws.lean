import Verif.Lemmas.AddSubApi
import Verif.Lemmas.SignView

namespace I256

variable {w : Nat}

theorem SatU.mono {N : Nat} {a b : Int} {u v : Limbs w} (hu : SatU N a u) (hv : SatU N b v) (h : a ≤ b) :
    toNat u ≤ toNat v := by
  have := hu.2
  have := hv.2
  omega

theorem SatS.mono {N : Nat} {a b : Int} {u v : Limbs w} (hu : SatS N a u) (hv : SatS N b v) (h : a ≤ b) :
    toInt u ≤ toInt v := by
  have := hu.2
  have := hv.2
  omega

theorem compare_congr' {a b c d : Int} (h : a < b ↔ c < d) (h' : b < a ↔ d < c) :
    compare a b = compare c d := by
  rcases lt_trichotomy a b with g | g | g
  · rw [compare_lt_iff_lt.2 g, compare_lt_iff_lt.2 (h.1 g)]
  · rw [compare_eq_iff_eq.2 g, compare_eq_iff_eq.2 (by omega)]
  · rw [compare_gt_iff_gt.2 g, compare_gt_iff_gt.2 (h'.1 g)]

theorem CheckU.some {N : Nat} {z : Int} {v : Limbs w} (h : CheckU N z (Option.some v)) : ExactU N z v := by
  by_cases c : InU (w * N) z
  · obtain ⟨u, e, hu⟩ := h.1 c
    cases e
    exact hu
  · cases h.2 c

theorem CheckS.some {N : Nat} {z : Int} {v : Limbs w} (h : CheckS N z (Option.some v)) : ExactS N z v := by
  by_cases c : InS (w * N) z
  · obtain ⟨u, e, hu⟩ := h.1 c
    cases e
    exact hu
  · cases h.2 c

/-- Comparing two results in the order of the given type. -/
theorem cmp_of_val (hw : 0 < w) (s : Bool) {u v x y : Limbs w} (hl : x.length = y.length)
    (h2 : x.length % 2 = 0) (h4 : 4 ≤ x.length) (hu : u.length = x.length) (hv : v.length = x.length)
    (h : Ord.val s u < Ord.val s v ↔ Ord.val s x < Ord.val s y)
    (h' : Ord.val s v < Ord.val s u ↔ Ord.val s y < Ord.val s x) : Ord.cmp s u v = Ord.cmp s x y := by
  rw [Ord.cmp_iff hw s (hu.trans hv.symm) (by omega) (by omega), Ord.cmp_iff hw s hl h2 (by omega)]
  exact compare_congr' h h'

end I256
