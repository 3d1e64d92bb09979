import Verif.Lemmas.DivLaws
import Verif.Lemmas.DivSigned
import Verif.Lemmas.Casts

namespace I256

variable {w : Nat} {x y : Limbs w}

theorem toNat_of_nonneg (h : 0 ≤ toInt x) : (toNat x : Int) = toInt x := by
  rcases toInt_cases x with h' | h'
  · exact h'.2
  · have := toNat_lt_int x
    omega

theorem natAbs_of_nonneg (h : 0 ≤ toInt x) : (toInt x).natAbs = toNat x := by
  have := toNat_of_nonneg h
  omega

theorem yields_unique {α : Type} {P : Prop} {Q Q' : α → Prop} {r r' : Res α} (h : Yields P Q r)
    (h' : Yields P Q' r') (hq : ∀ v v', Q v → Q' v' → v = v') : r = r' := by
  by_cases p : P
  · rw [h.1 p, h'.1 p]
  · obtain ⟨v, e, hv⟩ := h.2 p
    obtain ⟨v', e', hv'⟩ := h'.2 p
    rw [e, e', hq v v' hv hv']

/-- A signed and an unsigned result for the same number have the same limbs. -/
theorem wrapS_exactU {N : Nat} {z z' : Int} {v v' : Limbs w} (h : WrapS N z v) (h' : ExactU N z' v')
    (e : z = z') : v = v' :=
  h.wrapU.unique h'.wrap (by rw [e])

theorem exactS_exactU {N : Nat} {z z' : Int} {v v' : Limbs w} (h : ExactS N z v) (h' : ExactU N z' v')
    (e : z = z') : v = v' := wrapS_exactU h.wrap h' e

/-- The signed result of a checked operation from the unsigned one. -/
theorem CheckS.filter {N : Nat} {z : Int} {o o' : Option (Limbs w)} (h : CheckS N z o) (hw : 0 < w)
    (hN : 0 < N) (h' : CheckU N z o') (hz : 0 ≤ z) : o = o'.filter fun v => !I.isNegative v := by
  by_cases c : InS (w * N) z
  · obtain ⟨v, rfl, hv⟩ := h.1 c
    obtain ⟨v', rfl, hv'⟩ := h'.1 ⟨hz, by have := c.2; omega⟩
    obtain rfl := exactS_exactU hv hv' rfl
    rw [Option.filter, isNegative_eq hw (List.length_pos_iff.1 (by rw [hv.1]; exact hN)), hv.2,
      decide_eq_false (by omega)]
    rfl
  · rw [h.2 c]
    by_cases c' : InU (w * N) z
    · obtain ⟨v', rfl, hv'⟩ := h'.1 c'
      have hneg : toInt v' < 0 := by
        by_contra hn
        have e := toNat_of_nonneg (not_lt.1 hn)
        have hi := toInt_InS v'
        rw [← e, hv'.2, show bits v' = w * N by rw [bits, hv'.1]] at hi
        exact c hi
      rw [Option.filter, isNegative_eq hw (List.length_pos_iff.1 (by rw [hv'.1]; exact hN)),
        decide_eq_true hneg]
      rfl
    · rw [h'.2 c']
      rfl

/-- The unsigned result of a checked operation from the signed one. -/
theorem CheckU.filter {N : Nat} {z : Int} {o o' : Option (Limbs w)} (h : CheckU N z o) (hw : 0 < w)
    (hN : 0 < N) (h' : CheckS N z o') (hz : InS (w * N) z) : o = o'.filter fun v => !I.isNegative v := by
  obtain ⟨v', rfl, hv'⟩ := h'.1 hz
  rw [Option.filter, isNegative_eq hw (List.length_pos_iff.1 (by rw [hv'.1]; exact hN)), hv'.2]
  by_cases c : z < 0
  · rw [decide_eq_true c, h.2 (fun hi => absurd hi.1 (not_le.2 c))]
    rfl
  · obtain ⟨v, rfl, hv⟩ := h.1 ⟨not_lt.1 c, by have := hz.2; omega⟩
    rw [decide_eq_false c, exactS_exactU hv' hv rfl]
    rfl

end I256
