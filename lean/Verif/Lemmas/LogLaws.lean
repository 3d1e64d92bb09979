import Verif.Lemmas.OrderLaws
import Verif.Props.Ilog
import Verif.Props.Pow
import Verif.Props.Div
import Verif.Props.Bitops

/-!
# Lemmas for the laws of logarithms (C81)
-/

namespace I256

variable {w : Nat} {x y : Limbs w}

/-- What it means that `checked_ilog` returns a number. -/
theorem checkedIlog_some (hw : 0 < w) (hl : x.length = y.length) (he : x.length % 2 = 0)
    (h4 : 4 ≤ x.length) (hbits : bits x < 2 ^ 32) {oc : Bool} {rounds k : Nat} (hr : bits x ≤ rounds)
    (h : U.checkedIlog oc rounds x y = some (.ok (some k))) :
    2 ≤ toNat y ∧ toNat y ≤ toNat x ∧ k = Nat.log (toNat y) (toNat x) ∧
      ¬ DivPanics w x.length (toNat x) (toNat y) := by
  have hb : toNat y ≠ 1 := by
    intro hb
    by_cases hx : toNat x = 0
    · have hz : (x == ofU8 x.length 0) = true := by
        have := ofU8U (w := w) (N := x.length) (v := 0) (by omega) (by positivity)
        rw [beq_iff_eq]
        exact toNat_inj this.1.symm (by rw [hx]; exact_mod_cast this.2.symm)
      rw [U.checkedIlog] at h
      simp [hz] at h
    · rw [C32_uint_base_one_partial hw hl he h4 hbits oc hb hx rounds] at h
      split at h <;> simp at h
  rw [C32_uint_checked_ilog_partial hw hl he h4 hbits oc hb rounds hr] at h
  split at h
  · simp at h
  · next c =>
    split at h
    · simp at h
    · next d =>
      simp only [Option.some.injEq, Res.ok.injEq] at h
      exact ⟨by omega, by omega, h.symm, d⟩

end I256
