import Verif.Lemmas.DivScalar
import Verif.Model.DivScalar

/-!
# The overflowing, checked, saturating, strict and operator forms of signed division

All forms are derived from a wrapping result `r`; `z` is the exact quotient, `MinNeg` the one case in
which it is not representable.
-/

namespace I256

variable {w : Nat} {x y : Limbs w}

theorem ediv_InS {n : Nat} (hn : 1 < n) {x y : Int} (hx : InS n x) (hy : InS n y) (h0 : y ≠ 0) :
    InS n (x / y) ↔ ¬ (x = -2 ^ (n - 1) ∧ y = -1) := by
  by_cases h1 : x.tmod y < 0
  · have hP : (2:Int) ^ n = 2 * 2 ^ (n - 1) := by rw [← pow_succ']; congr 1; omega
    have hQ : (2:Int) ^ (n - 1) = 2 * 2 ^ (n - 2) := by rw [← pow_succ']; congr 1; omega
    have hP0 : (0:Int) < 2 ^ (n - 2) := by positivity
    obtain ⟨b1, b2, b3⟩ := tmod_bounds x y h0
    have hb : 2 * (x.tdiv y).natAbs < x.natAbs := by
      have e1 := Nat.div_add_mod x.natAbs y.natAbs
      have e2 : (x.tdiv y).natAbs = x.natAbs / y.natAbs := Int.natAbs_tdiv ..
      rw [Int.natAbs_tmod] at b3
      have e3 : x.natAbs % y.natAbs ≠ 0 := by
        rw [← Int.natAbs_tmod]; omega
      have e4 : 2 * (x.natAbs / y.natAbs) ≤ y.natAbs * (x.natAbs / y.natAbs) :=
        Nat.mul_le_mul_right _ (by omega)
      omega
    have hne : ¬ (x = -2 ^ (n - 1) ∧ y = -1) := by
      rintro ⟨-, rfl⟩
      have : (-1 : Int).natAbs = 1 := rfl
      omega
    refine iff_of_true ?_ hne
    rw [(ediv_of_tdiv x y h0).1, if_pos h1]
    unfold InS at *
    generalize x.tdiv y = q at *
    split <;> constructor <;> omega
  · rw [(ediv_of_tdiv x y h0).1, if_neg h1]
    exact tdiv_InS (by omega) hx hy

/-- The exceptional case `MIN / -1` is divided without corrections. -/
theorem minNeg_noPanic (hw : 0 < w) {N X : Nat} {y : Int} (hy : y = -1) :
    ¬ DivPanics w N X y.natAbs := (DivExact.of_clean (clean_neg_one hw hy)).1

section forms
variable {z : Int} {P : Prop} {r : Res (Limbs w)}
variable (hw : 1 < w) (hl : x.length = y.length) (h2 : 2 ≤ x.length) (he : x.length % 2 = 0)
  (hz : InS (w * x.length) z ↔ ¬ (toInt x = -2 ^ (w * x.length - 1) ∧ toInt y = -1))
  (h : Yields P (WrapS x.length z) r) (hP : toInt y = -1 → ¬ P)
include hw hl h2 he hz h hP

theorem formOver (hm : toInt x = -2 ^ (w * x.length - 1) ∧ toInt y = -1 → WrapS x.length z x) :
    Yields P (OverS x.length z)
      (if I.isDivOverflow x y then .ok (x, true) else r.map (·, false)) := by
  rw [isDivOverflow_eq hw hl h2 he]
  simp only [decide_eq_true_eq]
  by_cases c : toInt x = -2 ^ (w * x.length - 1) ∧ toInt y = -1
  · rw [if_pos c]
    refine ⟨fun p => absurd p (hP c.2), fun _ => ⟨_, rfl, hm c, ?_⟩⟩
    simp only [true_iff]
    exact fun hi => hz.1 hi c
  · rw [if_neg c]
    exact h.map fun v hv => ⟨hv, by simp only [Bool.false_eq_true, false_iff, not_not]; exact hz.2 c⟩

omit hP in
theorem formCheck (hy : toInt y ≠ 0) (hP : toInt y = -1 → ¬ P) :
    Yields P (CheckS x.length z) (checkedBy (I.isDivNone x y) r) := by
  rw [checkedS_eq hw hl h2 he]
  by_cases c : toInt x = -2 ^ (w * x.length - 1) ∧ toInt y = -1
  · rw [if_pos (.inr c)]
    exact ⟨fun p => absurd p (hP c.2), fun _ => ⟨_, rfl, fun hi => absurd c (hz.1 hi), fun _ => rfl⟩⟩
  · rw [if_neg (by tauto)]
    exact h.map fun v hv => ⟨fun hi => ⟨v, rfl, hv.exact hi⟩, fun hi => absurd (hz.2 c) hi⟩

omit hP in
theorem formStrict (hy : toInt y ≠ 0) (hP : toInt y = -1 → ¬ P) :
    (P → (checkedBy (I.isDivNone x y) r).bind unwrapOrPanic = .panic) ∧
    (¬ P → StrictS x.length z ((checkedBy (I.isDivNone x y) r).bind unwrapOrPanic)) := by
  have hc := formCheck hw hl h2 he hz h hy hP
  refine ⟨fun p => by rw [hc.1 p]; rfl, fun p => ?_⟩
  obtain ⟨o, e, ho⟩ := hc.2 p
  rw [e, Res.bind_ok]
  exact ho.strict

omit hP in
theorem formOp (hy : toInt y ≠ 0) (hP : toInt y = -1 → ¬ P) (oc : Bool) :
    (P → opOfR oc r (checkedBy (I.isDivNone x y) r) = .panic) ∧
    (¬ P → OpS oc x.length z (opOfR oc r (checkedBy (I.isDivNone x y) r))) := by
  cases oc
  · exact ⟨fun p => h.1 p, fun p => h.2 p⟩
  · exact formStrict hw hl h2 he hz h hy hP

end forms

/-- The overflow test and the final correction of the scalar forms. -/
theorem formOverScalar (hw : 1 < w) (h2 : 2 ≤ x.length) (he : x.length % 2 = 0) {n : Nat} (hn : 0 < n)
    {v : BitVec n} {P : Prop} {r : Res (Limbs w × BitVec n)} (hv : InS (w * x.length) v.toInt)
    (hP : v.toInt = -1 → ¬ P)
    (h : Yields P (fun p => WrapS x.length ((toInt x).tdiv v.toInt) p.1 ∧
      p.2.toInt = (toInt x).tmod v.toInt) r) :
    Yields P (fun p => OverS x.length ((toInt x).tdiv v.toInt) (p.1.1, p.2) ∧
      p.1.2.toInt = (toInt x).tmod v.toInt) (I.overflowingDivRemSigned x v r) := by
  have hx := toInt_InS x
  rw [show bits x = w * x.length from rfl] at hx
  have hpos : 0 < w * x.length := by positivity
  have hd := tdiv_InS hpos hx hv
  have hxe : x ≠ [] := length_ne (n := 1) (by omega)
  have hm : (Ord.eqConst x (I.minValue w x.length) && v == BitVec.allOnes n) =
      decide (toInt x = -2 ^ (w * x.length - 1) ∧ v.toInt = -1) := by
    rw [Bool.eq_iff_iff, Bool.and_eq_true, eqMin_iff (by omega) hxe he]
    simp only [beq_iff_eq, decide_eq_true_eq]
    refine and_congr_right fun _ => ?_
    rw [← BitVec.toInt_inj, BitVec.toInt_allOnes, if_pos hn]
  rw [I.overflowingDivRemSigned, hm]
  simp only [decide_eq_true_eq]
  by_cases c : toInt x = -2 ^ (w * x.length - 1) ∧ v.toInt = -1
  · rw [if_pos c]
    refine ⟨fun p => absurd p (hP c.2), fun _ => ⟨_, rfl, ⟨?_, ?_⟩, ?_⟩⟩
    · have hmv := minValueS (w := w) (N := x.length) (by omega) (by omega)
      refine ⟨hmv.1, hmv.2.trans ?_⟩
      rw [c.1, c.2]
      have h1 : (-2 ^ (w * x.length - 1) : Int).tdiv (-1) = 2 ^ (w * x.length - 1) := by
        rw [Int.tdiv_neg, Int.tdiv_one, neg_neg]
      have h3 : ((2 ^ (w * x.length) : Nat) : Int) = 2 * 2 ^ (w * x.length - 1) := by
        push_cast; rw [← pow_succ']; congr 1; omega
      rw [h1, Int.bmod_def, h3, Int.emod_eq_of_lt (by positivity) (by
        have : (0:Int) < 2 ^ (w * x.length - 1) := by positivity
        omega)]
      have : (0:Int) < 2 ^ (w * x.length - 1) := by positivity
      rw [if_neg (by omega)]
      omega
    · simp only [true_iff]; exact fun hi => hd.1 hi c
    · simp only [c.2]
      rw [Int.tmod_neg, Int.tmod_one]
      simp
  · rw [if_neg c]
    exact h.map fun p hp => ⟨⟨hp.1, by
      simp only [Bool.false_eq_true, false_iff, not_not]; exact hd.2 c⟩, hp.2⟩

end I256
