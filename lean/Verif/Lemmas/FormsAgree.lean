import Verif.SpecForms
import Verif.Lemmas.DivApi
import Verif.Props.GapAll
import Verif.Props.DivSigned

/-!
# Lemmas for the agreement of the forms (C80)
-/

namespace I256

variable {w : Nat} {α : Type}

theorem Agree.mk {wr : α} {ov : α × Bool} {ch : Option α} (h : wr = ov.1) (hc : ch = mkChecked ov) :
    Agree (.ok wr) (.ok ov) (.ok ch) (unwrapOrPanic ch) (fun oc => opOf oc wr ch) := by
  subst h hc
  obtain ⟨v, f⟩ := ov
  cases f
  · exact ⟨rfl, rfl, rfl, fun oc => by cases oc <;> rfl⟩
  · exact ⟨rfl, rfl, rfl, rfl, rfl⟩

/-- The same for functions that may panic. -/
theorem Agree.mkR {wr : Res α} {ov : Res (α × Bool)} (h : wr = ov.map (·.1)) :
    Agree wr ov (ov.map mkChecked) ((ov.map mkChecked).bind unwrapOrPanic)
      (fun oc => opOfR oc wr (ov.map mkChecked)) := by
  subst h
  rcases ov with ⟨v, f⟩ | _
  · cases f
    · exact ⟨rfl, rfl, rfl, fun oc => by cases oc <;> rfl⟩
    · exact ⟨rfl, rfl, rfl, rfl, rfl⟩
  · exact ⟨rfl, rfl, rfl, fun oc => by cases oc <;> rfl⟩

/-- The pattern of the unsigned division. -/
theorem Agree.div {r : Res α} {n : Bool} (hn : n = false) :
    Agree r (r.map (·, false)) (checkedBy n r) ((checkedBy n r).bind unwrapOrPanic)
      (fun oc => opOfR oc r (checkedBy n r)) := by
  subst hn
  cases r
  · exact ⟨rfl, rfl, rfl, fun oc => by cases oc <;> rfl⟩
  · exact ⟨rfl, rfl, rfl, fun oc => by cases oc <;> rfl⟩

theorem AgreeZero.mk {r : Res α} {ov : Res (α × Bool)} {n : Bool} (hn : n = true)
    (ho : ov = r.map (·, false)) :
    AgreeZero r ov (checkedBy n r) ((checkedBy n r).bind unwrapOrPanic)
      (fun oc => opOfR oc r (checkedBy n r)) := by
  subst hn ho
  cases r
  · exact ⟨rfl, rfl, rfl, rfl, rfl⟩
  · exact ⟨rfl, rfl, rfl, rfl, rfl⟩

/-- The pattern of the signed division. -/
theorem Agree.divS {r : Res α} {n f : Bool} {v : α} (hn : n = f) (hf : f = true → r = .ok v) :
    Agree r (if f then .ok (v, true) else r.map (·, false)) (checkedBy n r)
      ((checkedBy n r).bind unwrapOrPanic) (fun oc => opOfR oc r (checkedBy n r)) := by
  subst hn
  cases n
  · exact Agree.div rfl
  · rw [hf rfl]
    exact ⟨rfl, rfl, rfl, rfl, rfl⟩

theorem WrapS.unique {N : Nat} {z : Int} {v v' : Limbs w} (h : WrapS N z v) (h' : WrapS N z v') :
    v = v' :=
  toInt_inj (by rw [h.1, h'.1]) (by rw [h.2, h'.2])

/-- The quotient and the remainder in the only case of overflow. -/
theorem wrappingDivRem_overflow (hw : 1 < w) {x y : Limbs w} (hl : x.length = y.length)
    (h2 : 2 ≤ x.length) (he : x.length % 2 = 0) (h : I.isDivOverflow x y = true) :
    I.wrappingDivRem x y = .ok (x, ofU8 x.length 0) := by
  obtain ⟨hx, hy⟩ := (isDivOverflow_iff hw hl h2 he).1 h
  have hc := DivExact.of_clean (N := x.length) (clean_neg_one (x := (toInt x).natAbs) (by omega : 0 < w) hy)
  obtain ⟨r, e, h1, h3⟩ := (wrappingDivRemS' hw hl h2 he (by omega)).2 hc.1
  rw [e]
  congr 1
  refine Prod.ext ?_ ?_
  · refine toInt_inj h1.1 ?_
    rw [h1.2, hx, hy, Int.tdiv_neg, Int.tdiv_one, neg_neg]
    have hpos : 0 < w * x.length := by positivity
    have h3 : ((2 ^ (w * x.length) : Nat) : Int) = 2 * 2 ^ (w * x.length - 1) := by
      push_cast; rw [← pow_succ']; congr 1; omega
    have h4 : (0:Int) < 2 ^ (w * x.length - 1) := by positivity
    rw [Int.bmod_def, h3, Int.emod_eq_of_lt (by positivity) (by omega), if_neg (by omega)]
    omega
  · have h0 := ofU8S (w := w) (N := x.length) (v := 0) (by omega) (by omega) (by positivity)
    refine toInt_inj (h3.1.trans h0.1.symm) ?_
    rw [h3.2, h0.2, hc.2, hy, Int.tmod_neg, Int.tmod_one]
    simp

theorem Clamps.mk {ov : α × Bool} {b : α} : Clamps ov (unwrapOr (mkChecked ov) b) b := by
  obtain ⟨v, f⟩ := ov
  cases f
  · exact ⟨fun _ => rfl, nofun⟩
  · exact ⟨nofun, fun _ => rfl⟩

/-- Two checked results of the same number. -/
theorem CheckU.unique {N : Nat} {z : Int} {o o' : Option (Limbs w)} (h : CheckU N z o)
    (h' : CheckU N z o') : o = o' := by
  by_cases c : InU (w * N) z
  · obtain ⟨v, rfl, hv⟩ := h.1 c
    obtain ⟨v', rfl, hv'⟩ := h'.1 c
    rw [toNat_inj (hv.1.trans hv'.1.symm) (by exact_mod_cast hv.2.trans hv'.2.symm)]
  · rw [h.2 c, h'.2 c]

/-- `wrapping_*` of a shift by a `u32` and the operator. -/
theorem Agree.shift {v : Limbs w} {B : Nat} (hB : B < 2 ^ 32) (a : BitVec 32) :
    Agree (.ok v) (.ok (v, decide (B ≤ a.toNat))) (.ok (if a.toNat < B then some v else none))
      (unwrapOrPanic (if a.toNat < B then some v else none))
      (fun oc => if oc && !primInRange false B a then .panic else .ok v) := by
  have h : primInRange false B a = decide (a.toNat < B) := by
    simp only [primInRange, Bool.false_eq_true, if_false, BitVec.ult, BitVec.toNat_ofNat,
      Nat.mod_eq_of_lt hB]
  simp only [h]
  by_cases c : a.toNat < B
  · have : decide (B ≤ a.toNat) = false := by simpa using c
    simp only [this, c, decide_true, if_true, Bool.not_true, Bool.and_false, Bool.false_eq_true, if_false]
    exact ⟨rfl, rfl, rfl, fun _ => rfl⟩
  · have : decide (B ≤ a.toNat) = true := by simpa using c
    simp only [this, c, decide_false, if_false, Bool.not_false, Bool.and_true]
    exact ⟨rfl, rfl, rfl, rfl, rfl⟩

end I256
