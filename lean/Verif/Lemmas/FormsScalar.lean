import Verif.Lemmas.FormsAgree
import Verif.Lemmas.FixedStray
import Verif.Props.DivScalar
import Verif.Props.Fixed

/-!
# Lemmas for the agreement of the forms with scalars (C80)
-/

namespace I256

variable {w : Nat} {α β : Type} {x : Limbs w}

theorem AgreeIn.mk {oc : Bool} {wr : Res α} {ov : Res (α × Bool)} {ch : Res (Option α)}
    (h : wr = ov.map (·.1)) (hc : ch = ov.map mkChecked) : AgreeIn oc wr ov ch (opOfR oc wr ch) := by
  subst h hc
  rcases ov with ⟨v, f⟩ | _
  · cases f <;> cases oc <;> exact ⟨rfl, rfl, rfl⟩
  · cases oc <;> exact ⟨rfl, rfl, rfl⟩

/-- A part of the result, such as the quotient. -/
theorem AgreeIn.map {oc : Bool} {wr op : Res α} {ov : Res (α × Bool)} {ch : Res (Option α)} (f : α → β)
    (h : AgreeIn oc wr ov ch op) :
    AgreeIn oc (wr.map f) (ov.map fun p => (f p.1, p.2)) (ch.map fun o => o.map f) (op.map f) := by
  rcases ov with ⟨v, b⟩ | _
  · cases b
    · obtain ⟨rfl, rfl, rfl⟩ := h
      exact ⟨rfl, rfl, rfl⟩
    · obtain ⟨rfl, rfl, rfl⟩ := h
      refine ⟨rfl, rfl, ?_⟩
      cases oc <;> rfl
  · obtain ⟨rfl, rfl, rfl⟩ := h
    exact ⟨rfl, rfl, rfl⟩

/-- The pattern of division without overflow. -/
theorem AgreeIn.div {oc : Bool} {r : Res α} {b : Bool} (hb : b = false) :
    AgreeIn oc r (r.map (·, false)) (checkedBy b r) (opOfR oc r (checkedBy b r)) := by
  subst hb
  refine AgreeIn.mk ?_ ?_
  · cases r <;> rfl
  · cases r <;> rfl

theorem AgreeZeroIn.mk {oc : Bool} {r : Res α} {ov : Res (α × Bool)} {ch : Res (Option α)}
    (ho : ov = r.map (·, false)) (hc : ch = .ok none) : AgreeZeroIn oc r ov ch (opOfR oc r ch) := by
  subst hc ho
  refine ⟨rfl, ?_, ?_⟩
  · cases oc <;> rfl
  · cases r <;> rfl

theorem AgreeZeroIn.map {oc : Bool} {wr op : Res α} {ov : Res (α × Bool)} {ch : Res (Option α)}
    (f : α → β) (h : AgreeZeroIn oc wr ov ch op) :
    AgreeZeroIn oc (wr.map f) (ov.map fun p => (f p.1, p.2)) (ch.map fun o => o.map f) (op.map f) := by
  obtain ⟨rfl, rfl, h⟩ := h
  refine ⟨rfl, ?_, ?_⟩
  · cases oc <;> rfl
  · cases wr <;> subst h <;> rfl

/-- Two results described by the same conditions agree, if the conditions determine the value. -/
theorem Yields.fst_eq {P : Prop} {Q : α → Prop} {wr : Res α} {ov : Res (α × Bool)} (h : Yields P Q wr)
    (h' : Yields P (fun p => Q p.1) ov) (hu : ∀ a b, Q a → Q b → a = b) : wr = ov.map (·.1) := by
  by_cases c : P
  · rw [h.1 c, h'.1 c]
    rfl
  · obtain ⟨v, e, hv⟩ := h.2 c
    obtain ⟨v', e', hv'⟩ := h'.2 c
    rw [e, e', hu _ _ hv hv']
    rfl

theorem divQR_unique {n N : Nat} {z t : Int} (a b : Limbs w × BitVec n)
    (ha : WrapS N z a.1 ∧ a.2.toInt = t) (hb : WrapS N z b.1 ∧ b.2.toInt = t) : a = b :=
  Prod.ext (ha.1.unique hb.1) (BitVec.eq_of_toInt_eq (ha.2.trans hb.2.symm))

/-- Signed scalars of one limb. -/
theorem ilimb_fst (hw : 1 < w) (h2 : 2 ≤ x.length) (he : x.length % 2 = 0) {n : BitVec w} (hn : n ≠ 0) :
    I.wrappingDivRemILimb x n = (I.overflowingDivRemILimb x n).map (·.1) := by
  obtain ⟨⟨q, r, e, -, -, hq, hr⟩, q', r', f, e', -, -, -, -, -, -, ho, hr'⟩ := C51_int_div_ilimb hw h2 he hn
  rw [e, e', divQR_unique (q, r) (q', r') ⟨hq, hr⟩ ⟨ho.1, hr'⟩]
  rfl

/-- Signed scalars of two limbs. -/
theorem iwide_fst (hw : 1 < w) (h2 : 2 ≤ x.length) (he : x.length % 2 = 0) {n : BitVec (w + w)}
    (hn : n ≠ 0) : I.wrappingDivRemIWide x n = (I.overflowingDivRemIWide x n).map (·.1) := by
  obtain ⟨h, ho, -⟩ := C51_int_div_iwide hw h2 he hn
  refine h.fst_eq (ho.mono fun p hp => ?_) fun a b ha hb => divQR_unique a b ha hb
  exact ⟨hp.1.1, hp.2⟩

/-- Signed scalars of fixed width. -/
theorem fixI_fst (hw : w = 32 ∨ w = 64) (hx : 256 ≤ w * x.length) (he : x.length % 2 = 0) (k : Fix)
    {n : BitVec k.n} (hn : n ≠ 0) :
    I.wrappingDivRemFixI k x n = (I.overflowingDivRemFixI k x n).map (·.1) := by
  obtain ⟨h, ho⟩ := iDivRemFixI_all hw hx he k hn
  refine h.fst_eq (ho.mono fun p hp => ⟨hp.1.1, hp.2⟩) fun a b ha hb => ?_
  exact Prod.ext (ha.1.unique hb.1) (ha.2.trans hb.2.symm)

theorem beq_zero_false {n : Nat} {v : BitVec n} (h : v ≠ 0) : (v == 0) = false := by
  simpa using h

theorem ilimb_checked {n : BitVec w} (hn : n ≠ 0) :
    I.checkedDivRemILimb x n = (I.overflowingDivRemILimb x n).map mkChecked := by
  rw [I.checkedDivRemILimb, I.checkedDivRemSigned, beq_zero_false hn]
  rfl

theorem iwide_checked {n : BitVec (w + w)} (hn : n ≠ 0) :
    I.checkedDivRemIWide x n = (I.overflowingDivRemIWide x n).map mkChecked := by
  rw [I.checkedDivRemIWide, I.checkedDivRemSigned, beq_zero_false hn]
  rfl

theorem mkChecked_map (f : α → β) (r : Res (α × Bool)) :
    (r.map mkChecked).map (fun o => o.map f) = (r.map fun p => (f p.1, p.2)).map mkChecked := by
  rcases r with ⟨v, b⟩ | _
  · cases b <;> rfl
  · rfl

theorem fixI_checked (hw : w = 32 ∨ w = 64) (k : Fix) {n : BitVec k.n} (hn : n ≠ 0) :
    I.checkedDivRemFixI k x n = (I.overflowingDivRemFixI k x n).map mkChecked := by
  cases k
  · have hs : (n.signExtend w : BitVec w) ≠ 0 :=
      signExtend_ne (m := 32) (by rcases hw with rfl | rfl <;> decide) hn
    rw [I.checkedDivRemFixI, I.overflowingDivRemFixI, ilimb_checked hs]
    exact mkChecked_map (fun p : Limbs w × BitVec w => (p.1, p.2.setWidth 32)) _
  · rw [I.checkedDivRemFixI, beq_zero_false hn]
    rfl
  · rw [I.checkedDivRemFixI, beq_zero_false hn]
    rfl

theorem overSigned_zero {n : Nat} (hn : 0 < n) (r : Res (Limbs w × BitVec n)) :
    I.overflowingDivRemSigned x (0 : BitVec n) r = r.map (·, false) := by
  have : ((0 : BitVec n) == BitVec.allOnes n) = false := by
    rw [beq_eq_false_iff_ne]
    intro h
    have := congrArg BitVec.toNat h
    rw [BitVec.toNat_allOnes] at this
    have h2 : 2 ≤ 2 ^ n := by
      calc 2 = 2 ^ 1 := rfl
        _ ≤ 2 ^ n := Nat.pow_le_pow_right (by decide) hn
    simp at this
    omega
  rw [I.overflowingDivRemSigned, this, Bool.and_false]
  rfl

theorem checkedBy_zero {n : Nat} (r : Res α) : checkedBy (isZeroScalar (0 : BitVec n)) r = .ok none := by
  simp [checkedBy, isZeroScalar]

theorem fixI_checked_zero (k : Fix) : I.checkedDivRemFixI k x 0 = .ok none := by
  cases k
  · have e : (0 : BitVec (Fix.b32).n).signExtend w = 0 := by
      apply BitVec.eq_of_getElem_eq
      intro i hi
      simp [BitVec.getElem_signExtend]
    rw [I.checkedDivRemFixI, e, I.checkedDivRemILimb, I.checkedDivRemSigned]
    simp
  · rfl
  · rfl

/-- `overflowing_div_i32` is written with the function for limbs, the wider ones with the pair. -/
theorem overDivFixI (k : Fix) (n : BitVec k.n) :
    I.overflowingDivFixI k x n = (I.overflowingDivRemFixI k x n).map fun p => (p.1.1, p.2) := by
  cases k
  · rw [I.overflowingDivFixI, I.overflowingDivRemFixI, I.overflowingDivILimb]
    cases I.overflowingDivRemILimb x (n.signExtend w) <;> rfl
  · rfl
  · rfl

theorem overRemFixI (k : Fix) (n : BitVec k.n) :
    I.overflowingRemFixI k x n = (I.overflowingDivRemFixI k x n).map fun p => (p.1.2, p.2) := by
  cases k
  · rw [I.overflowingRemFixI, I.overflowingDivRemFixI, I.overflowingRemILimb]
    cases I.overflowingDivRemILimb x (n.signExtend w) <;> rfl
  · rfl
  · rfl

theorem FormsU.fst {oc : Bool} {N : Nat} {z : Int} {wr op : Res (Limbs w)} {ov : Res (Limbs w × Bool)}
    {ch : Res (Option (Limbs w))} (h : FormsU oc N z wr ov ch op) : wr = ov.map (·.1) := by
  obtain ⟨⟨v, rfl, hv⟩, ⟨r, rfl, hr⟩, -⟩ := h
  rw [hv.unique hr.1 rfl]
  rfl

theorem FormsS.fst {oc : Bool} {N : Nat} {z : Int} {wr op : Res (Limbs w)} {ov : Res (Limbs w × Bool)}
    {ch : Res (Option (Limbs w))} (h : FormsS oc N z wr ov ch op) : wr = ov.map (·.1) := by
  obtain ⟨⟨v, rfl, hv⟩, ⟨r, rfl, hr⟩, -⟩ := h
  rw [hv.unique hr.1]
  rfl

theorem FormsG.fst {oc : Bool} {N : Nat} {z : Int} {wr op : Res (Limbs w)} {ov : Res (Limbs w × Bool)}
    {ch : Res (Option (Limbs w))} (h : FormsG oc N z wr ov ch op) : wr = ov.map (·.1) := by
  obtain ⟨⟨v, rfl, hv⟩, ⟨r, rfl, hr⟩, -⟩ := h
  rw [hv.unique hr.1]
  rfl

end I256
