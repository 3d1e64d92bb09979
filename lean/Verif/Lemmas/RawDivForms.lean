import Verif.Model.RawDivForms
import Verif.Lemmas.RawForms
import Verif.Lemmas.RawScalar
import Verif.SpecDiv

/-!
# The forms of division in memory: agreement with the functional model
-/

namespace I256

variable {w : Nat}

namespace Raw

open _root_.I256.Raw.Div (Cfg)

section generic
variable {α β : Type} (f : α → β)

theorem someUnless_ok {b : Bool} {r : Res α} :
    someUnless (.ok b) (r.map f) = (I256.checkedBy b r).map (Option.map f) := by
  cases b
  · cases r <;> rfl
  · rfl

theorem flagIf_ok {b : Bool} {o : α × Bool} {r : Res α} :
    flagIf (.ok b) (.ok (f o.1, o.2)) (r.map f) =
      (if b then .ok o else r.map (·, false)).map (fun p => (f p.1, p.2)) := by
  cases b
  · cases r <;> rfl
  · rfl

theorem unwrapRes_map {r : Res (Option α)} :
    unwrapRes (r.map (Option.map f)) = (r.bind unwrapOrPanic).map f := by
  rcases r with o | _
  · cases o <;> rfl
  · rfl

theorem opOf_mapR (cf : Cfg) {r : Res α} {c : Res (Option α)} :
    opOf cf (r.map f) (c.map (Option.map f)) = (I256.opOfR cf.oc r c).map f := by
  unfold opOf I256.opOfR
  cases cf.oc
  · rfl
  · rcases c with o | _
    · cases o <;> rfl
    · rfl

theorem fst_ok {γ δ : Type} {g : γ → δ} {r : Res (α × γ)} :
    fst (r.map fun p => (f p.1, g p.2)) = (r.map (·.1)).map f := by cases r <;> rfl
theorem snd_ok {γ δ : Type} {g : γ → δ} {r : Res (γ × α)} :
    snd (r.map fun p => (g p.1, f p.2)) = (r.map (·.2)).map f := by cases r <;> rfl

end generic

/-- A run that panics exactly when `P` and otherwise has a result with `Q`, read in memory. -/
theorem yields {be : Bool} {P : Prop} {Q : Limbs w → Prop} {r : Res (Limbs w)} (h : Yields P Q r) :
    Yields P (fun m => Q (logical be m)) (r.map (mem be)) := by
  refine ⟨fun p => by rw [h.1 p]; rfl, fun p => ?_⟩
  obtain ⟨v, rfl, hv⟩ := h.2 p
  exact ⟨_, rfl, by simpa only [logical_mem] using hv⟩

theorem yieldsO {be : Bool} {P : Prop} {Q : Limbs w × Bool → Prop} {r : Res (Limbs w × Bool)}
    (h : Yields P Q r) :
    Yields P (fun m => Q (logical be m.1, m.2)) (r.map fun p => (mem be p.1, p.2)) := by
  refine ⟨fun p => by rw [h.1 p]; rfl, fun p => ?_⟩
  obtain ⟨v, rfl, hv⟩ := h.2 p
  exact ⟨_, rfl, by simpa only [logical_mem] using hv⟩

theorem yieldsC {be : Bool} {P : Prop} {Q : Option (Limbs w) → Prop} {r : Res (Option (Limbs w))}
    (h : Yields P Q r) :
    Yields P (fun o => Q (o.map (logical be))) (r.map (Option.map (mem be))) := by
  refine ⟨fun p => by rw [h.1 p]; rfl, fun p => ?_⟩
  obtain ⟨v, rfl, hv⟩ := h.2 p
  exact ⟨_, rfl, by simpa only [option_logical] using hv⟩

theorem yieldsP {be : Bool} {P : Prop} {Q : Limbs w × Limbs w → Prop} {r : Res (Limbs w × Limbs w)}
    (h : Yields P Q r) :
    Yields P (fun m => Q (logical be m.1, logical be m.2)) (r.map fun p => (mem be p.1, mem be p.2)) := by
  refine ⟨fun p => by rw [h.1 p]; rfl, fun p => ?_⟩
  obtain ⟨v, rfl, hv⟩ := h.2 p
  exact ⟨_, rfl, by simpa only [logical_mem] using hv⟩

theorem yieldsPO {be : Bool} {P : Prop} {Q : (Limbs w × Limbs w) × Bool → Prop}
    {r : Res ((Limbs w × Limbs w) × Bool)} (h : Yields P Q r) :
    Yields P (fun m => Q ((logical be m.1.1, logical be m.1.2), m.2))
      (r.map fun p => ((mem be p.1.1, mem be p.1.2), p.2)) := by
  refine ⟨fun p => by rw [h.1 p]; rfl, fun p => ?_⟩
  obtain ⟨v, rfl, hv⟩ := h.2 p
  exact ⟨_, rfl, by simpa only [logical_mem] using hv⟩

theorem yieldsPC {be : Bool} {P : Prop} {Q : Option (Limbs w × Limbs w) → Prop}
    {r : Res (Option (Limbs w × Limbs w))} (h : Yields P Q r) :
    Yields P (fun o => Q (o.map fun p => (logical be p.1, logical be p.2)))
      (r.map (Option.map fun p => (mem be p.1, mem be p.2))) := by
  refine ⟨fun p => by rw [h.1 p]; rfl, fun p => ?_⟩
  obtain ⟨v, rfl, hv⟩ := h.2 p
  refine ⟨_, rfl, ?_⟩
  cases v
  · exact hv
  · simpa only [Option.map_some, logical_mem] using hv

theorem two_pow_of (hw : w = 32 ∨ w = 64) : ∃ k, w = 2 ^ k := by
  rcases hw with rfl | rfl
  · exact ⟨5, rfl⟩
  · exact ⟨6, rfl⟩

theorem mem_beq (be : Bool) (x y : Limbs w) : (mem be x == mem be y) = decide (x = y) := by
  rw [Bool.eq_iff_iff, beq_iff_eq, decide_eq_true_iff]
  exact ⟨mem_inj, fun h => h ▸ rfl⟩

theorem mkChecked_len {N : Nat} {r : Limbs w × Bool} (h : r.1.length = N) {v : Limbs w}
    (e : mkChecked r = some v) : v.length = N := by
  unfold mkChecked at e
  split at e
  · cases e; exact h
  · exact absurd e (by simp)

theorem opOf_len {oc : Bool} {N : Nat} {v d : Limbs w} {r : Limbs w × Bool} (h : d.length = N)
    (h' : r.1.length = N) (e : I256.opOf oc d (mkChecked r) = .ok v) : v.length = N := by
  unfold I256.opOf at e
  cases oc
  · simp only [Bool.not_false, if_true, Res.ok.injEq] at e
    exact e ▸ h
  · simp only [Bool.not_true, Bool.false_eq_true, if_false] at e
    rcases c : mkChecked r with _ | u
    · rw [c] at e; exact absurd e (by simp [unwrapOrPanic])
    · rw [c] at e
      have := Res.ok.inj e
      exact this ▸ mkChecked_len h' c

section
variable {x y : Limbs w} (cf : Cfg) (be : Bool) (F : Fit w x.length) (hl : x.length = y.length)
include F

theorem eqConst_ok' (hl : x.length = y.length) :
    Ord.eqConst be (mem be x) (mem be y) = .ok (I256.Ord.eqConst x y) := by
  rw [Ord.eqConst_ok F.w8 be hl F.even]
  congr 1
  rw [Bool.eq_iff_iff, decide_eq_true_iff, I256.Ord.eqConst_iff hl F.even]

theorem gt_ok (signed : Bool) (hl : x.length = y.length) :
    Ord.gt be signed (mem be x) (mem be y) = .ok (I256.Ord.gt signed x y) := by
  rw [Ord.gt, Ord.le_ok F.w8 be signed hl F.even F.nil, Res.mbind_ok, I256.Ord.gt]

theorem isZero_ok : isZero be (mem be x) = .ok (I256.Ord.eqConst x (ofU8 x.length 0)) := by
  rw [isZero, mem_length, zero_ok be F, Res.mbind_ok, eqConst_ok' be F (ofU8_length F 0).symm]

include hl

namespace U

theorem isDivNone_ok : isDivNone be (mem be x) (mem be y) = .ok (I256.U.isDivNone y) :=
  isZero_ok be (F.right hl)

theorem wrappingDivRem_ok' : wrappingDivRem cf be (mem be x) (mem be y) =
    (I256.U.wrappingDivRem x y).map (fun p => (mem be p.1, mem be p.2)) :=
  wrappingDivRem_ok cf be (w0 F) hl F.two F.n128

theorem wrappingDiv_ok' :
    wrappingDiv cf be (mem be x) (mem be y) = (I256.U.wrappingDiv x y).map (mem be) :=
  wrappingDiv_ok cf be (w0 F) F.w8 hl F.even F.n4 F.n128
theorem wrappingDivEuclid_ok :
    wrappingDivEuclid cf be (mem be x) (mem be y) = (I256.U.wrappingDivEuclid x y).map (mem be) :=
  wrappingDiv_ok' cf be F hl
theorem wrappingRem_ok :
    wrappingRem cf be (mem be x) (mem be y) = (I256.U.wrappingRem x y).map (mem be) := by
  rw [wrappingRem, wrappingDivRem_ok' cf be F hl, snd_ok]; rfl
theorem wrappingRemEuclid_ok :
    wrappingRemEuclid cf be (mem be x) (mem be y) = (I256.U.wrappingRemEuclid x y).map (mem be) :=
  wrappingRem_ok cf be F hl

theorem overflowingDivRem_ok : overflowingDivRem cf be (mem be x) (mem be y) =
    (I256.U.overflowingDivRem x y).map (fun p => ((mem be p.1.1, mem be p.1.2), p.2)) := by
  rw [overflowingDivRem, wrappingDivRem_ok' cf be F hl, I256.U.overflowingDivRem]
  cases I256.U.wrappingDivRem x y <;> rfl
theorem overflowingDiv_ok : overflowingDiv cf be (mem be x) (mem be y) =
    (I256.U.overflowingDiv x y).map (fun p => (mem be p.1, p.2)) := by
  rw [overflowingDiv, wrappingDiv_ok' cf be F hl, I256.U.overflowingDiv]
  cases I256.U.wrappingDiv x y <;> rfl
theorem overflowingDivEuclid_ok : overflowingDivEuclid cf be (mem be x) (mem be y) =
    (I256.U.overflowingDivEuclid x y).map (fun p => (mem be p.1, p.2)) := overflowingDiv_ok cf be F hl
theorem overflowingRem_ok : overflowingRem cf be (mem be x) (mem be y) =
    (I256.U.overflowingRem x y).map (fun p => (mem be p.1, p.2)) := by
  rw [overflowingRem, wrappingRem_ok cf be F hl, I256.U.overflowingRem]
  cases I256.U.wrappingRem x y <;> rfl
theorem overflowingRemEuclid_ok : overflowingRemEuclid cf be (mem be x) (mem be y) =
    (I256.U.overflowingRemEuclid x y).map (fun p => (mem be p.1, p.2)) := overflowingRem_ok cf be F hl

theorem checkedDivRem_ok : checkedDivRem cf be (mem be x) (mem be y) =
    (I256.U.checkedDivRem x y).map (Option.map fun p => (mem be p.1, mem be p.2)) := by
  rw [checkedDivRem, isDivNone_ok be F hl, wrappingDivRem_ok' cf be F hl, someUnless_ok]; rfl
theorem checkedDiv_ok : checkedDiv cf be (mem be x) (mem be y) =
    (I256.U.checkedDiv x y).map (Option.map (mem be)) := by
  have e : checkedDiv cf be (mem be x) (mem be y) =
      someUnless (isDivNone be (mem be x) (mem be y)) (wrappingDiv cf be (mem be x) (mem be y)) := by
    unfold checkedDiv someUnless isDivNone isZero
    cases fromU8 (w := w) be (mem be y).length 0 <;> rfl
  rw [e, isDivNone_ok be F hl, wrappingDiv_ok' cf be F hl, someUnless_ok]; rfl
theorem checkedRem_ok : checkedRem cf be (mem be x) (mem be y) =
    (I256.U.checkedRem x y).map (Option.map (mem be)) := by
  rw [checkedRem, isDivNone_ok be F hl, wrappingRem_ok cf be F hl, someUnless_ok]; rfl
theorem checkedDivEuclid_ok : checkedDivEuclid cf be (mem be x) (mem be y) =
    (I256.U.checkedDivEuclid x y).map (Option.map (mem be)) := by
  rw [checkedDivEuclid, isDivNone_ok be F hl, wrappingDivEuclid_ok cf be F hl, someUnless_ok]; rfl
theorem checkedRemEuclid_ok : checkedRemEuclid cf be (mem be x) (mem be y) =
    (I256.U.checkedRemEuclid x y).map (Option.map (mem be)) := by
  rw [checkedRemEuclid, isDivNone_ok be F hl, wrappingRemEuclid_ok cf be F hl, someUnless_ok]; rfl

theorem saturatingDiv_ok :
    saturatingDiv cf be (mem be x) (mem be y) = (I256.U.saturatingDiv x y).map (mem be) :=
  wrappingDiv_ok' cf be F hl
theorem strictDiv_ok : strictDiv cf be (mem be x) (mem be y) = (I256.U.strictDiv x y).map (mem be) := by
  rw [strictDiv, checkedDiv_ok cf be F hl, unwrapRes_map]; rfl
theorem strictRem_ok : strictRem cf be (mem be x) (mem be y) = (I256.U.strictRem x y).map (mem be) := by
  rw [strictRem, checkedRem_ok cf be F hl, unwrapRes_map]; rfl
theorem strictDivEuclid_ok :
    strictDivEuclid cf be (mem be x) (mem be y) = (I256.U.strictDivEuclid x y).map (mem be) := by
  rw [strictDivEuclid, checkedDivEuclid_ok cf be F hl, unwrapRes_map]; rfl
theorem strictRemEuclid_ok :
    strictRemEuclid cf be (mem be x) (mem be y) = (I256.U.strictRemEuclid x y).map (mem be) := by
  rw [strictRemEuclid, checkedRemEuclid_ok cf be F hl, unwrapRes_map]; rfl

theorem divRem_ok : divRem cf be (mem be x) (mem be y) =
    (I256.U.divRem cf.oc x y).map (fun p => (mem be p.1, mem be p.2)) := by
  rw [divRem, wrappingDivRem_ok' cf be F hl, checkedDivRem_ok cf be F hl, opOf_mapR]; rfl
theorem div_ok' : div cf be (mem be x) (mem be y) = (I256.U.div cf.oc x y).map (mem be) := by
  rw [div, wrappingDiv_ok' cf be F hl, checkedDiv_ok cf be F hl, opOf_mapR]; rfl
theorem rem_ok : rem cf be (mem be x) (mem be y) = (I256.U.rem cf.oc x y).map (mem be) := by
  rw [rem, wrappingRem_ok cf be F hl, checkedRem_ok cf be F hl, opOf_mapR]; rfl
theorem divEuclid_ok : divEuclid cf be (mem be x) (mem be y) = (I256.U.divEuclid cf.oc x y).map (mem be) := by
  rw [divEuclid, wrappingDivEuclid_ok cf be F hl, checkedDivEuclid_ok cf be F hl, opOf_mapR]; rfl
theorem remEuclid_ok : remEuclid cf be (mem be x) (mem be y) = (I256.U.remEuclid cf.oc x y).map (mem be) := by
  rw [remEuclid, wrappingRem_ok cf be F hl, checkedRemEuclid_ok cf be F hl, opOf_mapR]; rfl

theorem divFloor_ok : divFloor cf be (mem be x) (mem be y) = (I256.U.divFloor x y).map (mem be) :=
  wrappingDiv_ok' cf be F hl

theorem divRem_len {p : Limbs w × Limbs w} (e : I256.U.wrappingDivRem x y = .ok p) :
    p.1.length = x.length ∧ p.2.length = x.length := full_length (w0 F) hl F.two e

theorem divCeil_ok : divCeil cf be (mem be x) (mem be y) = (I256.U.divCeil x y).map (mem be) := by
  rw [divCeil, wrappingDivRem_ok' cf be F hl, I256.U.divCeil]
  rcases e : I256.U.wrappingDivRem x y with ⟨q, r⟩ | _
  · obtain ⟨hq, hr⟩ := divRem_len F hl e
    simp only at hq hr
    simp only [Res.map_ok, Res.mbind_ok]
    rw [isZero_ok be (hr ▸ F), Res.mbind_ok, wrappingAddULimb_ok be (hq ▸ F)]
    split <;> rfl
  · rfl

theorem rem_len {oc : Bool} {r : Limbs w} (e : I256.U.rem oc x y = .ok r) : r.length = x.length := by
  have hw' : ∀ v, I256.U.wrappingRem x y = .ok v → v.length = x.length := by
    intro v hv
    rw [I256.U.wrappingRem] at hv
    rcases c : I256.U.wrappingDivRem x y with p | _
    · rw [c] at hv; exact Res.ok.inj hv ▸ (divRem_len F hl c).2
    · rw [c] at hv; exact absurd hv (by simp [Res.map])
  unfold I256.U.rem I256.opOfR at e
  cases oc
  · exact hw' _ e
  · simp only [Bool.not_true, Bool.false_eq_true, if_false] at e
    unfold I256.U.checkedRem I256.checkedBy at e
    split at e
    · exact absurd e (by simp [unwrapOrPanic, Res.bind])
    · rcases c : I256.U.wrappingRem x y with v | _
      · rw [c] at e
        exact Res.ok.inj e ▸ hw' v c
      · rw [c] at e; exact absurd e (by simp [Res.map, Res.bind])

theorem checkedRem_len {r : Limbs w} (e : I256.U.checkedRem x y = .ok (some r)) :
    r.length = x.length := by
  apply rem_len F hl (oc := true)
  rw [I256.U.rem, I256.opOfR, e]
  rfl

theorem min_ok' : constant (mem be x).length 0 = .ok (mem be (I256.U.minValue w x.length)) := by
  rw [mem_length]; exact constant_ok be F.n128

theorem nextMultipleOf_ok :
    nextMultipleOf cf be (mem be x) (mem be y) = (I256.U.nextMultipleOf cf.oc x y).map (mem be) := by
  rw [nextMultipleOf, rem_ok cf be F hl, min_ok' be F hl, I256.U.nextMultipleOf]
  rcases e : I256.U.rem cf.oc x y with r | _
  · have hr := rem_len F hl e
    simp only [Res.map_ok, Res.mbind_ok, mem_beq, Res.bind]
    by_cases c : r = I256.U.minValue w x.length
    · rw [if_pos (decide_eq_true c), if_pos c]; rfl
    · rw [if_neg (by simpa using c), if_neg c, sub_ok cf be (F.right hl) (by omega)]
      rcases e' : I256.U.sub cf.oc y r with d | _
      · have hd : d.length = y.length := opOf_len (subLen (F.right hl) (by omega))
          (subLenO (F.right hl) (by omega)) e'
        simp only [Res.map_ok, Res.mbind_ok]
        exact add_ok cf be F (by omega)
      · rfl
  · rfl

theorem checkedNextMultipleOf_ok : checkedNextMultipleOf cf be (mem be x) (mem be y) =
    (I256.U.checkedNextMultipleOf x y).map (Option.map (mem be)) := by
  rw [checkedNextMultipleOf, checkedRem_ok cf be F hl, min_ok' be F hl, I256.U.checkedNextMultipleOf]
  rcases e : I256.U.checkedRem x y with o | _
  · rcases o with _ | r
    · rfl
    · have hr := checkedRem_len F hl e
      simp only [Res.map_ok, Res.mbind_ok, mem_beq, Option.map_some]
      by_cases c : r = I256.U.minValue w x.length
      · rw [if_pos (decide_eq_true c), if_pos c]; rfl
      · rw [if_neg (by simpa using c), if_neg c, wrappingSub_ok be (F.right hl) (by omega), Res.mbind_ok]
        exact checkedAdd_ok be F (by rw [I256.U.wrappingSub, subLen (F.right hl) (by omega)]; exact hl)
  · rfl

theorem isMultipleOf_ok : isMultipleOf cf be (mem be x) (mem be y) = I256.U.isMultipleOf x y := by
  have hm : (I256.U.minValue w x.length).length = x.length := List.length_replicate
  rw [isMultipleOf, min_ok' be F hl, Res.mbind_ok, mem_beq, I256.U.isMultipleOf]
  by_cases c : y = I256.U.minValue w x.length
  · rw [if_pos (decide_eq_true c), if_pos c]
    exact eqConst_ok' be F hm.symm
  · rw [if_neg (by simpa using c), if_neg c, wrappingRem_ok cf be F hl]
    rcases e : I256.U.wrappingRem x y with r | _
    · have hr : r.length = x.length := rem_len F hl (oc := false) e
      simp only [Res.map_ok, Res.mbind_ok]
      exact eqConst_ok' be (hr ▸ F) (by omega)
    · rfl

end U

namespace I

theorem minusOne_ok (hw : w = 32 ∨ w = 64) :
    minusOne be (mem be y).length = .ok (mem be (ofI8 y.length (-1) : Limbs w)) := by
  have G := F.right hl
  rw [minusOne, mem_length, Cast.fromI_ok be hw G.n4 G.n128, minusOne_eq hw]

theorem minusOne_len : (ofI8 y.length (-1) : Limbs w).length = y.length := by
  have := (F.right hl).pos
  rw [ofI8, extI]
  simp only [List.length_cons, List.length_replicate]
  omega

theorem min_len : (I256.I.minValue w x.length).length = x.length := by
  rw [I256.I.minValue]
  simp
  exact Nat.sub_add_cancel F.pos

variable (hw : w = 32 ∨ w = 64)
include hw

theorem isDivOverflow_ok :
    isDivOverflow be (mem be x) (mem be y) = .ok (I256.I.isDivOverflow x y) := by
  rw [isDivOverflow, mem_length, min_ok be F, Res.mbind_ok, eqConst_ok' be F (min_len F hl).symm,
    Res.mbind_ok, minusOne_ok be F hl hw, Res.mbind_ok,
    eqConst_ok' be (F.right hl) (minusOne_len F hl).symm, Res.mbind_ok, I256.I.isDivOverflow]

theorem isDivNone_ok : isDivNone be (mem be x) (mem be y) = .ok (I256.I.isDivNone x y) := by
  rw [isDivNone, isZero_ok be (F.right hl), Res.mbind_ok, isDivOverflow_ok be F hl hw, I256.I.isDivNone]
  cases I256.Ord.eqConst y (ofU8 y.length 0) <;> rfl

omit hw
theorem wrappingDivRem_ok' : wrappingDivRem cf be (mem be x) (mem be y) =
    (I256.I.wrappingDivRem x y).map (fun p => (mem be p.1, mem be p.2)) :=
  wrappingDivRem_ok cf be (w0 F) F.w8 hl F.two F.even F.n128
theorem wrappingDiv_ok :
    wrappingDiv cf be (mem be x) (mem be y) = (I256.I.wrappingDiv x y).map (mem be) := by
  rw [wrappingDiv, wrappingDivRem_ok' cf be F hl, fst_ok]; rfl
theorem wrappingRem_ok :
    wrappingRem cf be (mem be x) (mem be y) = (I256.I.wrappingRem x y).map (mem be) := by
  rw [wrappingRem, wrappingDivRem_ok' cf be F hl, snd_ok]; rfl

theorem neg_len {v : Limbs w} (h : v.length = x.length) : (I256.I.wrappingNeg v).length = x.length :=
  (wrappingNegS (w0 F) (by have := F.n4; omega)).1.trans h

theorem divRem_len {p : Limbs w × Limbs w} (e : I256.I.wrappingDivRem x y = .ok p) :
    p.1.length = x.length ∧ p.2.length = x.length := by
  have hx := (unsignedAbsU (w0 F) F.two F.even).1
  have hy := (unsignedAbsU (w0 F) (F.right hl).two (F.right hl).even).1
  have h2 := F.two
  rw [I256.I.wrappingDivRem] at e
  rcases c : I256.Div.full (I256.I.unsignedAbs x) (I256.I.unsignedAbs y) with ⟨q, r⟩ | _
  · obtain ⟨hq, hr⟩ := U.full_length (w0 F) (by omega) (by omega) c
    rw [c] at e
    rw [← Res.ok.inj e]
    simp only at hq hr ⊢
    rw [hx] at hq hr
    constructor
    · split
      · exact neg_len F hl hq
      · exact hq
    · split
      · exact neg_len F hl hr
      · exact hr
  · rw [c] at e; exact absurd e (by simp [Res.map])

theorem wrappingAddULimb_ok (n : BitVec w) :
    wrappingAddULimb be (mem be x) n = .ok (mem be (I256.I.wrappingAddULimb x n)) :=
  U.wrappingAddULimb_ok be F n
theorem wrappingSubULimb_ok (n : BitVec w) :
    wrappingSubULimb be (mem be x) n = .ok (mem be (I256.I.wrappingSubULimb x n)) := by
  rw [wrappingSubULimb, Sub.wrappingLimb_ok be x n F.two]
  exact wrappingOf_ok (by rw [(I256.Sub.limbWrapU (w0 F) F.nil n).1]; exact F.n128)

theorem wrappingDivEuclid_ok :
    wrappingDivEuclid cf be (mem be x) (mem be y) = (I256.I.wrappingDivEuclid x y).map (mem be) := by
  rw [wrappingDivEuclid, wrappingDivRem_ok' cf be F hl, I256.I.wrappingDivEuclid]
  rcases e : I256.I.wrappingDivRem x y with ⟨q, r⟩ | _
  · obtain ⟨hq, hr⟩ := divRem_len F hl e
    simp only at hq hr
    simp only [Res.map_ok, Res.mbind_ok]
    rw [isNegative_ok' be (hr ▸ F), Res.mbind_ok, Bits.isPositive_ok be (F.right hl).nil,
      wrappingAddULimb_ok be (hq ▸ F) rfl, wrappingSubULimb_ok be (hq ▸ F) rfl]
    cases I256.I.isNegative r
    · rfl
    · cases I256.I.isPositive y <;> rfl
  · rfl

theorem wrappingRem_len {r : Limbs w} (e : I256.I.wrappingRem x y = .ok r) : r.length = x.length := by
  rw [I256.I.wrappingRem] at e
  rcases c : I256.I.wrappingDivRem x y with p | _
  · rw [c] at e; exact Res.ok.inj e ▸ (divRem_len F hl c).2
  · rw [c] at e; exact absurd e (by simp [Res.map])

theorem wrappingRemEuclid_ok :
    wrappingRemEuclid cf be (mem be x) (mem be y) = (I256.I.wrappingRemEuclid x y).map (mem be) := by
  rw [wrappingRemEuclid, wrappingRem_ok cf be F hl, I256.I.wrappingRemEuclid]
  rcases e : I256.I.wrappingRem x y with r | _
  · have hr := wrappingRem_len F hl e
    have ha : (I256.I.wrappingAbs y).length = y.length :=
      (unsignedAbsU (w0 F) (F.right hl).two (F.right hl).even).1
    simp only [Res.map_ok, Res.mbind_ok]
    rw [isNegative_ok' be (hr ▸ F), Res.mbind_ok, wrappingAbs_ok cf be (F.right hl), Res.mbind_ok,
      wrappingAdd_ok be (hr ▸ F) (by omega)]
    cases I256.I.isNegative r <;> rfl
  · rfl

theorem overRem_ok : overRem be (mem be x) =
    .ok (mem be (ofU8 x.length 0), I256.Ord.eqConst x (I256.I.minValue w x.length)) := by
  rw [overRem, mem_length, zero_ok be F, Res.mbind_ok, min_ok be F, Res.mbind_ok,
    eqConst_ok' be F (min_len F hl).symm, Res.mbind_ok]

include hw

theorem overflowingDivRem_ok : overflowingDivRem cf be (mem be x) (mem be y) =
    (I256.I.overflowingDivRem x y).map (fun p => ((mem be p.1.1, mem be p.1.2), p.2)) := by
  rw [overflowingDivRem, isDivOverflow_ok be F hl hw, mem_length, zero_ok be F, Res.mbind_ok,
    wrappingDivRem_ok' cf be F hl]
  exact flagIf_ok (fun p : Limbs w × Limbs w => (mem be p.1, mem be p.2))
    (o := ((x, ofU8 x.length 0), true))
theorem overflowingDiv_ok : overflowingDiv cf be (mem be x) (mem be y) =
    (I256.I.overflowingDiv x y).map (fun p => (mem be p.1, p.2)) := by
  rw [overflowingDiv, isDivOverflow_ok be F hl hw, wrappingDiv_ok cf be F hl]
  exact flagIf_ok (mem be) (o := (x, true))
theorem overflowingDivEuclid_ok : overflowingDivEuclid cf be (mem be x) (mem be y) =
    (I256.I.overflowingDivEuclid x y).map (fun p => (mem be p.1, p.2)) := by
  rw [overflowingDivEuclid, isDivOverflow_ok be F hl hw, wrappingDivEuclid_ok cf be F hl]
  exact flagIf_ok (mem be) (o := (x, true))
theorem overflowingRem_ok : overflowingRem cf be (mem be x) (mem be y) =
    (I256.I.overflowingRem x y).map (fun p => (mem be p.1, p.2)) := by
  rw [overflowingRem, isDivOverflow_ok be F hl hw, overRem_ok be F hl, wrappingRem_ok cf be F hl]
  exact flagIf_ok (mem be) (o := (ofU8 x.length 0, I256.Ord.eqConst x (I256.I.minValue w x.length)))
theorem overflowingRemEuclid_ok : overflowingRemEuclid cf be (mem be x) (mem be y) =
    (I256.I.overflowingRemEuclid x y).map (fun p => (mem be p.1, p.2)) := by
  rw [overflowingRemEuclid, isDivOverflow_ok be F hl hw, overRem_ok be F hl, wrappingRemEuclid_ok cf be F hl]
  exact flagIf_ok (mem be) (o := (ofU8 x.length 0, I256.Ord.eqConst x (I256.I.minValue w x.length)))

theorem checkedDivRem_ok : checkedDivRem cf be (mem be x) (mem be y) =
    (I256.I.checkedDivRem x y).map (Option.map fun p => (mem be p.1, mem be p.2)) := by
  rw [checkedDivRem, isDivNone_ok be F hl hw, wrappingDivRem_ok' cf be F hl, someUnless_ok]; rfl
theorem checkedDiv_ok : checkedDiv cf be (mem be x) (mem be y) =
    (I256.I.checkedDiv x y).map (Option.map (mem be)) := by
  rw [checkedDiv, isDivNone_ok be F hl hw, wrappingDiv_ok cf be F hl, someUnless_ok]; rfl
theorem checkedRem_ok : checkedRem cf be (mem be x) (mem be y) =
    (I256.I.checkedRem x y).map (Option.map (mem be)) := by
  rw [checkedRem, isDivNone_ok be F hl hw, wrappingRem_ok cf be F hl, someUnless_ok]; rfl
theorem checkedDivEuclid_ok : checkedDivEuclid cf be (mem be x) (mem be y) =
    (I256.I.checkedDivEuclid x y).map (Option.map (mem be)) := by
  rw [checkedDivEuclid, isDivNone_ok be F hl hw, wrappingDivEuclid_ok cf be F hl, someUnless_ok]; rfl
theorem checkedRemEuclid_ok : checkedRemEuclid cf be (mem be x) (mem be y) =
    (I256.I.checkedRemEuclid x y).map (Option.map (mem be)) := by
  rw [checkedRemEuclid, isDivNone_ok be F hl hw, wrappingRemEuclid_ok cf be F hl, someUnless_ok]; rfl

theorem saturatingDiv_ok :
    saturatingDiv cf be (mem be x) (mem be y) = (I256.I.saturatingDiv x y).map (mem be) := by
  rw [saturatingDiv, overflowingDiv_ok cf be F hl hw, I256.I.saturatingDiv]
  rcases I256.I.overflowingDiv x y with ⟨v, f⟩ | _
  · simp only [Res.map_ok, Res.mbind_ok, mem_length, max_ok be F]
    cases f <;> rfl
  · rfl
theorem strictDiv_ok : strictDiv cf be (mem be x) (mem be y) = (I256.I.strictDiv x y).map (mem be) := by
  rw [strictDiv, checkedDiv_ok cf be F hl hw, unwrapRes_map]; rfl
theorem strictRem_ok : strictRem cf be (mem be x) (mem be y) = (I256.I.strictRem x y).map (mem be) := by
  rw [strictRem, checkedRem_ok cf be F hl hw, unwrapRes_map]; rfl
theorem strictDivEuclid_ok :
    strictDivEuclid cf be (mem be x) (mem be y) = (I256.I.strictDivEuclid x y).map (mem be) := by
  rw [strictDivEuclid, checkedDivEuclid_ok cf be F hl hw, unwrapRes_map]; rfl
theorem strictRemEuclid_ok :
    strictRemEuclid cf be (mem be x) (mem be y) = (I256.I.strictRemEuclid x y).map (mem be) := by
  rw [strictRemEuclid, checkedRemEuclid_ok cf be F hl hw, unwrapRes_map]; rfl

theorem divRem_ok : divRem cf be (mem be x) (mem be y) =
    (I256.I.divRem cf.oc x y).map (fun p => (mem be p.1, mem be p.2)) := by
  rw [divRem, wrappingDivRem_ok' cf be F hl, checkedDivRem_ok cf be F hl hw, opOf_mapR]; rfl
theorem div_ok : div cf be (mem be x) (mem be y) = (I256.I.div cf.oc x y).map (mem be) := by
  rw [div, wrappingDiv_ok cf be F hl, checkedDiv_ok cf be F hl hw, opOf_mapR]; rfl
theorem rem_ok : rem cf be (mem be x) (mem be y) = (I256.I.rem cf.oc x y).map (mem be) := by
  rw [rem, wrappingRem_ok cf be F hl, checkedRem_ok cf be F hl hw, opOf_mapR]; rfl
theorem divEuclid_ok : divEuclid cf be (mem be x) (mem be y) = (I256.I.divEuclid cf.oc x y).map (mem be) := by
  rw [divEuclid, wrappingDivEuclid_ok cf be F hl, checkedDivEuclid_ok cf be F hl hw, opOf_mapR]; rfl
theorem remEuclid_ok : remEuclid cf be (mem be x) (mem be y) = (I256.I.remEuclid cf.oc x y).map (mem be) := by
  rw [remEuclid, wrappingRemEuclid_ok cf be F hl, checkedRemEuclid_ok cf be F hl hw, opOf_mapR]; rfl

omit hw in
theorem divFloor_ok : divFloor cf be (mem be x) (mem be y) = (I256.I.divFloor x y).map (mem be) := by
  rw [divFloor, wrappingDivRem_ok' cf be F hl, I256.I.divFloor]
  rcases e : I256.I.wrappingDivRem x y with ⟨q, r⟩ | _
  · obtain ⟨hq, hr⟩ := divRem_len F hl e
    simp only at hq hr
    simp only [Res.map_ok, Res.mbind_ok]
    rw [isNegative_ok' be F, Res.mbind_ok, isNegative_ok' be (F.right hl), Res.mbind_ok,
      isZero_ok be (hr ▸ F), Res.mbind_ok, wrappingSubULimb_ok be (hq ▸ F) rfl]
    split <;> rfl
  · rfl

omit hl in
theorem shrU32_ok (n : BitVec 32) (h32 : w * x.length < 2 ^ 32) :
    shrU32 cf be (mem be x) n = (I256.shrPrim cf.oc false true x n).map (mem be) := by
  obtain ⟨k, hk⟩ := two_pow_of hw
  rw [shrU32, wrappingShr_ok be true hk F.w8 F.even F.n4 F.n128, I256.shrPrim,
    show bits (mem be x) = bits x by simp [bits]]
  have e : primAsU32 false n = n.toNat := by simp [primAsU32]
  have e' : primInRange false (bits x) n = decide (n.toNat < bits x) := by
    have : bits x < 2 ^ 32 := h32
    have h := Nat.mod_eq_of_lt this
    simp only [Nat.reducePow] at h
    simp [primInRange, BitVec.ult, h]
  rw [e, e']
  cases cf.oc
  · rfl
  · by_cases c : n.toNat < bits x <;> simp [c, assert]

theorem divCeil_ok (h32 : w * x.length < 2 ^ 32) :
    divCeil cf be (mem be x) (mem be y) = (I256.I.divCeil cf.oc x y).map (mem be) := by
  have hx : (I256.Bits.xor x y).length = x.length := by simp [I256.Bits.xor, ← hl]
  have h4 := F.n4
  have hp : 0 < bits x := Nat.mul_pos (w0 F) F.pos
  have X : Fit w (I256.Bits.xor x y).length := hx.symm ▸ F
  obtain ⟨k, hk⟩ := two_pow_of hw
  rw [divCeil, wrappingDivRem_ok' cf be F hl, I256.I.divCeil]
  rcases e : I256.I.wrappingDivRem x y with ⟨q, r⟩ | _
  · obtain ⟨hq, hr⟩ := divRem_len F hl e
    simp only at hq hr
    simp only [Res.map_ok, Res.mbind_ok, Res.bind]
    rw [mem_length, zero_ok be F, Res.mbind_ok, Bits.zip_ok be _ hl F.n128, Res.mbind_ok,
      show bits (mem be x) = bits x by simp [bits], usub_ok (by omega), Res.mbind_ok,
      show List.zipWith (· ^^^ ·) x y = I256.Bits.xor x y from rfl,
      shrU32_ok cf be X hw _ (by rw [hx]; exact h32)]
    rcases es : I256.shrPrim cf.oc false true (I256.Bits.xor x y) (BitVec.ofNat 32 (bits x - 1)) with s | _
    · have hs : s.length = x.length := by
        unfold I256.shrPrim at es
        split at es
        · exact absurd es (by simp)
        · rw [← Res.ok.inj es]
          exact (wrappingShr_spec hk (by rw [hx]; exact F.even) X.nil true _).1.trans hx
      have h1 := ofU8_length F 1
      simp only [Res.map_ok, Res.mbind_ok]
      rw [add_ok cf be (h1.symm ▸ F) (by omega)]
      rcases ec : I256.I.add cf.oc (ofU8 x.length 1) s with c | _
      · have hc : c.length = x.length := opOf_len (by rw [I256.I.wrappingAdd, addLen (h1.symm ▸ F) (by omega)]; exact h1)
          (by rw [I256.I.overflowingAdd, addLenS (h1.symm ▸ F) (by omega)]; exact h1) ec
        simp only [Res.map_ok, Res.mbind_ok]
        rw [isZero_ok be (hr ▸ F), Res.mbind_ok, wrappingAdd_ok be (hq ▸ F) (by omega)]
        split <;> rfl
      · rfl
    · rfl
  · rfl

omit hw in
theorem rem_len {oc : Bool} {r : Limbs w} (e : I256.I.rem oc x y = .ok r) : r.length = x.length := by
  have hw' := fun v => wrappingRem_len (r := v) F hl
  unfold I256.I.rem I256.opOfR at e
  cases oc
  · exact hw' _ e
  · simp only [Bool.not_true, Bool.false_eq_true, if_false] at e
    unfold I256.I.checkedRem I256.checkedBy at e
    split at e
    · exact absurd e (by simp [unwrapOrPanic, Res.bind])
    · rcases c : I256.I.wrappingRem x y with v | _
      · rw [c] at e
        exact Res.ok.inj e ▸ hw' v c
      · rw [c] at e; exact absurd e (by simp [Res.map, Res.bind])

omit hw in
theorem checkedRem_len {r : Limbs w} (e : I256.I.checkedRem x y = .ok (some r)) :
    r.length = x.length := by
  apply rem_len F hl (oc := true)
  rw [I256.I.rem, I256.opOfR, e]
  rfl

omit hw in
theorem add_len {oc : Bool} {v : Limbs w} (e : I256.I.add oc x y = .ok v) : v.length = x.length :=
  opOf_len (addLen F hl) (addLenS F hl) e
omit hw in
theorem sub_len {oc : Bool} {v : Limbs w} (e : I256.I.sub oc x y = .ok v) : v.length = x.length :=
  opOf_len (subLen F hl) (subLenS F hl) e

omit hw in
/-- The last steps of `next_multiple_of`. -/
theorem nextTail (c : Bool) {r : Limbs w} (hr : r.length = x.length) :
    (do let m ← if c then add cf be (mem be r) (mem be y) else .ok (mem be r)
        let z ← Ord.eqConst be m (mem be (ofU8 x.length 0))
        if z then .ok (mem be x)
        else
          let d ← sub cf be (mem be y) m
          add cf be (mem be x) d) =
      ((if c then I256.I.add cf.oc r y else .ok r).bind fun m =>
        if I256.Ord.eqConst m (ofU8 x.length 0) then .ok x
        else (I256.I.sub cf.oc y m).bind fun d => I256.I.add cf.oc x d).map (mem be) := by
  have h0 := ofU8_length F 0
  have G := F.right hl
  have R : Fit w r.length := hr ▸ F
  have step : ∀ m : Limbs w, m.length = x.length →
      (do let z ← Ord.eqConst be (mem be m) (mem be (ofU8 x.length 0))
          if z then .ok (mem be x)
          else
            let d ← sub cf be (mem be y) (mem be m)
            add cf be (mem be x) d) =
      (if I256.Ord.eqConst m (ofU8 x.length 0) then .ok x
        else (I256.I.sub cf.oc y m).bind fun d => I256.I.add cf.oc x d).map (mem be) := by
    intro m hm
    rw [eqConst_ok' be (hm ▸ F) (by omega), Res.mbind_ok,
      sub_ok cf be (by omega) G.two G.n128 G.w1]
    cases I256.Ord.eqConst m (ofU8 x.length 0)
    · simp only [Bool.false_eq_true, if_false]
      rcases e : I256.I.sub cf.oc y m with d | _
      · have hd := sub_len G (by omega) e
        simp only [Res.map_ok, Res.mbind_ok, Res.bind]
        exact add_ok cf be F (by omega)
      · rfl
    · rfl
  cases c
  · simpa only [Bool.false_eq_true, if_false, Res.mbind_ok, Res.bind] using step r hr
  · simp only [if_true]
    rw [add_ok cf be R (by omega)]
    rcases e : I256.I.add cf.oc r y with m | _
    · simpa only [Res.map_ok, Res.mbind_ok, Res.bind] using step m ((add_len R (by omega) e).trans hr)
    · rfl

omit hw in
/-- The last steps of `checked_next_multiple_of`. -/
theorem checkedNextTail (c : Bool) {r : Limbs w} (hr : r.length = x.length) :
    (do let m ← if c then add cf be (mem be r) (mem be y) else .ok (mem be r)
        let z ← Ord.eqConst be m (mem be (ofU8 x.length 0))
        if z then .ok (some (mem be x))
        else
          let d ← sub cf be (mem be y) m
          checkedAdd be (mem be x) d) =
      ((if c then I256.I.add cf.oc r y else .ok r).bind fun m =>
        if I256.Ord.eqConst m (ofU8 x.length 0) then .ok (some x)
        else (I256.I.sub cf.oc y m).map fun d => I256.I.checkedAdd x d).map (Option.map (mem be)) := by
  have h0 := ofU8_length F 0
  have G := F.right hl
  have R : Fit w r.length := hr ▸ F
  have step : ∀ m : Limbs w, m.length = x.length →
      (do let z ← Ord.eqConst be (mem be m) (mem be (ofU8 x.length 0))
          if z then .ok (some (mem be x))
          else
            let d ← sub cf be (mem be y) (mem be m)
            checkedAdd be (mem be x) d) =
      (if I256.Ord.eqConst m (ofU8 x.length 0) then .ok (some x)
        else (I256.I.sub cf.oc y m).map fun d => I256.I.checkedAdd x d).map (Option.map (mem be)) := by
    intro m hm
    rw [eqConst_ok' be (hm ▸ F) (by omega), Res.mbind_ok,
      sub_ok cf be (by omega) G.two G.n128 G.w1]
    cases I256.Ord.eqConst m (ofU8 x.length 0)
    · simp only [Bool.false_eq_true, if_false]
      rcases e : I256.I.sub cf.oc y m with d | _
      · have hd := sub_len G (by omega) e
        simp only [Res.map_ok, Res.mbind_ok]
        exact checkedAdd_ok be F (by omega)
      · rfl
    · rfl
  cases c
  · simpa only [Bool.false_eq_true, if_false, Res.mbind_ok, Res.bind] using step r hr
  · simp only [if_true]
    rw [add_ok cf be R (by omega)]
    rcases e : I256.I.add cf.oc r y with m | _
    · simpa only [Res.map_ok, Res.mbind_ok, Res.bind] using step m ((add_len R (by omega) e).trans hr)
    · rfl

theorem nextMultipleOf_ok :
    nextMultipleOf cf be (mem be x) (mem be y) = (I256.I.nextMultipleOf cf.oc x y).map (mem be) := by
  have h0 := ofU8_length F 0
  have G := F.right hl
  rw [nextMultipleOf, minusOne_ok be F hl hw, Res.mbind_ok, eqConst_ok' be G (minusOne_len F hl).symm,
    Res.mbind_ok, mem_length, zero_ok be F, rem_ok cf be F hl hw, I256.I.nextMultipleOf]
  cases I256.Ord.eqConst y (ofI8 y.length (-1))
  swap
  · rfl
  simp only [Bool.false_eq_true, if_false, Res.mbind_ok]
  rcases e : I256.I.rem cf.oc x y with r | _
  swap
  · rfl
  have hr := rem_len F hl e
  have R : Fit w r.length := hr ▸ F
  simp only [Res.map_ok, Res.mbind_ok]
  rw [gt_ok be R true (by omega), gt_ok be G true (by omega), Ord.lt_ok R.w8 be true (by omega) R.even R.nil,
    Ord.lt_ok G.w8 be true (by omega) G.even G.nil]
  have ht := nextTail cf be F hl ((I256.Ord.gt true r (ofU8 x.length 0) &&
    I256.Ord.lt true y (ofU8 x.length 0)) || (I256.Ord.lt true r (ofU8 x.length 0) &&
    I256.Ord.gt true y (ofU8 x.length 0))) hr
  refine Eq.trans ?_ ht
  simp only [Res.mbind_ok]
  cases I256.Ord.gt true r (ofU8 x.length 0) <;> cases I256.Ord.lt true y (ofU8 x.length 0) <;>
    cases I256.Ord.lt true r (ofU8 x.length 0) <;> rfl

theorem checkedNextMultipleOf_ok : checkedNextMultipleOf cf be (mem be x) (mem be y) =
    (I256.I.checkedNextMultipleOf cf.oc x y).map (Option.map (mem be)) := by
  have h0 := ofU8_length F 0
  have G := F.right hl
  rw [checkedNextMultipleOf, minusOne_ok be F hl hw, Res.mbind_ok,
    eqConst_ok' be G (minusOne_len F hl).symm, Res.mbind_ok, mem_length, zero_ok be F,
    checkedRem_ok cf be F hl hw, I256.I.checkedNextMultipleOf]
  cases I256.Ord.eqConst y (ofI8 y.length (-1))
  swap
  · rfl
  simp only [Bool.false_eq_true, if_false, Res.mbind_ok]
  rcases e : I256.I.checkedRem x y with o | _
  swap
  · rfl
  rcases o with _ | r
  · rfl
  have hr := checkedRem_len F hl e
  have R : Fit w r.length := hr ▸ F
  simp only [Res.map_ok, Res.mbind_ok, Option.map_some]
  rw [Bits.isPositive_ok be R.nil, isNegative_ok' be G, isNegative_ok' be R, Bits.isPositive_ok be G.nil]
  simp only [Res.mbind_ok]
  exact checkedNextTail cf be F hl _ hr

end I

end

end Raw

end I256
