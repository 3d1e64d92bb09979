import Verif.SpecRawDiv
import Verif.Model.RawDivScalar
import Verif.Lemmas.RawDivForms
import Verif.Lemmas.RawFixed
import Verif.Lemmas.Fixed
import Verif.Lemmas.FixedStray

/-!
# The forms of division by a scalar in memory: agreement with the functional model
-/

namespace I256

variable {w : Nat}

namespace Raw

open _root_.I256.Raw.Div (Cfg)

section generic
variable {α β γ δ : Type}

theorem fst_map (r : Res (α × β)) : fst r = r.map (·.1) := by cases r <;> rfl
theorem snd_map (r : Res (α × β)) : snd r = r.map (·.2) := by cases r <;> rfl
theorem fstFlag_map (r : Res ((α × β) × Bool)) : fstFlag r = r.map fun p => (p.1.1, p.2) := by
  cases r <;> rfl
theorem sndFlag_map (r : Res ((α × β) × Bool)) : sndFlag r = r.map fun p => (p.1.2, p.2) := by
  cases r <;> rfl
theorem fstSome_map (r : Res (Option (α × β))) : fstSome r = r.map (Option.map (·.1)) := by
  rcases r with o | _
  · cases o <;> rfl
  · rfl
theorem sndSome_map (r : Res (Option (α × β))) : sndSome r = r.map (Option.map (·.2)) := by
  rcases r with o | _
  · cases o <;> rfl
  · rfl
theorem withFalse_map (r : Res α) : withFalse r = r.map (·, false) := by cases r <;> rfl
theorem someIfFits_map (r : Res (α × Bool)) : someIfFits r = r.map mkChecked := by
  rcases r with ⟨v, b⟩ | _
  · cases b <;> rfl
  · rfl
theorem castRem_map {m : Nat} (n : Nat) (r : Res (α × BitVec m)) :
    castRem n r = r.map fun p => (p.1, p.2.setWidth n) := by cases r <;> rfl
theorem castRemFlag_map {m : Nat} (n : Nat) (r : Res ((α × BitVec m) × Bool)) :
    castRemFlag n r = r.map fun p => ((p.1.1, p.1.2.setWidth n), p.2) := by cases r <;> rfl

end generic

end Raw

/-! ## The contracts -/

section generic
variable {α β : Type} {oc : Bool} {P ov Z : Prop} {G : α → Prop} {G' : β → Prop} {wr op : Res α}
  {over : Res (α × Bool)} {ch : Res (Option α)}

theorem ScalarForms.map (h : ScalarForms oc P ov G wr over ch op) (f : α → β) (hf : ∀ v, G v → G' (f v)) :
    ScalarForms oc P ov G' (wr.map f) (over.map fun p => (f p.1, p.2)) (ch.map (Option.map f)) (op.map f) := by
  obtain ⟨h1, h2, h3, h4⟩ := h
  refine ⟨h1.map hf, h2.map fun p hp => ⟨hf _ hp.1, hp.2⟩, h3.map fun o ho => ?_, h4.map hf⟩
  refine ⟨by rw [← ho.1]; simp, fun v hv => ?_⟩
  cases o with
  | none => simp at hv
  | some u => simp at hv; rw [← hv]; exact hf _ (ho.2 _ rfl)

theorem ZeroForms.map (h : ZeroForms oc Z G wr over ch op) (f : α → β) (hf : ∀ v, G v → G' (f v)) :
    ZeroForms oc Z G' (wr.map f) (over.map fun p => (f p.1, p.2)) (ch.map (Option.map f)) (op.map f) := by
  obtain ⟨h1, h2, h3, h4⟩ := h
  exact ⟨h1.map hf, h2.map fun p hp => ⟨hf _ hp.1, hp.2⟩, by rw [h3]; rfl, h4.map hf⟩

/-- A division that cannot overflow. -/
theorem scalarForms (cf : Raw.Div.Cfg) {m : Nat} {n : BitVec m} (hn : n ≠ 0) (h : Yields P G wr) :
    ScalarForms cf.oc P False G wr (Raw.withFalse wr) (Raw.checkedBy n wr)
      (Raw.opOf cf wr (Raw.checkedBy n wr)) := by
  have hz : isZeroScalar n = false := by simpa [isZeroScalar] using hn
  have hc : Raw.checkedBy n wr = wr.map some := by rw [Raw.checkedBy_eq, hz, checkedBy_false]
  refine ⟨h, ?_, ?_, ?_⟩
  · rw [Raw.withFalse_map]
    exact h.map fun v hv => ⟨hv, by simp⟩
  · rw [hc]
    exact h.map fun v hv => ⟨by simp, fun u hu => by cases hu; exact hv⟩
  · rw [hc, Raw.opOf_eq, opOfR_checked]
    exact h.congr (by simp)

theorem zeroForms (cf : Raw.Div.Cfg) {m : Nat} (h : Yields Z G wr) :
    ZeroForms cf.oc Z G wr (Raw.withFalse wr) (Raw.checkedBy (0 : BitVec m) wr)
      (Raw.opOf cf wr (Raw.checkedBy (0 : BitVec m) wr)) := by
  have hc : Raw.checkedBy (0 : BitVec m) wr = .ok none := by simp [Raw.checkedBy]
  refine ⟨h, ?_, hc, ?_⟩
  · rw [Raw.withFalse_map]
    exact h.map fun v hv => ⟨hv, rfl⟩
  · rw [hc, Raw.opOf_eq, opOfR]
    cases cf.oc
    · exact h.congr (by simp)
    · exact ⟨fun _ => rfl, fun h => absurd (.inl rfl) h⟩

/-- The checked form and the operator of a division that can overflow. -/
theorem scalarFormsS (cf : Raw.Div.Cfg) {m : Nat} {n : BitVec m} (hn : n ≠ 0) (h : Yields P G wr)
    (ho : Yields P (fun p => G p.1 ∧ (p.2 = true ↔ ov)) over) :
    ScalarForms cf.oc P ov G wr over (Raw.I.checkedDivRemSigned n over)
      (Raw.opOf cf wr (Raw.I.checkedDivRemSigned n over)) := by
  have hc : Raw.I.checkedDivRemSigned n over = over.map mkChecked := by
    rw [Raw.I.checkedDivRemSigned, if_neg (by simpa using hn), Raw.someIfFits_map]
  have hk : Yields P (fun o => (o = none ↔ ov) ∧ ∀ v, o = some v → G v) (over.map mkChecked) := by
    refine ho.map ?_
    rintro ⟨v, b⟩ ⟨hv, hb⟩
    rw [← hb]
    cases b
    · exact ⟨by simp [mkChecked], fun u hu => by cases hu; exact hv⟩
    · exact ⟨by simp [mkChecked], fun u hu => by cases hu⟩
  refine ⟨h, ho, hc ▸ hk, ?_⟩
  rw [hc, Raw.opOf_eq, opOfR]
  cases cf.oc
  · exact h.congr (by simp)
  · refine ⟨fun hp => ?_, fun hp => ?_⟩
    · by_cases hP : P
      · rw [hk.1 hP]; rfl
      · obtain ⟨o, eo, ho, -⟩ := hk.2 hP
        rw [eo, ho.2 (hp.resolve_left hP).2]; rfl
    · obtain ⟨o, eo, hn, hG⟩ := hk.2 fun hP => hp (.inl hP)
      rw [eo]
      cases o with
      | none => exact absurd (.inr ⟨rfl, hn.1 rfl⟩) hp
      | some v => exact ⟨v, rfl, hG v rfl⟩

theorem zeroFormsS (cf : Raw.Div.Cfg) {m : Nat} (h : Yields Z G wr)
    (ho : Yields Z (fun p => G p.1 ∧ p.2 = false) over) :
    ZeroForms cf.oc Z G wr over (Raw.I.checkedDivRemSigned (0 : BitVec m) over)
      (Raw.opOf cf wr (Raw.I.checkedDivRemSigned (0 : BitVec m) over)) := by
  have hc : Raw.I.checkedDivRemSigned (0 : BitVec m) over = .ok none := by simp [Raw.I.checkedDivRemSigned]
  refine ⟨h, ho, hc, ?_⟩
  rw [hc, Raw.opOf_eq, opOfR]
  cases cf.oc
  · exact h.congr (by simp)
  · exact ⟨fun _ => rfl, fun h => absurd (.inl rfl) h⟩

end generic

namespace Raw

open _root_.I256.Raw.Div (Cfg)

/-- A quotient in memory beside a scalar. -/
theorem yieldsQ {γ : Type} {be : Bool} {P : Prop} {Q : Limbs w → Prop} {R : γ → Prop}
    {r : Res (Limbs w × γ)} (h : Yields P (fun p => Q p.1 ∧ R p.2) r) :
    Yields P (fun m => Q (logical be m.1) ∧ R m.2) (r.map fun p => (mem be p.1, p.2)) := by
  refine ⟨fun p => by rw [h.1 p]; rfl, fun p => ?_⟩
  obtain ⟨v, rfl, hv⟩ := h.2 p
  exact ⟨_, rfl, by simpa only [logical_mem] using hv⟩

theorem yieldsQO {γ : Type} {be : Bool} {P : Prop} {Q : Limbs w → Prop} {R : γ → Prop} {B : Bool → Prop}
    {r : Res ((Limbs w × γ) × Bool)} (h : Yields P (fun p => (Q p.1.1 ∧ R p.1.2) ∧ B p.2) r) :
    Yields P (fun m => (Q (logical be m.1.1) ∧ R m.1.2) ∧ B m.2)
      (r.map fun p => ((mem be p.1.1, p.1.2), p.2)) := by
  refine ⟨fun p => by rw [h.1 p]; rfl, fun p => ?_⟩
  obtain ⟨v, rfl, hv⟩ := h.2 p
  exact ⟨_, rfl, by simpa only [logical_mem] using hv⟩

/-- The quotient and the remainder alone, from both. -/
theorem forms3 {m : Nat} {be : Bool} {oc : Bool} {P ov : Prop} {Q : Limbs w → Prop} {R : BitVec m → Prop}
    {wr op : Res (Limbs w × BitVec m)} {over : Res ((Limbs w × BitVec m) × Bool)}
    {ch : Res (Option (Limbs w × BitVec m))}
    (h : ScalarForms oc P ov (fun p => Q (logical be p.1) ∧ R p.2) wr over ch op) :
    ScalarForms oc P ov (fun p => Q (logical be p.1) ∧ R p.2) wr over ch op ∧
    ScalarForms oc P ov (fun q => Q (logical be q)) (fst wr) (fstFlag over) (fstSome ch) (fst op) ∧
    ScalarForms oc P ov R (snd wr) (sndFlag over) (sndSome ch) (snd op) := by
  rw [fst_map, fst_map, snd_map, snd_map, fstFlag_map, sndFlag_map, fstSome_map, sndSome_map]
  exact ⟨h, h.map _ fun p hp => hp.1, h.map _ fun p hp => hp.2⟩

theorem zero3 {m : Nat} {be : Bool} {oc : Bool} {Z : Prop} {Q : Limbs w → Prop} {R : BitVec m → Prop}
    {wr op : Res (Limbs w × BitVec m)} {over : Res ((Limbs w × BitVec m) × Bool)}
    {ch : Res (Option (Limbs w × BitVec m))}
    (h : ZeroForms oc Z (fun p => Q (logical be p.1) ∧ R p.2) wr over ch op) :
    ZeroForms oc Z (fun p => Q (logical be p.1) ∧ R p.2) wr over ch op ∧
    ZeroForms oc Z (fun q => Q (logical be q)) (fst wr) (fstFlag over) (fstSome ch) (fst op) ∧
    ZeroForms oc Z R (snd wr) (sndFlag over) (sndSome ch) (snd op) := by
  rw [fst_map, fst_map, snd_map, snd_map, fstFlag_map, sndFlag_map, fstSome_map, sndSome_map]
  exact ⟨h, h.map _ fun p hp => hp.1, h.map _ fun p hp => hp.2⟩

/-! ## Agreement -/

section
variable (cf : Cfg) (be : Bool) {x : Limbs w} (F : Fit w x.length)
include F

namespace U

theorem wrappingDivRemULimb_ok' (n : BitVec w) : wrappingDivRemULimb cf be (mem be x) n =
    (I256.U.wrappingDivRemULimb x n).map fun p => (mem be p.1, p.2) :=
  wrappingDivRemULimb_ok cf be (w0 F) F.nil F.n128 n

theorem wrappingDivRemUWide_ok' (n : BitVec (w + w)) : wrappingDivRemUWide cf be (mem be x) n =
    (I256.U.wrappingDivRemUWide x n).map fun p => (mem be p.1, p.2) :=
  wrappingDivRemUWide_ok cf be (w0 F) F.two F.n128 n

theorem wrappingDivRemFix_ok (hw : w = 32 ∨ w = 64) (h4 : 256 ≤ w * x.length) (k : Fix) (n : BitVec k.n) :
    wrappingDivRemFix cf be k (mem be x) n =
      (I256.U.wrappingDivRemFix k x n).map fun p => (mem be p.1, p.2) := by
  rcases hw with rfl | rfl <;> cases k
  · rw [wrappingDivRemFix, I256.U.wrappingDivRemFix, castRem_map, wrappingDivRemULimb_ok' cf be F]
    cases I256.U.wrappingDivRemULimb x _ <;> rfl
  · rw [wrappingDivRemFix, I256.U.wrappingDivRemFix, if_pos rfl, if_pos rfl, castRem_map,
      wrappingDivRemUWide_ok' cf be F]
    cases I256.U.wrappingDivRemUWide x _ <;> rfl
  · rw [wrappingDivRemFix, I256.U.wrappingDivRemFix, if_neg (by decide), if_neg (by decide)]
    exact wrappingDivRemU128_ok cf be (by omega) F.n128 n
  · rw [wrappingDivRemFix, I256.U.wrappingDivRemFix, castRem_map, wrappingDivRemULimb_ok' cf be F]
    cases I256.U.wrappingDivRemULimb x _ <;> rfl
  · rw [wrappingDivRemFix, I256.U.wrappingDivRemFix, if_neg (by decide), if_neg (by decide), castRem_map,
      wrappingDivRemULimb_ok' cf be F]
    cases I256.U.wrappingDivRemULimb x _ <;> rfl
  · rw [wrappingDivRemFix, I256.U.wrappingDivRemFix, if_pos (by decide), if_pos rfl, castRem_map,
      wrappingDivRemUWide_ok' cf be F]
    cases I256.U.wrappingDivRemUWide x _ <;> rfl

end U

namespace I

theorem divRemFlag_ok {m : Nat} (n : BitVec m) (r : Res (Limbs w × BitVec m)) :
    divRemFlag be (mem be x) n (r.map fun p => (mem be p.1, p.2)) =
      (I256.I.overflowingDivRemSigned x n r).map fun p => ((mem be p.1.1, p.1.2), p.2) := by
  have hm := (minValueS (w := w) (N := x.length) (w0 F) F.pos).1
  have h1 : (-1 : BitVec m) = BitVec.allOnes m := BitVec.neg_one_eq_allOnes
  rw [divRemFlag, mem_length, minValue_ok be F.pos F.n128, Res.mbind_ok, eqConst_ok' be F hm.symm,
    Res.mbind_ok, I256.I.overflowingDivRemSigned, h1, Res.mbind_ok]
  cases (I256.Ord.eqConst x (I256.I.minValue w x.length) && n == BitVec.allOnes m)
  · cases r <;> rfl
  · rfl

theorem wrappingDivRemULimb_ok' (n : BitVec w) : wrappingDivRemULimb cf be (mem be x) n =
    (I256.I.wrappingDivRemULimb cf.oc x n).map fun p => (mem be p.1, p.2) :=
  wrappingDivRemULimb_ok cf be F.w1 F.w8 F.two F.even F.n128 n

theorem wrappingDivRemUWide_ok' (n : BitVec (w + w)) : wrappingDivRemUWide cf be (mem be x) n =
    (I256.I.wrappingDivRemUWide cf.oc x n).map fun p => (mem be p.1, p.2) :=
  wrappingDivRemUWide_ok cf be F.w1 F.w8 F.two F.even F.n128 n

theorem wrappingDivRemILimb_ok' (n : BitVec w) : wrappingDivRemILimb cf be (mem be x) n =
    (I256.I.wrappingDivRemILimb x n).map fun p => (mem be p.1, p.2) :=
  wrappingDivRemILimb_ok cf be F.w1 F.w8 F.two F.even F.n128 n

theorem wrappingDivRemIWide_ok' (n : BitVec (w + w)) : wrappingDivRemIWide cf be (mem be x) n =
    (I256.I.wrappingDivRemIWide x n).map fun p => (mem be p.1, p.2) :=
  wrappingDivRemIWide_ok cf be F.w1 F.w8 F.two F.even F.n128 n

theorem overflowingDivRemILimb_ok (n : BitVec w) : overflowingDivRemILimb cf be (mem be x) n =
    (I256.I.overflowingDivRemILimb x n).map fun p => ((mem be p.1.1, p.1.2), p.2) := by
  rw [overflowingDivRemILimb, wrappingDivRemILimb_ok' cf be F, divRemFlag_ok be F]
  rfl

theorem overflowingDivRemIWide_ok (n : BitVec (w + w)) : overflowingDivRemIWide cf be (mem be x) n =
    (I256.I.overflowingDivRemIWide x n).map fun p => ((mem be p.1.1, p.1.2), p.2) := by
  rw [overflowingDivRemIWide, wrappingDivRemIWide_ok' cf be F, divRemFlag_ok be F]
  rfl

variable (hw : w = 32 ∨ w = 64) (h4 : 256 ≤ w * x.length) (k : Fix) (n : BitVec k.n)
include hw h4

theorem wrappingDivRemFixU_ok : wrappingDivRemFixU cf be k (mem be x) n =
    (I256.I.wrappingDivRemFixU cf.oc k x n).map fun p => (mem be p.1, p.2) := by
  rcases hw with rfl | rfl <;> cases k
  · rw [wrappingDivRemFixU, I256.I.wrappingDivRemFixU, castRem_map, wrappingDivRemULimb_ok' cf be F]
    cases I256.I.wrappingDivRemULimb cf.oc x _ <;> rfl
  · rw [wrappingDivRemFixU, I256.I.wrappingDivRemFixU, if_pos rfl, if_pos rfl, castRem_map,
      wrappingDivRemUWide_ok' cf be F]
    cases I256.I.wrappingDivRemUWide cf.oc x _ <;> rfl
  · rw [wrappingDivRemFixU, if_neg (by decide)]
    exact wrappingDivRemU128_ok cf be (by omega) F.even F.n128 n
  · rw [wrappingDivRemFixU, I256.I.wrappingDivRemFixU, castRem_map, wrappingDivRemULimb_ok' cf be F]
    cases I256.I.wrappingDivRemULimb cf.oc x _ <;> rfl
  · rw [wrappingDivRemFixU, I256.I.wrappingDivRemFixU, if_neg (by decide), if_neg (by decide), castRem_map,
      wrappingDivRemULimb_ok' cf be F]
    cases I256.I.wrappingDivRemULimb cf.oc x _ <;> rfl
  · rw [wrappingDivRemFixU, I256.I.wrappingDivRemFixU, if_pos (by decide), if_pos rfl, castRem_map,
      wrappingDivRemUWide_ok' cf be F]
    cases I256.I.wrappingDivRemUWide cf.oc x _ <;> rfl

theorem wrappingDivRemFixI_ok : wrappingDivRemFixI cf be k (mem be x) n =
    (I256.I.wrappingDivRemFixI k x n).map fun p => (mem be p.1, p.2) := by
  rcases hw with rfl | rfl <;> cases k
  · rw [wrappingDivRemFixI, I256.I.wrappingDivRemFixI, castRem_map, wrappingDivRemILimb_ok' cf be F]
    cases I256.I.wrappingDivRemILimb x _ <;> rfl
  · rw [wrappingDivRemFixI, I256.I.wrappingDivRemFixI, if_pos rfl, if_pos rfl, castRem_map,
      wrappingDivRemIWide_ok' cf be F]
    cases I256.I.wrappingDivRemIWide x _ <;> rfl
  · rw [wrappingDivRemFixI, if_neg (by decide)]
    exact wrappingDivRemI128_ok cf be (by omega) F.even F.n128 n
  · rw [wrappingDivRemFixI, I256.I.wrappingDivRemFixI, castRem_map, wrappingDivRemILimb_ok' cf be F]
    cases I256.I.wrappingDivRemILimb x _ <;> rfl
  · rw [wrappingDivRemFixI, I256.I.wrappingDivRemFixI, if_neg (by decide), if_neg (by decide), castRem_map,
      wrappingDivRemILimb_ok' cf be F]
    cases I256.I.wrappingDivRemILimb x _ <;> rfl
  · rw [wrappingDivRemFixI, I256.I.wrappingDivRemFixI, if_pos (by decide), if_pos rfl, castRem_map,
      wrappingDivRemIWide_ok' cf be F]
    cases I256.I.wrappingDivRemIWide x _ <;> rfl

theorem overflowingDivRemFixI_ok : overflowingDivRemFixI cf be k (mem be x) n =
    (I256.I.overflowingDivRemFixI k x n).map fun p => ((mem be p.1.1, p.1.2), p.2) := by
  have key := wrappingDivRemFixI_ok cf be F hw h4
  rcases hw with rfl | rfl <;> cases k
  · rw [overflowingDivRemFixI, I256.I.overflowingDivRemFixI, castRemFlag_map,
      overflowingDivRemILimb_ok cf be F]
    cases I256.I.overflowingDivRemILimb x _ <;> rfl
  · rw [overflowingDivRemFixI, I256.I.overflowingDivRemFixI, key, divRemFlag_ok be F]
  · rw [overflowingDivRemFixI, I256.I.overflowingDivRemFixI, if_neg (by decide), if_neg (by decide), key,
      divRemFlag_ok be F]
    rfl
  · rw [overflowingDivRemFixI, I256.I.overflowingDivRemFixI, castRemFlag_map,
      overflowingDivRemILimb_ok cf be F]
    cases I256.I.overflowingDivRemILimb x _ <;> rfl
  · rw [overflowingDivRemFixI, I256.I.overflowingDivRemFixI, key, divRemFlag_ok be F]
  · rw [overflowingDivRemFixI, I256.I.overflowingDivRemFixI, if_pos (by decide), if_pos rfl, castRemFlag_map,
      overflowingDivRemIWide_ok cf be F]
    cases I256.I.overflowingDivRemIWide x _ <;> rfl

end I

end

namespace I

/-- `checked_div_rem_i32` tests the widened divisor. -/
theorem checkedDivRemFixI_eq (cf : Cfg) (be : Bool) (hw : w = 32 ∨ w = 64) (k : Fix) (x : Limbs w)
    (n : BitVec k.n) :
    checkedDivRemFixI cf be k x n = checkedDivRemSigned n (overflowingDivRemFixI cf be k x n) := by
  cases k
  · have hz : ((n.signExtend w : BitVec w) == 0) = (n == 0) := by
      have h0 : (0 : BitVec w) = (0 : BitVec (Fix.b32).n).signExtend w := by
        rcases hw with rfl | rfl <;> decide
      rw [Bool.eq_iff_iff, beq_iff_eq, beq_iff_eq]
      refine ⟨fun h => ?_, fun h => by rw [h]; exact h0.symm⟩
      by_contra hn
      exact signExtend_ne (by rcases hw with rfl | rfl <;> decide) hn h
    rw [checkedDivRemFixI, checkedDivRemILimb, checkedDivRemSigned, hz, checkedDivRemSigned,
      overflowingDivRemFixI, castRemFlag_map, someIfFits_map, someIfFits_map]
    cases n == 0
    · rcases overflowingDivRemILimb cf be x (n.signExtend w) with ⟨v, b⟩ | _
      · cases b <;> rfl
      · rfl
    · rfl
  · rfl
  · rfl

theorem overflowingDivFixI_eq (cf : Cfg) (be : Bool) (k : Fix) (x : Limbs w) (n : BitVec k.n) :
    overflowingDivFixI cf be k x n = fstFlag (overflowingDivRemFixI cf be k x n) := by
  cases k
  · rw [overflowingDivFixI, overflowingDivILimb, overflowingDivRemFixI, castRemFlag_map, fstFlag_map,
      fstFlag_map]
    cases overflowingDivRemILimb cf be x (n.signExtend w) <;> rfl
  · rfl
  · rfl

theorem overflowingRemFixI_eq (cf : Cfg) (be : Bool) (k : Fix) (x : Limbs w) (n : BitVec k.n) :
    overflowingRemFixI cf be k x n = sndFlag (overflowingDivRemFixI cf be k x n) := by
  cases k
  · rw [overflowingRemFixI, overflowingRemILimb, overflowingDivRemFixI, castRemFlag_map, sndFlag_map,
      sndFlag_map]
    cases overflowingDivRemILimb cf be x (n.signExtend w) <;> rfl
  · rfl
  · rfl

end I

end Raw

end I256
