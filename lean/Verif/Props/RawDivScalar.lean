import Verif.Lemmas.RawDivScalar
import Verif.Props.Samples

/-!
# C90: the forms of division by a scalar in memory

The theorems are about the literal transcription of the methods that divide by a limb, by a double limb or, with
feature `stdint`, by a scalar of 32, 64 or 128 bits.  The limbs of the big integer are in memory order and `cf` is
the kind of build.  Each theorem speaks about quotient and remainder together, about the quotient and about the
remainder, in the wrapping, overflowing, checked and operator form.
-/

namespace I256

open Sample
open Raw (Fit)
open Raw.Div (Cfg)

private theorem yields_ok {α : Type} {Q : α → Prop} {r : Res α} (h : ∃ v, r = .ok v ∧ Q v) : Yields False Q r :=
  ⟨False.elim, fun _ => h⟩

private theorem yields_panic {α : Type} {Q : α → Prop} {r : Res α} (h : r = .panic) : Yields True Q r :=
  ⟨fun _ => h, fun h => absurd trivial h⟩

private theorem zeroS {w : Nat} {x : Limbs w} {m : Nat} (hm : 0 < m) {Z : Prop} {Q : Limbs w → Prop}
    {r : Res (Limbs w × BitVec m)} (h : Yields Z (fun p => Q p.1 ∧ p.2 = 0) r) :
    Yields Z (fun p => (Q p.1.1 ∧ p.1.2 = 0) ∧ p.2 = false) (I.overflowingDivRemSigned x (0 : BitVec m) r) := by
  have : ((0 : BitVec m) == BitVec.allOnes m) = false := by
    rw [beq_eq_false_iff_ne]
    intro h
    have := congrArg BitVec.toNat h
    rw [BitVec.toNat_allOnes] at this
    have h2 : 2 ≤ 2 ^ m := by
      calc 2 = 2 ^ 1 := rfl
        _ ≤ 2 ^ m := Nat.pow_le_pow_right (by decide) hm
    simp at this
    omega
  rw [I.overflowingDivRemSigned, this, Bool.and_false]
  exact h.map fun p hp => ⟨hp, rfl⟩

section
variable {w : Nat} {a : Limbs w} (cf : Cfg) (be : Bool) (F : Fit w a.length)
include F

/-- C90: unsigned division by a nonzero limb. -/
theorem C90_uint_div_ulimb {n : BitVec w} (hn : n ≠ 0) :
    ScalarForms cf.oc False False (fun p => ExactU a.length (memNat be a / n.toNat) (logical be p.1) ∧ p.2.toNat = memNat be a % n.toNat)
      (Raw.U.wrappingDivRemULimb cf be a n) (Raw.U.overflowingDivRemULimb cf be a n)
      (Raw.U.checkedDivRemULimb cf be a n) (Raw.U.divRemULimb cf be a n) ∧
    ScalarForms cf.oc False False (fun q => ExactU a.length (memNat be a / n.toNat) (logical be q))
      (Raw.U.wrappingDivULimb cf be a n) (Raw.U.overflowingDivULimb cf be a n)
      (Raw.U.checkedDivULimb cf be a n) (Raw.U.divULimb cf be a n) ∧
    ScalarForms cf.oc False False (fun r => r.toNat = memNat be a % n.toNat)
      (Raw.U.wrappingRemULimb cf be a n) (Raw.U.overflowingRemULimb cf be a n)
      (Raw.U.checkedRemULimb cf be a n) (Raw.U.remULimb cf be a n) := by
  obtain ⟨x, rfl⟩ := Raw.exists_mem be a
  simp only [Raw.mem_length, Raw.memNat_mem, Raw.memInt_mem] at *
  obtain ⟨q, r, e, ql, qv, rv⟩ := Div.limb_spec hn x
  have h : Yields False (fun p => ExactU x.length (toNat x / n.toNat) p.1 ∧ p.2.toNat = toNat x % n.toNat)
      (U.wrappingDivRemULimb x n) :=
    yields_ok ⟨(q, r), e, ⟨ql, by rw [qv]; push_cast; rfl⟩, rv⟩
  have h' := Raw.yieldsQ (be := be) (Q := ExactU x.length (toNat x / n.toNat))
    (R := fun r : BitVec _ => r.toNat = toNat x % n.toNat) h
  rw [← Raw.U.wrappingDivRemULimb_ok' cf be F] at h'
  exact Raw.forms3 (Q := ExactU x.length (toNat x / n.toNat))
    (R := fun r : BitVec _ => r.toNat = toNat x % n.toNat) (scalarForms cf hn h')

/-- C90: unsigned division by a zero limb panics, apart from the checked forms. -/
theorem C90_uint_div_ulimb_zero  :
    ZeroForms cf.oc True (fun p => ExactU a.length 0 (logical be p.1) ∧ p.2 = 0)
      (Raw.U.wrappingDivRemULimb cf be a 0) (Raw.U.overflowingDivRemULimb cf be a 0)
      (Raw.U.checkedDivRemULimb cf be a 0) (Raw.U.divRemULimb cf be a 0) ∧
    ZeroForms cf.oc True (fun q => ExactU a.length 0 (logical be q))
      (Raw.U.wrappingDivULimb cf be a 0) (Raw.U.overflowingDivULimb cf be a 0)
      (Raw.U.checkedDivULimb cf be a 0) (Raw.U.divULimb cf be a 0) ∧
    ZeroForms cf.oc True (fun r => r = 0)
      (Raw.U.wrappingRemULimb cf be a 0) (Raw.U.overflowingRemULimb cf be a 0)
      (Raw.U.checkedRemULimb cf be a 0) (Raw.U.remULimb cf be a 0) := by
  obtain ⟨x, rfl⟩ := Raw.exists_mem be a
  simp only [Raw.mem_length, Raw.memNat_mem, Raw.memInt_mem] at *
  have h : Yields True (fun p => ExactU x.length 0 p.1 ∧ p.2 = 0) (U.wrappingDivRemULimb x 0) :=
    yields_panic (Div.limb_zero F.nil)
  have h' := Raw.yieldsQ (be := be) (Q := ExactU x.length 0)
    (R := fun r : BitVec _ => r = 0) h
  rw [← Raw.U.wrappingDivRemULimb_ok' cf be F] at h'
  exact Raw.zero3 (Q := ExactU x.length 0) (R := fun r : BitVec _ => r = 0) (zeroForms cf (m := w) h')

/-- C90, partial: unsigned division by a nonzero double limb.  The full claim has no panics; it is
false (`C90_div_uwide_false`), and `DivPanics` says exactly when the methods panic. -/
theorem C90_uint_div_uwide_partial {n : BitVec (w + w)} (hn : n ≠ 0) :
    ScalarForms cf.oc (DivPanics w 2 (memNat be a) n.toNat) False (fun p => ExactU a.length (memNat be a / n.toNat) (logical be p.1) ∧ p.2.toNat = memNat be a % n.toNat)
      (Raw.U.wrappingDivRemUWide cf be a n) (Raw.U.overflowingDivRemUWide cf be a n)
      (Raw.U.checkedDivRemUWide cf be a n) (Raw.U.divRemUWide cf be a n) ∧
    ScalarForms cf.oc (DivPanics w 2 (memNat be a) n.toNat) False (fun q => ExactU a.length (memNat be a / n.toNat) (logical be q))
      (Raw.U.wrappingDivUWide cf be a n) (Raw.U.overflowingDivUWide cf be a n)
      (Raw.U.checkedDivUWide cf be a n) (Raw.U.divUWide cf be a n) ∧
    ScalarForms cf.oc (DivPanics w 2 (memNat be a) n.toNat) False (fun r => r.toNat = memNat be a % n.toNat)
      (Raw.U.wrappingRemUWide cf be a n) (Raw.U.overflowingRemUWide cf be a n)
      (Raw.U.checkedRemUWide cf be a n) (Raw.U.remUWide cf be a n) := by
  obtain ⟨x, rfl⟩ := Raw.exists_mem be a
  simp only [Raw.mem_length, Raw.memNat_mem, Raw.memInt_mem] at *
  have h : Yields (DivPanics w 2 (toNat x) n.toNat)
      (fun p => ExactU x.length (toNat x / n.toNat) p.1 ∧ p.2.toNat = toNat x % n.toNat)
      (U.wrappingDivRemUWide x n) :=
    (Div.wideDiv_spec (Raw.w0 F) F.two hn).mono fun r hr => ⟨⟨hr.1.1, by rw [hr.1.2]; push_cast; rfl⟩, hr.2⟩
  have h' := Raw.yieldsQ (be := be) (Q := ExactU x.length (toNat x / n.toNat))
    (R := fun r : BitVec _ => r.toNat = toNat x % n.toNat) h
  rw [← Raw.U.wrappingDivRemUWide_ok' cf be F] at h'
  exact Raw.forms3 (Q := ExactU x.length (toNat x / n.toNat))
    (R := fun r : BitVec _ => r.toNat = toNat x % n.toNat) (scalarForms cf hn h')

/-- C90, partial: unsigned division by a zero double limb panics, apart from the checked forms and except that
`0 / 0` is `0` (`C90_div_uwide_zero_false`). -/
theorem C90_uint_div_uwide_zero_partial  :
    ZeroForms cf.oc (memNat be a ≠ 0) (fun p => ExactU a.length 0 (logical be p.1) ∧ p.2 = 0)
      (Raw.U.wrappingDivRemUWide cf be a 0) (Raw.U.overflowingDivRemUWide cf be a 0)
      (Raw.U.checkedDivRemUWide cf be a 0) (Raw.U.divRemUWide cf be a 0) ∧
    ZeroForms cf.oc (memNat be a ≠ 0) (fun q => ExactU a.length 0 (logical be q))
      (Raw.U.wrappingDivUWide cf be a 0) (Raw.U.overflowingDivUWide cf be a 0)
      (Raw.U.checkedDivUWide cf be a 0) (Raw.U.divUWide cf be a 0) ∧
    ZeroForms cf.oc (memNat be a ≠ 0) (fun r => r = 0)
      (Raw.U.wrappingRemUWide cf be a 0) (Raw.U.overflowingRemUWide cf be a 0)
      (Raw.U.checkedRemUWide cf be a 0) (Raw.U.remUWide cf be a 0) := by
  obtain ⟨x, rfl⟩ := Raw.exists_mem be a
  simp only [Raw.mem_length, Raw.memNat_mem, Raw.memInt_mem] at *
  have h : Yields (toNat x ≠ 0) (fun p => ExactU x.length 0 p.1 ∧ p.2 = 0) (U.wrappingDivRemUWide x 0) := by
    obtain ⟨h1, h0⟩ := Div.wideDiv_zero (Raw.w0 F) F.two
    obtain ⟨l, v⟩ := Div.scalar1_spec (N := x.length) F.pos (0 : BitVec w)
    exact ⟨h1, fun hx => ⟨_, h0 (by simpa using hx), ⟨l, by rw [v]; simp⟩, rfl⟩⟩
  have h' := Raw.yieldsQ (be := be) (Q := ExactU x.length 0)
    (R := fun r : BitVec _ => r = 0) h
  rw [← Raw.U.wrappingDivRemUWide_ok' cf be F] at h'
  exact Raw.zero3 (Q := ExactU x.length 0) (R := fun r : BitVec _ => r = 0) (zeroForms cf (m := w + w) h')

/-- C90: a signed number divided by a nonzero unsigned limb rounds down; the remainder is in `[0, n)`. -/
theorem C90_int_div_ulimb {n : BitVec w} (hn : n ≠ 0) :
    ScalarForms cf.oc False False (fun p => ExactS a.length (memInt be a / n.toNat) (logical be p.1) ∧ (p.2.toNat : Int) = memInt be a % n.toNat)
      (Raw.I.wrappingDivRemULimb cf be a n) (Raw.I.overflowingDivRemULimb cf be a n)
      (Raw.I.checkedDivRemULimb cf be a n) (Raw.I.divRemULimb cf be a n) ∧
    ScalarForms cf.oc False False (fun q => ExactS a.length (memInt be a / n.toNat) (logical be q))
      (Raw.I.wrappingDivULimb cf be a n) (Raw.I.overflowingDivULimb cf be a n)
      (Raw.I.checkedDivULimb cf be a n) (Raw.I.divULimb cf be a n) ∧
    ScalarForms cf.oc False False (fun r => (r.toNat : Int) = memInt be a % n.toNat)
      (Raw.I.wrappingRemULimb cf be a n) (Raw.I.overflowingRemULimb cf be a n)
      (Raw.I.checkedRemULimb cf be a n) (Raw.I.remULimb cf be a n) := by
  obtain ⟨x, rfl⟩ := Raw.exists_mem be a
  simp only [Raw.mem_length, Raw.memNat_mem, Raw.memInt_mem] at *
  obtain ⟨q, r, e, hq, hr⟩ := limbU F.w1 F.two F.even hn cf.oc
  have h : Yields False (fun p => ExactS x.length (toInt x / n.toNat) p.1 ∧ (p.2.toNat : Int) = toInt x % n.toNat)
      (I.wrappingDivRemULimb cf.oc x n) := yields_ok ⟨(q, r), e, hq, hr⟩
  have h' := Raw.yieldsQ (be := be) (Q := ExactS x.length (toInt x / n.toNat))
    (R := fun r : BitVec _ => (r.toNat : Int) = toInt x % n.toNat) h
  rw [← Raw.I.wrappingDivRemULimb_ok' cf be F] at h'
  exact Raw.forms3 (Q := ExactS x.length (toInt x / n.toNat))
    (R := fun r : BitVec _ => (r.toNat : Int) = toInt x % n.toNat) (scalarForms cf hn h')

/-- C90: a signed number divided by a zero unsigned limb. -/
theorem C90_int_div_ulimb_zero  :
    ZeroForms cf.oc True (fun p => ExactS a.length 0 (logical be p.1) ∧ p.2 = 0)
      (Raw.I.wrappingDivRemULimb cf be a 0) (Raw.I.overflowingDivRemULimb cf be a 0)
      (Raw.I.checkedDivRemULimb cf be a 0) (Raw.I.divRemULimb cf be a 0) ∧
    ZeroForms cf.oc True (fun q => ExactS a.length 0 (logical be q))
      (Raw.I.wrappingDivULimb cf be a 0) (Raw.I.overflowingDivULimb cf be a 0)
      (Raw.I.checkedDivULimb cf be a 0) (Raw.I.divULimb cf be a 0) ∧
    ZeroForms cf.oc True (fun r => r = 0)
      (Raw.I.wrappingRemULimb cf be a 0) (Raw.I.overflowingRemULimb cf be a 0)
      (Raw.I.checkedRemULimb cf be a 0) (Raw.I.remULimb cf be a 0) := by
  obtain ⟨x, rfl⟩ := Raw.exists_mem be a
  simp only [Raw.mem_length, Raw.memNat_mem, Raw.memInt_mem] at *
  have hae : I.unsignedAbs x ≠ [] := length_ne (n := 0) (by
    rw [(unsignedAbs_natAbs (Raw.w0 F) F.two F.even).1]; exact F.pos)
  have h : Yields True (fun p => ExactS x.length 0 p.1 ∧ p.2 = 0) (I.wrappingDivRemULimb cf.oc x 0) :=
    yields_panic (by rw [I.wrappingDivRemULimb, Div.limb_zero hae]; rfl)
  have h' := Raw.yieldsQ (be := be) (Q := ExactS x.length 0)
    (R := fun r : BitVec _ => r = 0) h
  rw [← Raw.I.wrappingDivRemULimb_ok' cf be F] at h'
  exact Raw.zero3 (Q := ExactS x.length 0) (R := fun r : BitVec _ => r = 0) (zeroForms cf (m := w) h')

/-- C90, partial: a signed number divided by a nonzero unsigned double limb; the full claim has no panics
(`C90_div_uwide_false`). -/
theorem C90_int_div_uwide_partial {n : BitVec (w + w)} (hn : n ≠ 0) :
    ScalarForms cf.oc (DivPanics w 2 (memInt be a).natAbs n.toNat) False (fun p => ExactS a.length (memInt be a / n.toNat) (logical be p.1) ∧ (p.2.toNat : Int) = memInt be a % n.toNat)
      (Raw.I.wrappingDivRemUWide cf be a n) (Raw.I.overflowingDivRemUWide cf be a n)
      (Raw.I.checkedDivRemUWide cf be a n) (Raw.I.divRemUWide cf be a n) ∧
    ScalarForms cf.oc (DivPanics w 2 (memInt be a).natAbs n.toNat) False (fun q => ExactS a.length (memInt be a / n.toNat) (logical be q))
      (Raw.I.wrappingDivUWide cf be a n) (Raw.I.overflowingDivUWide cf be a n)
      (Raw.I.checkedDivUWide cf be a n) (Raw.I.divUWide cf be a n) ∧
    ScalarForms cf.oc (DivPanics w 2 (memInt be a).natAbs n.toNat) False (fun r => (r.toNat : Int) = memInt be a % n.toNat)
      (Raw.I.wrappingRemUWide cf be a n) (Raw.I.overflowingRemUWide cf be a n)
      (Raw.I.checkedRemUWide cf be a n) (Raw.I.remUWide cf be a n) := by
  obtain ⟨x, rfl⟩ := Raw.exists_mem be a
  simp only [Raw.mem_length, Raw.memNat_mem, Raw.memInt_mem] at *
  have h' := Raw.yieldsQ (be := be) (Q := ExactS x.length (toInt x / n.toNat))
    (R := fun r : BitVec _ => (r.toNat : Int) = toInt x % n.toNat) (wideU F.w1 F.two F.even hn cf.oc)
  rw [← Raw.I.wrappingDivRemUWide_ok' cf be F] at h'
  exact Raw.forms3 (Q := ExactS x.length (toInt x / n.toNat))
    (R := fun r : BitVec _ => (r.toNat : Int) = toInt x % n.toNat) (scalarForms cf hn h')

/-- C90, partial: a signed number divided by a zero unsigned double limb, with `0 / 0 = 0`. -/
theorem C90_int_div_uwide_zero_partial  :
    ZeroForms cf.oc (memInt be a ≠ 0) (fun p => ExactS a.length 0 (logical be p.1) ∧ p.2 = 0)
      (Raw.I.wrappingDivRemUWide cf be a 0) (Raw.I.overflowingDivRemUWide cf be a 0)
      (Raw.I.checkedDivRemUWide cf be a 0) (Raw.I.divRemUWide cf be a 0) ∧
    ZeroForms cf.oc (memInt be a ≠ 0) (fun q => ExactS a.length 0 (logical be q))
      (Raw.I.wrappingDivUWide cf be a 0) (Raw.I.overflowingDivUWide cf be a 0)
      (Raw.I.checkedDivUWide cf be a 0) (Raw.I.divUWide cf be a 0) ∧
    ZeroForms cf.oc (memInt be a ≠ 0) (fun r => r = 0)
      (Raw.I.wrappingRemUWide cf be a 0) (Raw.I.overflowingRemUWide cf be a 0)
      (Raw.I.checkedRemUWide cf be a 0) (Raw.I.remUWide cf be a 0) := by
  obtain ⟨x, rfl⟩ := Raw.exists_mem be a
  simp only [Raw.mem_length, Raw.memNat_mem, Raw.memInt_mem] at *
  have h' := Raw.yieldsQ (be := be) (Q := ExactS x.length 0)
    (R := fun r : BitVec _ => r = 0) (wideU_zero F.w1 F.two F.even cf.oc)
  rw [← Raw.I.wrappingDivRemUWide_ok' cf be F] at h'
  exact Raw.zero3 (Q := ExactS x.length 0) (R := fun r : BitVec _ => r = 0) (zeroForms cf (m := w + w) h')

/-- C90: a signed number divided by a nonzero signed limb truncates; only `MIN / -1` overflows. -/
theorem C90_int_div_ilimb {n : BitVec w} (hn : n ≠ 0) :
    ScalarForms cf.oc False (¬ InS (w * a.length) ((memInt be a).tdiv n.toInt)) (fun p => WrapS a.length ((memInt be a).tdiv n.toInt) (logical be p.1) ∧ p.2.toInt = (memInt be a).tmod n.toInt)
      (Raw.I.wrappingDivRemILimb cf be a n) (Raw.I.overflowingDivRemILimb cf be a n)
      (Raw.I.checkedDivRemILimb cf be a n) (Raw.I.divRemILimb cf be a n) ∧
    ScalarForms cf.oc False (¬ InS (w * a.length) ((memInt be a).tdiv n.toInt)) (fun q => WrapS a.length ((memInt be a).tdiv n.toInt) (logical be q))
      (Raw.I.wrappingDivILimb cf be a n) (Raw.I.overflowingDivILimb cf be a n)
      (Raw.I.checkedDivILimb cf be a n) (Raw.I.divILimb cf be a n) ∧
    ScalarForms cf.oc False (¬ InS (w * a.length) ((memInt be a).tdiv n.toInt)) (fun r => r.toInt = (memInt be a).tmod n.toInt)
      (Raw.I.wrappingRemILimb cf be a n) (Raw.I.overflowingRemILimb cf be a n)
      (Raw.I.checkedRemILimb cf be a n) (Raw.I.remILimb cf be a n) := by
  obtain ⟨x, rfl⟩ := Raw.exists_mem be a
  simp only [Raw.mem_length, Raw.memNat_mem, Raw.memInt_mem] at *
  obtain ⟨q, r, e, hq, hr⟩ := limbS F.w1 F.two F.even hn
  have h : Yields False (fun p => WrapS x.length ((toInt x).tdiv n.toInt) p.1 ∧
      p.2.toInt = (toInt x).tmod n.toInt) (I.wrappingDivRemILimb x n) := yields_ok ⟨(q, r), e, hq, hr⟩
  have ho := formOverScalar F.w1 F.two F.even (by have := F.w1; omega)
    (InS_mono (by have := F.two; nlinarith) (bv_InS n)) (fun _ => id) h
  have ho2 : Yields False (fun p => (WrapS x.length ((toInt x).tdiv n.toInt) p.1.1 ∧
      p.1.2.toInt = (toInt x).tmod n.toInt) ∧ (p.2 = true ↔ ¬ InS (w * x.length) ((toInt x).tdiv n.toInt)))
      (I.overflowingDivRemILimb x n) := ho.mono fun p hp => ⟨⟨hp.1.1, hp.2⟩, hp.1.2⟩
  have h' := Raw.yieldsQ (be := be) (Q := WrapS x.length ((toInt x).tdiv n.toInt))
    (R := fun r : BitVec _ => r.toInt = (toInt x).tmod n.toInt) h
  have ho' := Raw.yieldsQO (be := be) (Q := WrapS x.length ((toInt x).tdiv n.toInt))
    (R := fun r : BitVec _ => r.toInt = (toInt x).tmod n.toInt)
    (B := fun b => b = true ↔ ¬ InS (w * x.length) ((toInt x).tdiv n.toInt)) ho2
  rw [← Raw.I.wrappingDivRemILimb_ok' cf be F] at h'
  rw [← Raw.I.overflowingDivRemILimb_ok cf be F] at ho'
  exact Raw.forms3 (Q := WrapS x.length ((toInt x).tdiv n.toInt))
    (R := fun r : BitVec _ => r.toInt = (toInt x).tmod n.toInt) (scalarFormsS cf hn h' ho')

/-- C90: a signed number divided by a zero signed limb. -/
theorem C90_int_div_ilimb_zero  :
    ZeroForms cf.oc True (fun p => ExactS a.length 0 (logical be p.1) ∧ p.2 = 0)
      (Raw.I.wrappingDivRemILimb cf be a 0) (Raw.I.overflowingDivRemILimb cf be a 0)
      (Raw.I.checkedDivRemILimb cf be a 0) (Raw.I.divRemILimb cf be a 0) ∧
    ZeroForms cf.oc True (fun q => ExactS a.length 0 (logical be q))
      (Raw.I.wrappingDivILimb cf be a 0) (Raw.I.overflowingDivILimb cf be a 0)
      (Raw.I.checkedDivILimb cf be a 0) (Raw.I.divILimb cf be a 0) ∧
    ZeroForms cf.oc True (fun r => r = 0)
      (Raw.I.wrappingRemILimb cf be a 0) (Raw.I.overflowingRemILimb cf be a 0)
      (Raw.I.checkedRemILimb cf be a 0) (Raw.I.remILimb cf be a 0) := by
  obtain ⟨x, rfl⟩ := Raw.exists_mem be a
  simp only [Raw.mem_length, Raw.memNat_mem, Raw.memInt_mem] at *
  have hae : I.unsignedAbs x ≠ [] := length_ne (n := 0) (by
    rw [(unsignedAbs_natAbs (Raw.w0 F) F.two F.even).1]; exact F.pos)
  have h : Yields True (fun p => ExactS x.length 0 p.1 ∧ p.2 = 0) (I.wrappingDivRemILimb x 0) :=
    yields_panic (by rw [I.wrappingDivRemILimb, primAbs_zero, Div.limb_zero hae]; rfl)
  have ho := zeroS (x := x) (by have := F.w1; omega) h
  have h' := Raw.yieldsQ (be := be) (Q := ExactS x.length 0)
    (R := fun r : BitVec _ => r = 0) h
  have ho' := Raw.yieldsQO (be := be) (Q := ExactS x.length 0) (R := fun r : BitVec _ => r = 0)
    (B := fun b => b = false) ho
  have e := Raw.I.overflowingDivRemILimb_ok cf be F 0
  rw [I.overflowingDivRemILimb] at e
  rw [← Raw.I.wrappingDivRemILimb_ok' cf be F] at h'
  rw [← e] at ho'
  exact Raw.zero3 (Q := ExactS x.length 0) (R := fun r : BitVec _ => r = 0) (zeroFormsS cf (m := w) h' ho')

/-- C90, partial: a signed number divided by a nonzero signed double limb; the full claim has no panics
(`C90_div_uwide_false`). -/
theorem C90_int_div_iwide_partial {n : BitVec (w + w)} (hn : n ≠ 0) :
    ScalarForms cf.oc (DivPanics w 2 (memInt be a).natAbs n.toInt.natAbs) (¬ InS (w * a.length) ((memInt be a).tdiv n.toInt)) (fun p => WrapS a.length ((memInt be a).tdiv n.toInt) (logical be p.1) ∧ p.2.toInt = (memInt be a).tmod n.toInt)
      (Raw.I.wrappingDivRemIWide cf be a n) (Raw.I.overflowingDivRemIWide cf be a n)
      (Raw.I.checkedDivRemIWide cf be a n) (Raw.I.divRemIWide cf be a n) ∧
    ScalarForms cf.oc (DivPanics w 2 (memInt be a).natAbs n.toInt.natAbs) (¬ InS (w * a.length) ((memInt be a).tdiv n.toInt)) (fun q => WrapS a.length ((memInt be a).tdiv n.toInt) (logical be q))
      (Raw.I.wrappingDivIWide cf be a n) (Raw.I.overflowingDivIWide cf be a n)
      (Raw.I.checkedDivIWide cf be a n) (Raw.I.divIWide cf be a n) ∧
    ScalarForms cf.oc (DivPanics w 2 (memInt be a).natAbs n.toInt.natAbs) (¬ InS (w * a.length) ((memInt be a).tdiv n.toInt)) (fun r => r.toInt = (memInt be a).tmod n.toInt)
      (Raw.I.wrappingRemIWide cf be a n) (Raw.I.overflowingRemIWide cf be a n)
      (Raw.I.checkedRemIWide cf be a n) (Raw.I.remIWide cf be a n) := by
  obtain ⟨x, rfl⟩ := Raw.exists_mem be a
  simp only [Raw.mem_length, Raw.memNat_mem, Raw.memInt_mem] at *
  have h := wideS F.w1 F.two F.even hn
  have ho := formOverScalar F.w1 F.two F.even (by have := F.w1; omega)
    (InS_mono (by have := F.two; nlinarith) (bv_InS n)) (fun e => minNeg_noPanic (Raw.w0 F) e) h
  have ho2 : Yields (DivPanics w 2 (toInt x).natAbs n.toInt.natAbs) (fun p => (WrapS x.length ((toInt x).tdiv n.toInt) p.1.1 ∧
      p.1.2.toInt = (toInt x).tmod n.toInt) ∧ (p.2 = true ↔ ¬ InS (w * x.length) ((toInt x).tdiv n.toInt)))
      (I.overflowingDivRemIWide x n) := ho.mono fun p hp => ⟨⟨hp.1.1, hp.2⟩, hp.1.2⟩
  have h' := Raw.yieldsQ (be := be) (Q := WrapS x.length ((toInt x).tdiv n.toInt))
    (R := fun r : BitVec _ => r.toInt = (toInt x).tmod n.toInt) h
  have ho' := Raw.yieldsQO (be := be) (Q := WrapS x.length ((toInt x).tdiv n.toInt))
    (R := fun r : BitVec _ => r.toInt = (toInt x).tmod n.toInt)
    (B := fun b => b = true ↔ ¬ InS (w * x.length) ((toInt x).tdiv n.toInt)) ho2
  rw [← Raw.I.wrappingDivRemIWide_ok' cf be F] at h'
  rw [← Raw.I.overflowingDivRemIWide_ok cf be F] at ho'
  exact Raw.forms3 (Q := WrapS x.length ((toInt x).tdiv n.toInt))
    (R := fun r : BitVec _ => r.toInt = (toInt x).tmod n.toInt) (scalarFormsS cf hn h' ho')

/-- C90, partial: a signed number divided by a zero signed double limb, with `0 / 0 = 0`. -/
theorem C90_int_div_iwide_zero_partial  :
    ZeroForms cf.oc (memInt be a ≠ 0) (fun p => ExactS a.length 0 (logical be p.1) ∧ p.2 = 0)
      (Raw.I.wrappingDivRemIWide cf be a 0) (Raw.I.overflowingDivRemIWide cf be a 0)
      (Raw.I.checkedDivRemIWide cf be a 0) (Raw.I.divRemIWide cf be a 0) ∧
    ZeroForms cf.oc (memInt be a ≠ 0) (fun q => ExactS a.length 0 (logical be q))
      (Raw.I.wrappingDivIWide cf be a 0) (Raw.I.overflowingDivIWide cf be a 0)
      (Raw.I.checkedDivIWide cf be a 0) (Raw.I.divIWide cf be a 0) ∧
    ZeroForms cf.oc (memInt be a ≠ 0) (fun r => r = 0)
      (Raw.I.wrappingRemIWide cf be a 0) (Raw.I.overflowingRemIWide cf be a 0)
      (Raw.I.checkedRemIWide cf be a 0) (Raw.I.remIWide cf be a 0) := by
  obtain ⟨x, rfl⟩ := Raw.exists_mem be a
  simp only [Raw.mem_length, Raw.memNat_mem, Raw.memInt_mem] at *
  have h := wideS_zero (x := x) F.w1 F.two F.even
  have ho := zeroS (x := x) (by have := F.w1; omega) h
  have h' := Raw.yieldsQ (be := be) (Q := ExactS x.length 0)
    (R := fun r : BitVec _ => r = 0) h
  have ho' := Raw.yieldsQO (be := be) (Q := ExactS x.length 0) (R := fun r : BitVec _ => r = 0)
    (B := fun b => b = false) ho
  have e := Raw.I.overflowingDivRemIWide_ok cf be F 0
  rw [I.overflowingDivRemIWide] at e
  rw [← Raw.I.wrappingDivRemIWide_ok' cf be F] at h'
  rw [← e] at ho'
  exact Raw.zero3 (Q := ExactS x.length 0) (R := fun r : BitVec _ => r = 0) (zeroFormsS cf (m := w + w) h' ho')

variable (hw : w = 32 ∨ w = 64) (h4 : 256 ≤ w * a.length)
include hw h4

/-- C90, partial: unsigned division by a nonzero scalar of fixed width.  The full claim has neither panics nor
stray bits in the remainder; it is false (`C90_div_fixed_false`). -/
theorem C90_uint_div_fixed_partial (k : Fix) {n : BitVec k.n} (hn : n ≠ 0) :
    ScalarForms cf.oc (ScalarPanics w k.n (memNat be a) n.toNat) False (fun p => ExactU a.length (memNat be a / n.toNat) (logical be p.1) ∧ p.2.toNat = (memNat be a % n.toNat + scalarStray w a.length k.n (memNat be a) n.toNat) % 2 ^ k.n)
      (Raw.U.wrappingDivRemFix cf be k a n) (Raw.U.overflowingDivRemFix cf be k a n)
      (Raw.U.checkedDivRemFix cf be k a n) (Raw.U.divRemFix cf be k a n) ∧
    ScalarForms cf.oc (ScalarPanics w k.n (memNat be a) n.toNat) False (fun q => ExactU a.length (memNat be a / n.toNat) (logical be q))
      (Raw.U.wrappingDivFix cf be k a n) (Raw.U.overflowingDivFix cf be k a n)
      (Raw.U.checkedDivFix cf be k a n) (Raw.U.divFix cf be k a n) ∧
    ScalarForms cf.oc (ScalarPanics w k.n (memNat be a) n.toNat) False (fun r => r.toNat = (memNat be a % n.toNat + scalarStray w a.length k.n (memNat be a) n.toNat) % 2 ^ k.n)
      (Raw.U.wrappingRemFix cf be k a n) (Raw.U.overflowingRemFix cf be k a n)
      (Raw.U.checkedRemFix cf be k a n) (Raw.U.remFix cf be k a n) := by
  obtain ⟨x, rfl⟩ := Raw.exists_mem be a
  simp only [Raw.mem_length, Raw.memNat_mem, Raw.memInt_mem] at *
  have h' := Raw.yieldsQ (be := be) (Q := ExactU x.length (toNat x / n.toNat))
    (R := fun r : BitVec _ => r.toNat =
    (toNat x % n.toNat + scalarStray w x.length k.n (toNat x) n.toNat) % 2 ^ k.n) (uDivRemFix hw h4 k hn)
  rw [← Raw.U.wrappingDivRemFix_ok cf be F hw h4] at h'
  exact Raw.forms3 (Q := ExactU x.length (toNat x / n.toNat)) (R := fun r : BitVec _ => r.toNat =
    (toNat x % n.toNat + scalarStray w x.length k.n (toNat x) n.toNat) % 2 ^ k.n) (scalarForms cf hn h')

/-- C90, partial: unsigned division by a zero scalar of fixed width: `None` or a panic, except that `0 / 0` is `0` for
a scalar wider than a limb (`C90_div_uwide_zero_false`). -/
theorem C90_uint_div_fixed_zero_partial (k : Fix) :
    ZeroForms cf.oc (memNat be a ≠ 0 ∨ k.n ≤ w) (fun p => ExactU a.length 0 (logical be p.1) ∧ p.2 = 0)
      (Raw.U.wrappingDivRemFix cf be k a 0) (Raw.U.overflowingDivRemFix cf be k a 0)
      (Raw.U.checkedDivRemFix cf be k a 0) (Raw.U.divRemFix cf be k a 0) ∧
    ZeroForms cf.oc (memNat be a ≠ 0 ∨ k.n ≤ w) (fun q => ExactU a.length 0 (logical be q))
      (Raw.U.wrappingDivFix cf be k a 0) (Raw.U.overflowingDivFix cf be k a 0)
      (Raw.U.checkedDivFix cf be k a 0) (Raw.U.divFix cf be k a 0) ∧
    ZeroForms cf.oc (memNat be a ≠ 0 ∨ k.n ≤ w) (fun r => r = 0)
      (Raw.U.wrappingRemFix cf be k a 0) (Raw.U.overflowingRemFix cf be k a 0)
      (Raw.U.checkedRemFix cf be k a 0) (Raw.U.remFix cf be k a 0) := by
  obtain ⟨x, rfl⟩ := Raw.exists_mem be a
  simp only [Raw.mem_length, Raw.memNat_mem, Raw.memInt_mem] at *
  obtain ⟨h1, h2⟩ := uDivRemFix_zero hw h4 k
  have h : Yields (toNat x ≠ 0 ∨ k.n ≤ w) (fun p => ExactU x.length 0 p.1 ∧ p.2 = 0)
      (U.wrappingDivRemFix k x 0) := ⟨h1, fun h => by
    obtain ⟨a, b⟩ := not_or.1 h
    obtain ⟨q, e, hq⟩ := h2 (not_not.1 a) (by omega)
    exact ⟨_, e, hq, rfl⟩⟩
  have h' := Raw.yieldsQ (be := be) (Q := ExactU x.length 0)
    (R := fun r : BitVec _ => r = 0) h
  rw [← Raw.U.wrappingDivRemFix_ok cf be F hw h4] at h'
  exact Raw.zero3 (Q := ExactU x.length 0) (R := fun r : BitVec _ => r = 0) (zeroForms cf (m := k.n) h')

/-- C90, partial: a signed number divided by a nonzero unsigned scalar of fixed width.  The full claim is the case
`s = 0` without panics; it is false (`C90_div_fixed_false`). -/
theorem C90_int_div_fixed_unsigned_partial (k : Fix) {n : BitVec k.n} (hn : n ≠ 0) :
    let s := scalarStray w a.length k.n (memInt be a).natAbs n.toNat
    let z := memInt be a / n.toNat -
      (if memInt be a < 0 ∧ (n.toNat : Int) ∣ memInt be a ∧ s ≠ 0 then 1 else 0)
    let P := ScalarPanics w k.n (memInt be a).natAbs n.toNat ∨ (cf.oc = true ∧ memInt be a < 0 ∧ s ≠ 0)
    let R := fun r : BitVec k.n => r = BitVec.ofInt k.n (memInt be a - z * n.toNat + (memInt be a).sign * s)
    ScalarForms cf.oc P False (fun p => ExactS a.length (z) (logical be p.1) ∧ R p.2)
      (Raw.I.wrappingDivRemFixU cf be k a n) (Raw.I.overflowingDivRemFixU cf be k a n)
      (Raw.I.checkedDivRemFixU cf be k a n) (Raw.I.divRemFixU cf be k a n) ∧
    ScalarForms cf.oc P False (fun q => ExactS a.length (z) (logical be q))
      (Raw.I.wrappingDivFixU cf be k a n) (Raw.I.overflowingDivFixU cf be k a n)
      (Raw.I.checkedDivFixU cf be k a n) (Raw.I.divFixU cf be k a n) ∧
    ScalarForms cf.oc P False (fun r => R r)
      (Raw.I.wrappingRemFixU cf be k a n) (Raw.I.overflowingRemFixU cf be k a n)
      (Raw.I.checkedRemFixU cf be k a n) (Raw.I.remFixU cf be k a n) := by
  obtain ⟨x, rfl⟩ := Raw.exists_mem be a
  simp -zeta only [Raw.mem_length, Raw.memNat_mem, Raw.memInt_mem] at *
  intro s z P R
  have h' := Raw.yieldsQ (be := be) (Q := ExactS x.length z) (R := R)
    (iDivRemFixU_all hw h4 F.even k hn cf.oc)
  rw [← Raw.I.wrappingDivRemFixU_ok cf be F hw h4] at h'
  exact Raw.forms3 (Q := ExactS x.length z) (scalarForms cf hn h')

/-- C90, partial: a signed number divided by a zero unsigned scalar of fixed width. -/
theorem C90_int_div_fixed_unsigned_zero_partial (k : Fix) :
    ZeroForms cf.oc (memInt be a ≠ 0 ∨ k.n ≤ w) (fun p => ExactS a.length 0 (logical be p.1) ∧ p.2 = 0)
      (Raw.I.wrappingDivRemFixU cf be k a 0) (Raw.I.overflowingDivRemFixU cf be k a 0)
      (Raw.I.checkedDivRemFixU cf be k a 0) (Raw.I.divRemFixU cf be k a 0) ∧
    ZeroForms cf.oc (memInt be a ≠ 0 ∨ k.n ≤ w) (fun q => ExactS a.length 0 (logical be q))
      (Raw.I.wrappingDivFixU cf be k a 0) (Raw.I.overflowingDivFixU cf be k a 0)
      (Raw.I.checkedDivFixU cf be k a 0) (Raw.I.divFixU cf be k a 0) ∧
    ZeroForms cf.oc (memInt be a ≠ 0 ∨ k.n ≤ w) (fun r => r = 0)
      (Raw.I.wrappingRemFixU cf be k a 0) (Raw.I.overflowingRemFixU cf be k a 0)
      (Raw.I.checkedRemFixU cf be k a 0) (Raw.I.remFixU cf be k a 0) := by
  obtain ⟨x, rfl⟩ := Raw.exists_mem be a
  simp only [Raw.mem_length, Raw.memNat_mem, Raw.memInt_mem] at *
  obtain ⟨h1, h2⟩ := iDivRemFix_zero hw h4 F.even k cf.oc
  have h : Yields (toInt x ≠ 0 ∨ k.n ≤ w) (fun p => ExactS x.length 0 p.1 ∧ p.2 = 0)
      (I.wrappingDivRemFixU cf.oc k x 0) := ⟨fun h => (h1 h).1, fun h => by
    obtain ⟨a, b⟩ := not_or.1 h
    obtain ⟨q, hq, e, -⟩ := h2 (not_not.1 a) (by omega)
    exact ⟨_, e, hq, rfl⟩⟩
  have h' := Raw.yieldsQ (be := be) (Q := ExactS x.length 0)
    (R := fun r : BitVec _ => r = 0) h
  rw [← Raw.I.wrappingDivRemFixU_ok cf be F hw h4] at h'
  exact Raw.zero3 (Q := ExactS x.length 0) (R := fun r : BitVec _ => r = 0) (zeroForms cf (m := k.n) h')

/-- C90, partial: a signed number divided by a nonzero signed scalar of fixed width.  The full claim is the case `s = 0`
without panics; it is false (`C90_div_fixed_false`). -/
theorem C90_int_div_fixed_signed_partial (k : Fix) {n : BitVec k.n} (hn : n ≠ 0) :
    let s := scalarStray w a.length k.n (memInt be a).natAbs n.toInt.natAbs
    let P := ScalarPanics w k.n (memInt be a).natAbs n.toInt.natAbs
    let z := (memInt be a).tdiv n.toInt
    let R := fun r : BitVec k.n => r = BitVec.ofInt k.n ((memInt be a).tmod n.toInt + (memInt be a).sign * s)
    ScalarForms cf.oc P (¬ InS (w * a.length) z) (fun p => WrapS a.length (z) (logical be p.1) ∧ R p.2)
      (Raw.I.wrappingDivRemFixI cf be k a n) (Raw.I.overflowingDivRemFixI cf be k a n)
      (Raw.I.checkedDivRemFixI cf be k a n) (Raw.I.divRemFixI cf be k a n) ∧
    ScalarForms cf.oc P (¬ InS (w * a.length) z) (fun q => WrapS a.length (z) (logical be q))
      (Raw.I.wrappingDivFixI cf be k a n) (Raw.I.overflowingDivFixI cf be k a n)
      (Raw.I.checkedDivFixI cf be k a n) (Raw.I.divFixI cf be k a n) ∧
    ScalarForms cf.oc P (¬ InS (w * a.length) z) (fun r => R r)
      (Raw.I.wrappingRemFixI cf be k a n) (Raw.I.overflowingRemFixI cf be k a n)
      (Raw.I.checkedRemFixI cf be k a n) (Raw.I.remFixI cf be k a n) := by
  obtain ⟨x, rfl⟩ := Raw.exists_mem be a
  simp -zeta only [Raw.mem_length, Raw.memNat_mem, Raw.memInt_mem] at *
  intro s P z R
  obtain ⟨h, ho⟩ := iDivRemFixI_all hw h4 F.even k hn
  have h' := Raw.yieldsQ (be := be) (Q := WrapS x.length z) (R := R) h
  have ho2 : Yields P (fun p => (WrapS x.length z p.1.1 ∧ R p.1.2) ∧ (p.2 = true ↔ ¬ InS (w * x.length) z))
      (I.overflowingDivRemFixI k x n) := ho.mono fun p hp => ⟨⟨hp.1.1, hp.2⟩, hp.1.2⟩
  have ho' := Raw.yieldsQO (be := be) (Q := WrapS x.length z) (R := R)
    (B := fun b => b = true ↔ ¬ InS (w * x.length) z) ho2
  rw [← Raw.I.wrappingDivRemFixI_ok cf be F hw h4] at h'
  rw [← Raw.I.overflowingDivRemFixI_ok cf be F hw h4] at ho'
  have := Raw.forms3 (Q := WrapS x.length z) (scalarFormsS cf hn h' ho')
  rw [← Raw.I.checkedDivRemFixI_eq cf be hw, ← Raw.I.overflowingDivFixI_eq,
    ← Raw.I.overflowingRemFixI_eq] at this
  exact this

/-- C90, partial: a signed number divided by a zero signed scalar of fixed width. -/
theorem C90_int_div_fixed_signed_zero_partial (k : Fix) :
    ZeroForms cf.oc (memInt be a ≠ 0 ∨ k.n ≤ w) (fun p => ExactS a.length 0 (logical be p.1) ∧ p.2 = 0)
      (Raw.I.wrappingDivRemFixI cf be k a 0) (Raw.I.overflowingDivRemFixI cf be k a 0)
      (Raw.I.checkedDivRemFixI cf be k a 0) (Raw.I.divRemFixI cf be k a 0) ∧
    ZeroForms cf.oc (memInt be a ≠ 0 ∨ k.n ≤ w) (fun q => ExactS a.length 0 (logical be q))
      (Raw.I.wrappingDivFixI cf be k a 0) (Raw.I.overflowingDivFixI cf be k a 0)
      (Raw.I.checkedDivFixI cf be k a 0) (Raw.I.divFixI cf be k a 0) ∧
    ZeroForms cf.oc (memInt be a ≠ 0 ∨ k.n ≤ w) (fun r => r = 0)
      (Raw.I.wrappingRemFixI cf be k a 0) (Raw.I.overflowingRemFixI cf be k a 0)
      (Raw.I.checkedRemFixI cf be k a 0) (Raw.I.remFixI cf be k a 0) := by
  obtain ⟨x, rfl⟩ := Raw.exists_mem be a
  simp only [Raw.mem_length, Raw.memNat_mem, Raw.memInt_mem] at *
  obtain ⟨h1, h2⟩ := iDivRemFix_zero hw h4 F.even k cf.oc
  have h : Yields (toInt x ≠ 0 ∨ k.n ≤ w) (fun p => ExactS x.length 0 p.1 ∧ p.2 = 0)
      (I.wrappingDivRemFixI k x 0) := ⟨fun h => (h1 h).2, fun h => by
    obtain ⟨a, b⟩ := not_or.1 h
    obtain ⟨q, hq, -, e⟩ := h2 (not_not.1 a) (by omega)
    exact ⟨_, e, hq, rfl⟩⟩
  have ho : Yields (toInt x ≠ 0 ∨ k.n ≤ w) (fun p => (ExactS x.length 0 p.1.1 ∧ p.1.2 = 0) ∧ p.2 = false)
      (I.overflowingDivRemFixI k x 0) := by
    rw [overflowingDivRemFixI_zero hw k]
    exact h.map fun p hp => ⟨hp, rfl⟩
  have h' := Raw.yieldsQ (be := be) (Q := ExactS x.length 0)
    (R := fun r : BitVec _ => r = 0) h
  have ho' := Raw.yieldsQO (be := be) (Q := ExactS x.length 0) (R := fun r : BitVec _ => r = 0) (B := fun b => b = false) ho
  rw [← Raw.I.wrappingDivRemFixI_ok cf be F hw h4] at h'
  rw [← Raw.I.overflowingDivRemFixI_ok cf be F hw h4] at ho'
  have := Raw.zero3 (Q := ExactS x.length 0) (R := fun r : BitVec _ => r = 0) (zeroFormsS cf (m := k.n) h' ho')
  rw [← Raw.I.checkedDivRemFixI_eq cf be hw, ← Raw.I.overflowingDivFixI_eq,
    ← Raw.I.overflowingRemFixI_eq] at this
  exact this

end

/-- C90 is false for a double limb: `2^191 / (2^127 + 2^64 - 1)` panics in every form, checked ones included. -/
theorem C90_div_uwide_false :
    let n : BitVec (64 + 64) := 2 ^ 127 + 2 ^ 64 - 1
    Raw.U.checkedDivUWide ⟨true, true, false⟩ true ([0, 0x8000000000000000, 0, 0] : Limbs 64) n = .panic ∧
    Raw.U.wrappingRemUWide ⟨false, false, true⟩ false ([0, 0, 0x8000000000000000, 0] : Limbs 64) n = .panic ∧
    Raw.I.checkedDivUWide ⟨true, true, false⟩ true ([0, 0x8000000000000000, 0, 0] : Limbs 64) n = .panic := by
  decide +kernel

/-- C90 is false for a signed double limb: `2^190 / (2^126 + 2^63 - 1)` panics. -/
theorem C90_div_iwide_false :
    let n : BitVec (64 + 64) := 2 ^ 126 + 2 ^ 63 - 1
    Raw.I.checkedDivIWide ⟨true, true, false⟩ true ([0, 0x4000000000000000, 0, 0] : Limbs 64) n = .panic ∧
    Raw.I.wrappingRemIWide ⟨false, false, true⟩ false ([0, 0, 0x4000000000000000, 0] : Limbs 64) n = .panic := by
  decide +kernel

/-- C90 is false for a zero divisor of two limbs: `0 / 0` is `0` in the wrapping and overflowing forms. -/
theorem C90_div_uwide_zero_false :
    Raw.U.wrappingDivUWide ⟨true, true, false⟩ true ([0, 0, 0, 0] : Limbs 64) 0 = .ok [0, 0, 0, 0] ∧
    Raw.I.overflowingDivFixI ⟨true, true, false⟩ true .b128 ([0, 0, 0, 0] : Limbs 64) 0 =
      .ok ([0, 0, 0, 0], false) := by decide +kernel

/-- C90 is false for a scalar of fixed width: on 32-bit limbs the remainder of `2^95` by `2^63 + 2^32 - 1` has a stray
bit as a `u128` and is a panic as a `u64`. -/
theorem C90_div_fixed_false :
    Raw.U.wrappingRemFix ⟨true, true, false⟩ true .b128 ([0, 0, 0, 0, 0, 0x80000000, 0, 0] : Limbs 32)
      (2 ^ 63 + 2 ^ 32 - 1) = .ok (BitVec.ofNat 128 (2 ^ 95 % (2 ^ 63 + 2 ^ 32 - 1) + 2 ^ 64)) ∧
    Raw.U.checkedRemFix ⟨true, true, false⟩ true .b64 ([0, 0, 0, 0, 0, 0x80000000, 0, 0] : Limbs 32)
      (2 ^ 63 + 2 ^ 32 - 1) = .panic ∧
    Raw.I.remFixI ⟨true, true, false⟩ false .b128 ([0, 0, 0x80000000, 0, 0, 0, 0, 0] : Limbs 32)
      (2 ^ 63 + 2 ^ 32 - 1) = .ok (BitVec.ofNat 128 (2 ^ 95 % (2 ^ 63 + 2 ^ 32 - 1) + 2 ^ 64)) ∧
    Raw.I.divFixU ⟨true, true, false⟩ false .b64 ([0, 0, 0x80000000, 0, 0, 0, 0, 0] : Limbs 32)
      (2 ^ 63 + 2 ^ 32 - 1) = .panic := by decide +kernel

/-! ### The hypotheses are met -/

section examples
variable (cf : Cfg) (be : Bool)

example := C90_uint_div_ulimb (a := ones) cf be Raw.fit4 (n := 7) (by decide)
example := C90_uint_div_ulimb_zero (a := ones) cf be Raw.fit4
example := C90_uint_div_uwide_partial (a := b32) cf be Raw.fit8 (n := 2 ^ 40 + 7) (by decide +kernel)
example := C90_uint_div_uwide_zero_partial (a := b32) cf be Raw.fit8
example := C90_int_div_ulimb (a := m2) cf be Raw.fit4 (n := 7) (by decide)
example := C90_int_div_ulimb_zero (a := m2) cf be Raw.fit4
example := C90_int_div_uwide_partial (a := m2) cf be Raw.fit4 (n := 2 ^ 80 + 7) (by decide +kernel)
example := C90_int_div_uwide_zero_partial (a := m2) cf be Raw.fit4
example := C90_int_div_ilimb (a := top) cf be Raw.fit4 (n := -1) (by decide)
example := C90_int_div_ilimb_zero (a := top) cf be Raw.fit4
example := C90_int_div_iwide_partial (a := top) cf be Raw.fit4 (n := -1) (by decide)
example := C90_int_div_iwide_zero_partial (a := top) cf be Raw.fit4
example := C90_uint_div_fixed_partial (a := b32) cf be Raw.fit8 (.inl rfl) (by decide) .b128 (n := 2 ^ 100 + 7)
  (by decide +kernel)
example := C90_uint_div_fixed_zero_partial (a := b32) cf be Raw.fit8 (.inl rfl) (by decide) .b64
example := C90_int_div_fixed_unsigned_partial (a := m2) cf be Raw.fit4 (.inr rfl) (by decide) .b32 (n := 10)
  (by decide)
example := C90_int_div_fixed_unsigned_zero_partial (a := m2) cf be Raw.fit4 (.inr rfl) (by decide) .b32
example := C90_int_div_fixed_signed_partial (a := b32) cf be Raw.fit8 (.inl rfl) (by decide) .b128 (n := -10)
  (by decide)
example := C90_int_div_fixed_signed_zero_partial (a := b32) cf be Raw.fit8 (.inl rfl) (by decide) .b128

end examples

example : Raw.U.checkedDivRemULimb ⟨true, true, false⟩ true ([0, 0, 1, 5] : Limbs 64) 2 =
      .ok (some ([0, 0, 0, 0x8000000000000002], 1)) ∧
    Raw.U.remUWide ⟨true, true, false⟩ true ([0, 0, 1, 5] : Limbs 64) 3 = .ok 0 ∧
    Raw.U.divULimb ⟨true, true, false⟩ true ([0, 0, 1, 5] : Limbs 64) 0 = .panic ∧
    Raw.U.checkedDivULimb ⟨true, true, false⟩ true ([0, 0, 1, 5] : Limbs 64) 0 = .ok none := by decide +kernel
example : Raw.I.overflowingDivILimb ⟨true, true, false⟩ true ([0x8000000000000000, 0, 0, 0] : Limbs 64) (-1) =
      .ok ([0x8000000000000000, 0, 0, 0], true) ∧
    Raw.I.checkedDivIWide ⟨true, true, false⟩ true ([0x8000000000000000, 0, 0, 0] : Limbs 64) (-1) = .ok none ∧
    Raw.I.divRemILimb ⟨true, true, false⟩ true ([0, 0, 0, 7] : Limbs 64) (-2) =
      .ok ([0xffffffffffffffff, 0xffffffffffffffff, 0xffffffffffffffff, 0xfffffffffffffffd], 1) ∧
    Raw.I.remFixI ⟨true, true, false⟩ false .b32 ([7, 0, 0, 0] : Limbs 64) (-2) = .ok 1 ∧
    Raw.I.checkedDivFixI ⟨true, true, false⟩ false .b32 ([0, 0, 0, 0x8000000000000000] : Limbs 64) (-1) =
      .ok none := by decide +kernel

end I256
