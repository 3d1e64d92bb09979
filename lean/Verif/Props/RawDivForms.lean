import Verif.SpecRaw
import Verif.SpecDiv
import Verif.Lemmas.RawDivForms
import Verif.Props.Div
import Verif.Props.DivZero
import Verif.Props.DivSigned
import Verif.Props.DivForms

/-!
# C86: the forms of division in memory

The theorems are about the literal transcription of the division methods of the two types: the wrapping,
overflowing, checked, saturating and strict forms, the operators, the Euclidean and rounding divisions and
the multiples.  The limbs are in memory order, `cf` is the kind of build; `X` and `Y` are the numbers in
the two arrays.  Each theorem says when the run panics and what it leaves in memory otherwise.
-/

namespace I256

open Sample
open Raw (Fit)
open Raw.Div (Cfg)

variable {w : Nat} {cf : Cfg} {be : Bool} {a b : Limbs w}

section unsigned
variable (F : Fit w a.length) (hl : a.length = b.length) {X Y : Nat} (hX : memNat be a = X)
  (hY : memNat be b = Y)
include F hl hX hY

/-- C86: every unsigned quotient by a non-zero number is `⌊X / Y⌋`, with no overflow; the run panics
exactly in the cases of `DivPanics`. -/
theorem C86_uint_div (h0 : Y ≠ 0) :
    (∀ f ∈ [Raw.U.wrappingDiv cf be, Raw.U.wrappingDivEuclid cf be, Raw.U.saturatingDiv cf be,
      Raw.U.divFloor cf be, Raw.U.strictDiv cf be, Raw.U.strictDivEuclid cf be, Raw.U.div cf be,
      Raw.U.divEuclid cf be],
      Yields (DivPanics w a.length X Y) (fun m => ExactU a.length (X / Y) (logical be m)) (f a b)) ∧
    (∀ f ∈ [Raw.U.overflowingDiv cf be, Raw.U.overflowingDivEuclid cf be],
      Yields (DivPanics w a.length X Y)
        (fun r => ExactU a.length (X / Y) (logical be r.1) ∧ r.2 = false) (f a b)) ∧
    (∀ f ∈ [Raw.U.checkedDiv cf be, Raw.U.checkedDivEuclid cf be],
      Yields (DivPanics w a.length X Y)
        (fun o => ∃ v, o.map (logical be) = some v ∧ ExactU a.length (X / Y) v) (f a b)) := by
  obtain ⟨x, rfl⟩ := Raw.exists_mem be a
  obtain ⟨y, rfl⟩ := Raw.exists_mem be b
  subst hX hY
  simp only [Raw.mem_length, Raw.memNat_mem, List.mem_cons, List.not_mem_nil, or_false,
    forall_eq_or_imp, forall_eq] at *
  have h1 := C12_uint_div (Raw.w0 F) hl F.two F.even h0 cf.oc
  have h2 := C12_uint_overflowing_div (Raw.w0 F) hl F.two F.even h0
  have h3 := C12_uint_checked_div (Raw.w0 F) hl F.two F.even h0
  simp only [List.mem_cons, List.not_mem_nil, or_false, forall_eq_or_imp, forall_eq] at h1 h2 h3
  obtain ⟨h11, h12, h13, h14, h15, h16, h17, h18⟩ := h1
  rw [Raw.U.wrappingDiv_ok' cf be F hl, Raw.U.wrappingDivEuclid_ok cf be F hl,
    Raw.U.saturatingDiv_ok cf be F hl, Raw.U.divFloor_ok cf be F hl, Raw.U.strictDiv_ok cf be F hl,
    Raw.U.strictDivEuclid_ok cf be F hl, Raw.U.div_ok' cf be F hl, Raw.U.divEuclid_ok cf be F hl,
    Raw.U.overflowingDiv_ok cf be F hl, Raw.U.overflowingDivEuclid_ok cf be F hl,
    Raw.U.checkedDiv_ok cf be F hl, Raw.U.checkedDivEuclid_ok cf be F hl]
  exact ⟨⟨Raw.yields h11, Raw.yields h12, Raw.yields h13, Raw.yields h14, Raw.yields h15,
    Raw.yields h16, Raw.yields h17, Raw.yields h18⟩, ⟨Raw.yieldsO h2.1, Raw.yieldsO h2.2⟩,
    ⟨Raw.yieldsC h3.1, Raw.yieldsC h3.2⟩⟩

/-- C86, partial: every unsigned remainder by a non-zero number; `R` is the remainder with the stray limbs
of long division.  The full claim, with `X % Y` for `R`, is false (`C86_uint_rem_false`). -/
theorem C86_uint_rem_partial (h0 : Y ≠ 0) {R : Nat} (hR : R = X % Y + strayRem w a.length X Y) :
    (∀ f ∈ [Raw.U.wrappingRem cf be, Raw.U.wrappingRemEuclid cf be, Raw.U.strictRem cf be,
      Raw.U.strictRemEuclid cf be, Raw.U.rem cf be, Raw.U.remEuclid cf be],
      Yields (DivPanics w a.length X Y) (fun m => ExactU a.length R (logical be m)) (f a b)) ∧
    (∀ f ∈ [Raw.U.overflowingRem cf be, Raw.U.overflowingRemEuclid cf be],
      Yields (DivPanics w a.length X Y)
        (fun r => ExactU a.length R (logical be r.1) ∧ r.2 = false) (f a b)) ∧
    (∀ f ∈ [Raw.U.checkedRem cf be, Raw.U.checkedRemEuclid cf be],
      Yields (DivPanics w a.length X Y)
        (fun o => ∃ v, o.map (logical be) = some v ∧ ExactU a.length R v) (f a b)) := by
  obtain ⟨x, rfl⟩ := Raw.exists_mem be a
  obtain ⟨y, rfl⟩ := Raw.exists_mem be b
  subst hX hY hR
  simp only [Raw.mem_length, Raw.memNat_mem, List.mem_cons, List.not_mem_nil, or_false,
    forall_eq_or_imp, forall_eq] at *
  have h1 := C13_uint_rem_partial (Raw.w0 F) hl F.two F.even h0 cf.oc
  obtain ⟨h2, h3, -⟩ := C13_uint_rem_forms_partial (Raw.w0 F) hl F.two F.even h0 cf.oc
  simp only [List.mem_cons, List.not_mem_nil, or_false, forall_eq_or_imp, forall_eq] at h1 h2 h3
  obtain ⟨h11, h12, h13, h14, h15, h16⟩ := h1
  rw [Raw.U.wrappingRem_ok cf be F hl, Raw.U.wrappingRemEuclid_ok cf be F hl,
    Raw.U.strictRem_ok cf be F hl, Raw.U.strictRemEuclid_ok cf be F hl, Raw.U.rem_ok cf be F hl,
    Raw.U.remEuclid_ok cf be F hl, Raw.U.overflowingRem_ok cf be F hl,
    Raw.U.overflowingRemEuclid_ok cf be F hl, Raw.U.checkedRem_ok cf be F hl,
    Raw.U.checkedRemEuclid_ok cf be F hl]
  push_cast
  exact ⟨⟨Raw.yields h11, Raw.yields h12, Raw.yields h13, Raw.yields h14, Raw.yields h15,
    Raw.yields h16⟩, ⟨Raw.yieldsO h2.1, Raw.yieldsO h2.2⟩, ⟨Raw.yieldsC h3.1, Raw.yieldsC h3.2⟩⟩

/-- C86, partial: the pairs of quotient and remainder.  The full claim, with `X % Y` for `R`, is false
(`C86_uint_rem_false`). -/
theorem C86_uint_div_rem_partial (h0 : Y ≠ 0) {R : Nat} (hR : R = X % Y + strayRem w a.length X Y) :
    (∀ f ∈ [Raw.U.wrappingDivRem cf be, Raw.U.divRem cf be],
      Yields (DivPanics w a.length X Y) (fun r => ExactU a.length (X / Y) (logical be r.1) ∧
        ExactU a.length R (logical be r.2)) (f a b)) ∧
    Yields (DivPanics w a.length X Y) (fun r => (ExactU a.length (X / Y) (logical be r.1.1) ∧
        ExactU a.length R (logical be r.1.2)) ∧ r.2 = false) (Raw.U.overflowingDivRem cf be a b) ∧
    Yields (DivPanics w a.length X Y) (fun o => ∃ v, o.map (fun p => (logical be p.1, logical be p.2)) =
        some v ∧ ExactU a.length (X / Y) v.1 ∧ ExactU a.length R v.2) (Raw.U.checkedDivRem cf be a b) := by
  obtain ⟨x, rfl⟩ := Raw.exists_mem be a
  obtain ⟨y, rfl⟩ := Raw.exists_mem be b
  subst hX hY hR
  simp only [Raw.mem_length, Raw.memNat_mem, List.mem_cons, List.not_mem_nil, or_false,
    forall_eq_or_imp, forall_eq] at *
  have h := wrappingDivRemU (Raw.w0 F) hl F.two h0
  have hc : U.checkedDivRem x y = (U.wrappingDivRem x y).map some := by
    rw [U.checkedDivRem, checkedU_eq hl F.two F.even h0]
  have ho : U.divRem cf.oc x y = U.wrappingDivRem x y := by
    rw [U.divRem, U.checkedDivRem, opU_eq hl F.two F.even h0]
  have ho' : Yields (DivPanics w x.length (toNat x) (toNat y)) (fun r => (ExactU x.length
      (toNat x / toNat y) r.1.1 ∧ ExactU x.length (toNat x % toNat y + strayRem w x.length (toNat x) (toNat y))
      r.1.2) ∧ r.2 = false) (U.overflowingDivRem x y) := h.map fun v hv => ⟨hv, rfl⟩
  rw [Raw.U.wrappingDivRem_ok' cf be F hl, Raw.U.divRem_ok cf be F hl, Raw.U.overflowingDivRem_ok cf be F hl,
    Raw.U.checkedDivRem_ok cf be F hl, hc, ho]
  push_cast
  exact ⟨⟨Raw.yieldsP h, Raw.yieldsP h⟩, Raw.yieldsPO ho', Raw.yieldsPC h.some⟩

/-- C86, partial: `div_ceil` is `⌈X / Y⌉`, except that it is one more when `Y` divides `X` and the remainder
was spoilt.  The full claim is false (`C86_uint_multiple_false`). -/
theorem C86_uint_div_ceil_partial (h0 : Y ≠ 0) :
    Yields (DivPanics w a.length X Y) (fun m => ExactU a.length (-(-(X : Int) / Y) +
      if Y ∣ X ∧ strayRem w a.length X Y ≠ 0 then 1 else 0) (logical be m)) (Raw.U.divCeil cf be a b) := by
  obtain ⟨x, rfl⟩ := Raw.exists_mem be a
  obtain ⟨y, rfl⟩ := Raw.exists_mem be b
  subst hX hY
  simp only [Raw.mem_length, Raw.memNat_mem] at *
  rw [Raw.U.divCeil_ok cf be F hl]
  exact Raw.yields (C19_uint_div_ceil_partial (Raw.w0 F) hl F.two F.even h0)

/-- C86, partial: `is_multiple_of` tells for every `Y`, zero included, whether it divides `X`, except that
it answers no when the remainder was spoilt.  The full claim is false (`C86_uint_multiple_false`). -/
theorem C86_uint_is_multiple_of_partial :
    Yields (DivPanics w a.length X Y) (fun c => c = true ↔ Y ∣ X ∧ strayRem w a.length X Y = 0)
      (Raw.U.isMultipleOf cf be a b) := by
  obtain ⟨x, rfl⟩ := Raw.exists_mem be a
  obtain ⟨y, rfl⟩ := Raw.exists_mem be b
  subst hX hY
  simp only [Raw.mem_length, Raw.memNat_mem] at *
  rw [Raw.U.isMultipleOf_ok cf be F hl]
  exact C34_uint_is_multiple_of_partial (Raw.w0 F) hl F.two F.even

/-- C86, partial: `next_multiple_of` and its checked form for every non-zero `Y`; `R` is the remainder that
long division delivers.  For `R = X % Y` the result is `⌈X / Y⌉ * Y` (`C34_uint_next_multiple_of_partial`);
the full claim is false (`C34_uint_next_multiple_of_false`). -/
theorem C86_uint_next_multiple_of_partial (h0 : Y ≠ 0) {R : Nat}
    (hR : R = X % Y + strayRem w a.length X Y) :
    Yields (DivPanics w a.length X Y)
      (fun o => CheckU a.length (if R = 0 then X else X + ((Y : Int) - R) % 2 ^ (w * a.length))
        (o.map (logical be))) (Raw.U.checkedNextMultipleOf cf be a b) ∧
    Yields (DivPanics w a.length X Y ∨
        cf.oc = true ∧ R ≠ 0 ∧ (Y < R ∨ 2 ^ (w * a.length) ≤ X + (Y - R)))
      (fun m => WrapU a.length (if R = 0 then X else (X : Int) + Y - R) (logical be m))
      (Raw.U.nextMultipleOf cf be a b) := by
  obtain ⟨x, rfl⟩ := Raw.exists_mem be a
  obtain ⟨y, rfl⟩ := Raw.exists_mem be b
  subst hX hY
  simp only [Raw.mem_length, Raw.memNat_mem] at *
  obtain ⟨h1, h2⟩ := C34_uint_next_multiple_of_all_partial (Raw.w0 F) hl F.two F.even h0 hR cf.oc
  rw [Raw.U.nextMultipleOf_ok cf be F hl, Raw.U.checkedNextMultipleOf_ok cf be F hl]
  exact ⟨Raw.yieldsC h1, Raw.yields h2⟩

/-- C86, partial: division by zero.  The checked forms give `None`, the strict forms and the operators of a
build with overflow checks panic, and everything else panics unless `X = 0`, when it delivers the quotient 1
and the remainder 0.  The full claim, that it always panics, is false (`C86_uint_div_zero_false`). -/
theorem C86_uint_div_zero_partial (h0 : Y = 0) :
    (∀ f ∈ [Raw.U.checkedDiv cf be, Raw.U.checkedDivEuclid cf be, Raw.U.checkedRem cf be,
      Raw.U.checkedRemEuclid cf be, Raw.U.checkedNextMultipleOf cf be], f a b = .ok none) ∧
    Raw.U.checkedDivRem cf be a b = .ok none ∧
    (∀ f ∈ [Raw.U.strictDiv cf be, Raw.U.strictDivEuclid cf be, Raw.U.strictRem cf be,
      Raw.U.strictRemEuclid cf be], f a b = .panic) ∧
    (∀ f ∈ [Raw.U.wrappingDiv cf be, Raw.U.wrappingDivEuclid cf be, Raw.U.saturatingDiv cf be,
      Raw.U.divFloor cf be, Raw.U.divCeil cf be],
      Yields (X ≠ 0) (fun m => ExactU a.length 1 (logical be m)) (f a b)) ∧
    (∀ f ∈ [Raw.U.wrappingRem cf be, Raw.U.wrappingRemEuclid cf be],
      Yields (X ≠ 0) (fun m => ExactU a.length 0 (logical be m)) (f a b)) ∧
    (∀ f ∈ [Raw.U.div cf be, Raw.U.divEuclid cf be],
      Yields (X ≠ 0 ∨ cf.oc = true) (fun m => ExactU a.length 1 (logical be m)) (f a b)) ∧
    (∀ f ∈ [Raw.U.rem cf be, Raw.U.remEuclid cf be],
      Yields (X ≠ 0 ∨ cf.oc = true) (fun m => ExactU a.length 0 (logical be m)) (f a b)) ∧
    Yields (X ≠ 0 ∨ cf.oc = true) (fun m => m = a) (Raw.U.nextMultipleOf cf be a b) := by
  obtain ⟨x, rfl⟩ := Raw.exists_mem be a
  obtain ⟨y, rfl⟩ := Raw.exists_mem be b
  subst hX hY
  simp only [Raw.mem_length, Raw.memNat_mem, List.mem_cons, List.not_mem_nil, or_false,
    forall_eq_or_imp, forall_eq] at *
  obtain ⟨-, h1, h2, h3, h4, h5⟩ := C15_uint_div_zero_partial (Raw.w0 F) hl F.two F.even h0
  obtain ⟨k1, k2, -, -, -, -, k3, k4⟩ := C15_uint_div_zero_all_partial (Raw.w0 F) hl F.two F.even h0
  simp only [List.mem_cons, List.not_mem_nil, or_false, forall_eq_or_imp, forall_eq] at h1 h2 k1 k2
  obtain ⟨h11, h12, h13, h14⟩ := h1
  obtain ⟨h21, h22, h23, h24, h25, h26, h27, h28⟩ := h2
  obtain ⟨k11, k12, k13, k14, k15, k16, k17⟩ := k1
  obtain ⟨k21, k22, k23, k24⟩ := k2
  have op : ∀ {Q : Limbs w → Prop} {f : Bool → Res (Limbs w)}, f true = .panic →
      Yields (toNat x ≠ 0) Q (f false) → Yields (toNat x ≠ 0 ∨ cf.oc = true) Q (f cf.oc) := by
    intro Q f ht hf
    cases cf.oc
    · exact hf.congr (by simp)
    · exact ⟨fun _ => ht, fun h => absurd (.inr rfl) h⟩
  rw [Raw.U.wrappingDiv_ok' cf be F hl, Raw.U.wrappingDivEuclid_ok cf be F hl,
    Raw.U.saturatingDiv_ok cf be F hl, Raw.U.divFloor_ok cf be F hl, Raw.U.strictDiv_ok cf be F hl,
    Raw.U.strictDivEuclid_ok cf be F hl, Raw.U.div_ok' cf be F hl, Raw.U.divEuclid_ok cf be F hl,
    Raw.U.checkedDiv_ok cf be F hl, Raw.U.checkedDivEuclid_ok cf be F hl,
    Raw.U.wrappingRem_ok cf be F hl, Raw.U.wrappingRemEuclid_ok cf be F hl,
    Raw.U.strictRem_ok cf be F hl, Raw.U.strictRemEuclid_ok cf be F hl, Raw.U.rem_ok cf be F hl,
    Raw.U.remEuclid_ok cf be F hl, Raw.U.checkedRem_ok cf be F hl,
    Raw.U.checkedRemEuclid_ok cf be F hl, Raw.U.checkedDivRem_ok cf be F hl,
    Raw.U.nextMultipleOf_ok cf be F hl, Raw.U.checkedNextMultipleOf_ok cf be F hl,
    Raw.U.divCeil_ok cf be F hl, h11, h12, h13, h14, h21, h22, h23, h24, h3, h5]
  refine ⟨⟨rfl, rfl, rfl, rfl, rfl⟩, rfl, ⟨rfl, rfl, rfl, rfl⟩, ⟨Raw.yields k11, Raw.yields k12,
    Raw.yields k13, Raw.yields k14, Raw.yields k15⟩, ⟨Raw.yields k21, Raw.yields k22⟩,
    ⟨Raw.yields (op (f := fun oc => U.div oc x y) h25 k16),
      Raw.yields (op (f := fun oc => U.divEuclid oc x y) h27 k17)⟩,
    ⟨Raw.yields (op (f := fun oc => U.rem oc x y) h26 k23),
      Raw.yields (op (f := fun oc => U.remEuclid oc x y) h28 k24)⟩, ?_⟩
  exact (op (f := fun oc => U.nextMultipleOf oc x y) k4 k3).map fun v hv => hv ▸ rfl

/-- C86, partial: the pairs and the overflowing forms with a zero divisor: the quotient 1 and the remainder 0
without overflow if the dividend is zero, a panic otherwise. -/
theorem C86_uint_div_zero_pairs_partial (h0 : Y = 0) :
    Yields (X ≠ 0) (fun p => ExactU a.length 1 (logical be p.1) ∧ ExactU a.length 0 (logical be p.2))
      (Raw.U.wrappingDivRem cf be a b) ∧
    Yields (X ≠ 0 ∨ cf.oc = true) (fun p => ExactU a.length 1 (logical be p.1) ∧
      ExactU a.length 0 (logical be p.2)) (Raw.U.divRem cf be a b) ∧
    Yields (X ≠ 0) (fun p => (ExactU a.length 1 (logical be p.1.1) ∧
      ExactU a.length 0 (logical be p.1.2)) ∧ p.2 = false) (Raw.U.overflowingDivRem cf be a b) ∧
    (∀ f ∈ [Raw.U.overflowingDiv cf be, Raw.U.overflowingDivEuclid cf be],
      Yields (X ≠ 0) (fun p => ExactU a.length 1 (logical be p.1) ∧ p.2 = false) (f a b)) ∧
    (∀ f ∈ [Raw.U.overflowingRem cf be, Raw.U.overflowingRemEuclid cf be],
      Yields (X ≠ 0) (fun p => ExactU a.length 0 (logical be p.1) ∧ p.2 = false) (f a b)) := by
  obtain ⟨x, rfl⟩ := Raw.exists_mem be a
  obtain ⟨y, rfl⟩ := Raw.exists_mem be b
  subst hX hY
  simp only [Raw.mem_length, Raw.memNat_mem, List.mem_cons, List.not_mem_nil, or_false,
    forall_eq_or_imp, forall_eq] at *
  obtain ⟨-, -, -, -, h4, -⟩ := C15_uint_div_zero_partial (Raw.w0 F) hl F.two F.even h0
  have hz := C15_uint_div_zero_all_partial (Raw.w0 F) hl F.two F.even h0
  simp only [List.mem_cons, List.not_mem_nil, or_false, forall_eq_or_imp, forall_eq] at hz
  obtain ⟨-, -, ⟨k1, k2⟩, ⟨k3, k4⟩, ⟨k5, k6⟩, k7, -, -⟩ := hz
  rw [Raw.U.wrappingDivRem_ok' cf be F hl, Raw.U.divRem_ok cf be F hl,
    Raw.U.overflowingDivRem_ok cf be F hl, Raw.U.overflowingDiv_ok cf be F hl,
    Raw.U.overflowingDivEuclid_ok cf be F hl, Raw.U.overflowingRem_ok cf be F hl,
    Raw.U.overflowingRemEuclid_ok cf be F hl]
  have k8 : Yields (toNat x ≠ 0 ∨ cf.oc = true) (fun p => ExactU x.length 1 p.1 ∧
      ExactU x.length 0 p.2) (U.divRem cf.oc x y) := by
    cases cf.oc
    · exact k2.congr (by simp)
    · exact ⟨fun _ => h4, fun h => absurd (.inr rfl) h⟩
  exact ⟨Raw.yieldsP k1, Raw.yieldsP k8, Raw.yieldsPO k7, ⟨Raw.yieldsO k3, Raw.yieldsO k4⟩,
    ⟨Raw.yieldsO k5, Raw.yieldsO k6⟩⟩

end unsigned

section signed
variable (hw : w = 32 ∨ w = 64) (F : Fit w a.length) (hl : a.length = b.length) {X Y : Int}
  (hX : memInt be a = X) (hY : memInt be b = Y)
include hw F hl hX hY

/-- C86: every signed quotient by a non-zero number is `X / Y` rounded towards zero, and exactly `MIN / -1`
overflows; the run panics in the cases of `DivPanics` and where the form says so. -/
theorem C86_int_div (h0 : Y ≠ 0) :
    Yields (DivPanics w a.length X.natAbs Y.natAbs)
      (fun m => WrapS a.length (X.tdiv Y) (logical be m)) (Raw.I.wrappingDiv cf be a b) ∧
    Yields (DivPanics w a.length X.natAbs Y.natAbs)
      (fun r => OverS a.length (X.tdiv Y) (logical be r.1, r.2) ∧
        (r.2 = true ↔ X = -2 ^ (w * a.length - 1) ∧ Y = -1)) (Raw.I.overflowingDiv cf be a b) ∧
    Yields (DivPanics w a.length X.natAbs Y.natAbs)
      (fun o => CheckS a.length (X.tdiv Y) (o.map (logical be)) ∧
        (o.map (logical be) = none ↔ X = -2 ^ (w * a.length - 1) ∧ Y = -1))
      (Raw.I.checkedDiv cf be a b) ∧
    Yields (DivPanics w a.length X.natAbs Y.natAbs)
      (fun m => SatS a.length (X.tdiv Y) (logical be m)) (Raw.I.saturatingDiv cf be a b) ∧
    (DivPanics w a.length X.natAbs Y.natAbs →
      Raw.I.div cf be a b = .panic ∧ Raw.I.strictDiv cf be a b = .panic) ∧
    (¬ DivPanics w a.length X.natAbs Y.natAbs →
      Ends be (OpS cf.oc a.length (X.tdiv Y)) (Raw.I.div cf be a b) ∧
      Ends be (StrictS a.length (X.tdiv Y)) (Raw.I.strictDiv cf be a b)) := by
  obtain ⟨x, rfl⟩ := Raw.exists_mem be a
  obtain ⟨y, rfl⟩ := Raw.exists_mem be b
  subst hX hY
  simp only [Raw.mem_length, Raw.memInt_mem] at *
  have h1 := C17_int_wrapping_div F.w1 hl F.two F.even h0
  have h2 := C17_int_overflowing_div F.w1 hl F.two F.even h0
  have h3 := C17_int_checked_div F.w1 hl F.two F.even h0
  have h4 := C17_int_saturating_div F.w1 hl F.two F.even h0
  obtain ⟨h5, h6⟩ := C17_int_div F.w1 hl F.two F.even h0 cf.oc
  rw [Raw.I.wrappingDiv_ok cf be F hl, Raw.I.overflowingDiv_ok cf be F hl hw,
    Raw.I.checkedDiv_ok cf be F hl hw, Raw.I.saturatingDiv_ok cf be F hl hw, Raw.I.div_ok cf be F hl hw,
    Raw.I.strictDiv_ok cf be F hl hw]
  refine ⟨Raw.yields h1, Raw.yieldsO h2, Raw.yieldsC h3, Raw.yields h4, fun p => ?_, fun p => ?_⟩
  · rw [(h5 p).1, (h5 p).2]; exact ⟨rfl, rfl⟩
  · exact ⟨Raw.ends (h6 p).1, Raw.ends (h6 p).2⟩

/-- C86, partial: every signed remainder and pair for a non-zero divisor; `R` is the remainder that long
division delivers.  `MIN % -1` counts as overflow.  The full claim, with `X.tmod Y` for `R`, is false
(`C86_int_rem_false`). -/
theorem C86_int_rem_partial (h0 : Y ≠ 0) {R : Int}
    (hR : R = X.tmod Y + X.sign * strayRem w a.length X.natAbs Y.natAbs) :
    Yields (DivPanics w a.length X.natAbs Y.natAbs)
      (fun m => ExactS a.length R (logical be m)) (Raw.I.wrappingRem cf be a b) ∧
    Yields (DivPanics w a.length X.natAbs Y.natAbs)
      (fun p => ExactS a.length R (logical be p.1) ∧
        (p.2 = true ↔ X = -2 ^ (w * a.length - 1) ∧ Y = -1)) (Raw.I.overflowingRem cf be a b) ∧
    Yields (DivPanics w a.length X.natAbs Y.natAbs)
      (fun o => (X = -2 ^ (w * a.length - 1) ∧ Y = -1 → o.map (logical be) = none) ∧
        (¬ (X = -2 ^ (w * a.length - 1) ∧ Y = -1) →
          ∃ v, o.map (logical be) = some v ∧ ExactS a.length R v)) (Raw.I.checkedRem cf be a b) ∧
    Yields (DivPanics w a.length X.natAbs Y.natAbs ∨ X = -2 ^ (w * a.length - 1) ∧ Y = -1)
      (fun m => ExactS a.length R (logical be m)) (Raw.I.strictRem cf be a b) ∧
    Yields (DivPanics w a.length X.natAbs Y.natAbs ∨
        cf.oc = true ∧ X = -2 ^ (w * a.length - 1) ∧ Y = -1)
      (fun m => ExactS a.length R (logical be m)) (Raw.I.rem cf be a b) := by
  obtain ⟨x, rfl⟩ := Raw.exists_mem be a
  obtain ⟨y, rfl⟩ := Raw.exists_mem be b
  subst hX hY
  simp only [Raw.mem_length, Raw.memInt_mem] at *
  have h1 := (C17_int_rem_partial F.w1 hl F.two F.even h0).1
  rw [← hR] at h1
  obtain ⟨h2, h3, h4, h5⟩ := C17_int_rem_all_partial F.w1 hl F.two F.even h0 hR cf.oc
  rw [Raw.I.wrappingRem_ok cf be F hl, Raw.I.overflowingRem_ok cf be F hl hw,
    Raw.I.checkedRem_ok cf be F hl hw, Raw.I.strictRem_ok cf be F hl hw, Raw.I.rem_ok cf be F hl hw]
  exact ⟨Raw.yields h1, Raw.yieldsO h2, Raw.yieldsC h3, Raw.yields h4, Raw.yields h5⟩

/-- C86, partial: the pairs of signed quotient and remainder.  The full claim, with `X.tmod Y` for `R`, is
false (`C86_int_rem_false`). -/
theorem C86_int_div_rem_partial (h0 : Y ≠ 0) {R : Int}
    (hR : R = X.tmod Y + X.sign * strayRem w a.length X.natAbs Y.natAbs) :
    Yields (DivPanics w a.length X.natAbs Y.natAbs)
      (fun p => WrapS a.length (X.tdiv Y) (logical be p.1) ∧ ExactS a.length R (logical be p.2))
      (Raw.I.wrappingDivRem cf be a b) ∧
    Yields (DivPanics w a.length X.natAbs Y.natAbs)
      (fun p => OverS a.length (X.tdiv Y) (logical be p.1.1, p.2) ∧ ExactS a.length R (logical be p.1.2))
      (Raw.I.overflowingDivRem cf be a b) ∧
    Yields (DivPanics w a.length X.natAbs Y.natAbs)
      (fun o => (X = -2 ^ (w * a.length - 1) ∧ Y = -1 →
          o.map (fun p => (logical be p.1, logical be p.2)) = none) ∧
        (¬ (X = -2 ^ (w * a.length - 1) ∧ Y = -1) →
          ∃ v, o.map (fun p => (logical be p.1, logical be p.2)) = some v ∧
            ExactS a.length (X.tdiv Y) v.1 ∧ ExactS a.length R v.2)) (Raw.I.checkedDivRem cf be a b) ∧
    Yields (DivPanics w a.length X.natAbs Y.natAbs ∨
        cf.oc = true ∧ X = -2 ^ (w * a.length - 1) ∧ Y = -1)
      (fun p => WrapS a.length (X.tdiv Y) (logical be p.1) ∧ ExactS a.length R (logical be p.2))
      (Raw.I.divRem cf be a b) := by
  obtain ⟨x, rfl⟩ := Raw.exists_mem be a
  obtain ⟨y, rfl⟩ := Raw.exists_mem be b
  subst hX hY
  simp only [Raw.mem_length, Raw.memInt_mem] at *
  have h1 := (C17_int_rem_partial F.w1 hl F.two F.even h0).2
  rw [← hR] at h1
  obtain ⟨h2, h3, h4⟩ := C17_int_div_rem_all_partial F.w1 hl F.two F.even h0 hR cf.oc
  rw [Raw.I.wrappingDivRem_ok' cf be F hl, Raw.I.overflowingDivRem_ok cf be F hl hw,
    Raw.I.checkedDivRem_ok cf be F hl hw, Raw.I.divRem_ok cf be F hl hw]
  exact ⟨Raw.yieldsP h1, Raw.yieldsPO h2, Raw.yieldsPC h3, Raw.yieldsP h4⟩

/-- C86, partial: every Euclidean quotient for a non-zero divisor; `Q` is `X / Y` rounded so that the
remainder is not negative, except when a spoilt remainder is taken for a negative one.  The full claim, with
`Q = X / Y`, is false (`C18_int_euclid_false`). -/
theorem C86_int_div_euclid_partial (h0 : Y ≠ 0) {Q : Int}
    (hQ : Q = if X < 0 ∧ Y ∣ X ∧ strayRem w a.length X.natAbs Y.natAbs ≠ 0
      then X / Y - Y.sign else X / Y) :
    Yields (DivPanics w a.length X.natAbs Y.natAbs)
      (fun m => WrapS a.length Q (logical be m)) (Raw.I.wrappingDivEuclid cf be a b) ∧
    Yields (DivPanics w a.length X.natAbs Y.natAbs)
      (fun p => WrapS a.length Q (logical be p.1) ∧
        (p.2 = true ↔ X = -2 ^ (w * a.length - 1) ∧ Y = -1)) (Raw.I.overflowingDivEuclid cf be a b) ∧
    Yields (DivPanics w a.length X.natAbs Y.natAbs)
      (fun o => (X = -2 ^ (w * a.length - 1) ∧ Y = -1 → o.map (logical be) = none) ∧
        (¬ (X = -2 ^ (w * a.length - 1) ∧ Y = -1) →
          ∃ v, o.map (logical be) = some v ∧ WrapS a.length Q v)) (Raw.I.checkedDivEuclid cf be a b) ∧
    Yields (DivPanics w a.length X.natAbs Y.natAbs ∨ X = -2 ^ (w * a.length - 1) ∧ Y = -1)
      (fun m => WrapS a.length Q (logical be m)) (Raw.I.strictDivEuclid cf be a b) ∧
    Yields (DivPanics w a.length X.natAbs Y.natAbs ∨
        cf.oc = true ∧ X = -2 ^ (w * a.length - 1) ∧ Y = -1)
      (fun m => WrapS a.length Q (logical be m)) (Raw.I.divEuclid cf be a b) := by
  obtain ⟨x, rfl⟩ := Raw.exists_mem be a
  obtain ⟨y, rfl⟩ := Raw.exists_mem be b
  subst hX hY
  simp only [Raw.mem_length, Raw.memInt_mem] at *
  have h1 := (C18_int_wrapping_euclid_partial F.w1 hl F.two F.even h0).1
  rw [← hQ] at h1
  obtain ⟨h2, h3, h4, h5⟩ := C18_int_div_euclid_all_partial F.w1 hl F.two F.even h0 hQ cf.oc
  rw [Raw.I.wrappingDivEuclid_ok cf be F hl, Raw.I.overflowingDivEuclid_ok cf be F hl hw,
    Raw.I.checkedDivEuclid_ok cf be F hl hw, Raw.I.strictDivEuclid_ok cf be F hl hw,
    Raw.I.divEuclid_ok cf be F hl hw]
  exact ⟨Raw.yields h1, Raw.yieldsO h2, Raw.yieldsC h3, Raw.yields h4, Raw.yields h5⟩

/-- C86, partial: every Euclidean remainder for a non-zero divisor.  The full claim, with `R = X % Y`, is
false (`C18_int_euclid_false`). -/
theorem C86_int_rem_euclid_partial (h0 : Y ≠ 0) {R : Int}
    (hR : R = X % Y + X.sign * strayRem w a.length X.natAbs Y.natAbs +
      if X < 0 ∧ Y ∣ X ∧ strayRem w a.length X.natAbs Y.natAbs ≠ 0 then |Y| else 0) :
    Yields (DivPanics w a.length X.natAbs Y.natAbs)
      (fun m => ExactS a.length R (logical be m)) (Raw.I.wrappingRemEuclid cf be a b) ∧
    Yields (DivPanics w a.length X.natAbs Y.natAbs)
      (fun p => ExactS a.length R (logical be p.1) ∧
        (p.2 = true ↔ X = -2 ^ (w * a.length - 1) ∧ Y = -1)) (Raw.I.overflowingRemEuclid cf be a b) ∧
    Yields (DivPanics w a.length X.natAbs Y.natAbs)
      (fun o => (X = -2 ^ (w * a.length - 1) ∧ Y = -1 → o.map (logical be) = none) ∧
        (¬ (X = -2 ^ (w * a.length - 1) ∧ Y = -1) →
          ∃ v, o.map (logical be) = some v ∧ ExactS a.length R v)) (Raw.I.checkedRemEuclid cf be a b) ∧
    Yields (DivPanics w a.length X.natAbs Y.natAbs ∨ X = -2 ^ (w * a.length - 1) ∧ Y = -1)
      (fun m => ExactS a.length R (logical be m)) (Raw.I.strictRemEuclid cf be a b) ∧
    Yields (DivPanics w a.length X.natAbs Y.natAbs ∨
        cf.oc = true ∧ X = -2 ^ (w * a.length - 1) ∧ Y = -1)
      (fun m => ExactS a.length R (logical be m)) (Raw.I.remEuclid cf be a b) := by
  obtain ⟨x, rfl⟩ := Raw.exists_mem be a
  obtain ⟨y, rfl⟩ := Raw.exists_mem be b
  subst hX hY
  simp only [Raw.mem_length, Raw.memInt_mem] at *
  have h1 := (C18_int_wrapping_euclid_partial F.w1 hl F.two F.even h0).2
  rw [← hR] at h1
  obtain ⟨h2, h3, h4, h5⟩ := C18_int_rem_euclid_all_partial F.w1 hl F.two F.even h0 hR cf.oc
  rw [Raw.I.wrappingRemEuclid_ok cf be F hl, Raw.I.overflowingRemEuclid_ok cf be F hl hw,
    Raw.I.checkedRemEuclid_ok cf be F hl hw, Raw.I.strictRemEuclid_ok cf be F hl hw,
    Raw.I.remEuclid_ok cf be F hl hw]
  exact ⟨Raw.yields h1, Raw.yieldsO h2, Raw.yieldsC h3, Raw.yields h4, Raw.yields h5⟩

/-- C86, partial: `div_floor` and `div_ceil` are `⌊X / Y⌋` and `⌈X / Y⌉` modulo `2^BITS`, except that an exact
quotient is missed by one when the remainder was spoilt.  The full claim is false (`C19_int_false`). -/
theorem C86_int_round_partial (h32 : w * a.length < 2 ^ 32) (h0 : Y ≠ 0) :
    Yields (DivPanics w a.length X.natAbs Y.natAbs)
      (fun m => WrapS a.length (X.fdiv Y - if Y ∣ X ∧ strayRem w a.length X.natAbs Y.natAbs ≠ 0 ∧
        ¬ (X < 0 ↔ Y < 0) then 1 else 0) (logical be m)) (Raw.I.divFloor cf be a b) ∧
    Yields (DivPanics w a.length X.natAbs Y.natAbs)
      (fun m => WrapS a.length (-((-X).fdiv Y) + if Y ∣ X ∧ strayRem w a.length X.natAbs Y.natAbs ≠ 0 ∧
        (X < 0 ↔ Y < 0) then 1 else 0) (logical be m)) (Raw.I.divCeil cf be a b) := by
  obtain ⟨x, rfl⟩ := Raw.exists_mem be a
  obtain ⟨y, rfl⟩ := Raw.exists_mem be b
  subst hX hY
  simp only [Raw.mem_length, Raw.memInt_mem] at *
  obtain ⟨k, hk⟩ := Raw.two_pow_of hw
  rw [Raw.I.divFloor_ok cf be F hl, Raw.I.divCeil_ok cf be F hl hw h32]
  exact ⟨Raw.yields (C19_int_div_floor_partial F.w1 hl F.two F.even h0),
    Raw.yields (C19_int_div_ceil_partial F.w1 hl F.two F.even h0 hk h32 cf.oc)⟩

/-- C86, partial: `next_multiple_of` and its checked form for every divisor other than 0 and -1: `R` is the
remainder that long division delivers, `M` the same with the sign of `Y`.  For `R = X.tmod Y` see
`C34_int_next_multiple_of_partial`. -/
theorem C86_int_next_multiple_of_partial (h0 : Y ≠ 0) (h1 : Y ≠ -1) {R M : Int}
    (hR : R = X.tmod Y + X.sign * strayRem w a.length X.natAbs Y.natAbs)
    (hM : M = if (0 < R ∧ Y < 0) ∨ (R < 0 ∧ 0 < Y) then R + Y else R) :
    Yields (DivPanics w a.length X.natAbs Y.natAbs ∨
        cf.oc = true ∧ M ≠ 0 ∧ ¬ InS (w * a.length) (Y - M))
      (fun o => CheckS a.length (if M = 0 then X else X + Int.bmod (Y - M) (2 ^ (w * a.length)))
        (o.map (logical be))) (Raw.I.checkedNextMultipleOf cf be a b) ∧
    Yields (DivPanics w a.length X.natAbs Y.natAbs ∨
        cf.oc = true ∧ M ≠ 0 ∧ (¬ InS (w * a.length) (Y - M) ∨ ¬ InS (w * a.length) (X + (Y - M))))
      (fun m => WrapS a.length (if M = 0 then X else X + (Y - M)) (logical be m))
      (Raw.I.nextMultipleOf cf be a b) := by
  obtain ⟨x, rfl⟩ := Raw.exists_mem be a
  obtain ⟨y, rfl⟩ := Raw.exists_mem be b
  subst hX hY
  simp only [Raw.mem_length, Raw.memInt_mem] at *
  obtain ⟨h2, h3⟩ := C34_int_next_multiple_of_all_partial F.w1 hl F.n4 F.even h0 h1 hR hM cf.oc
  rw [Raw.I.nextMultipleOf_ok cf be F hl hw, Raw.I.checkedNextMultipleOf_ok cf be F hl hw]
  exact ⟨Raw.yieldsC h2, Raw.yields h3⟩

/-- C86: the next multiple of -1 is the number itself. -/
theorem C86_int_next_multiple_of_neg_one (h1 : Y = -1) :
    Raw.I.checkedNextMultipleOf cf be a b = .ok (some a) ∧ Raw.I.nextMultipleOf cf be a b = .ok a := by
  obtain ⟨x, rfl⟩ := Raw.exists_mem be a
  obtain ⟨y, rfl⟩ := Raw.exists_mem be b
  subst hX hY
  simp only [Raw.mem_length, Raw.memInt_mem] at *
  have h2 := F.two
  have e : Ord.eqConst y (ofI8 y.length (-1)) = true := by
    rw [eqNegOne F.w1 (by omega) (by have := F.even; omega), h1]; rfl
  rw [Raw.I.nextMultipleOf_ok cf be F hl hw, Raw.I.checkedNextMultipleOf_ok cf be F hl hw,
    I.nextMultipleOf, I.checkedNextMultipleOf, if_pos e, if_pos e]
  exact ⟨rfl, rfl⟩

/-- C86, partial: signed division by zero, as for the unsigned types.  The full claim is false
(`C15_int_div_zero_false`). -/
theorem C86_int_div_zero_partial (h32 : w * a.length < 2 ^ 32) (h0 : Y = 0) :
    (∀ f ∈ [Raw.I.checkedDiv cf be, Raw.I.checkedDivEuclid cf be, Raw.I.checkedRem cf be,
      Raw.I.checkedRemEuclid cf be, Raw.I.checkedNextMultipleOf cf be], f a b = .ok none) ∧
    Raw.I.checkedDivRem cf be a b = .ok none ∧
    (∀ f ∈ [Raw.I.strictDiv cf be, Raw.I.strictDivEuclid cf be, Raw.I.strictRem cf be,
      Raw.I.strictRemEuclid cf be], f a b = .panic) ∧
    (∀ f ∈ [Raw.I.wrappingDiv cf be, Raw.I.wrappingDivEuclid cf be, Raw.I.saturatingDiv cf be,
      Raw.I.divFloor cf be, Raw.I.divCeil cf be],
      Yields (X ≠ 0) (fun m => ExactS a.length 1 (logical be m)) (f a b)) ∧
    (∀ f ∈ [Raw.I.wrappingRem cf be, Raw.I.wrappingRemEuclid cf be],
      Yields (X ≠ 0) (fun m => ExactS a.length 0 (logical be m)) (f a b)) ∧
    (∀ f ∈ [Raw.I.div cf be, Raw.I.divEuclid cf be],
      Yields (X ≠ 0 ∨ cf.oc = true) (fun m => ExactS a.length 1 (logical be m)) (f a b)) ∧
    (∀ f ∈ [Raw.I.rem cf be, Raw.I.remEuclid cf be],
      Yields (X ≠ 0 ∨ cf.oc = true) (fun m => ExactS a.length 0 (logical be m)) (f a b)) ∧
    Yields (X ≠ 0 ∨ cf.oc = true) (fun m => m = a) (Raw.I.nextMultipleOf cf be a b) := by
  obtain ⟨x, rfl⟩ := Raw.exists_mem be a
  obtain ⟨y, rfl⟩ := Raw.exists_mem be b
  subst hX hY
  simp only [Raw.mem_length, Raw.memInt_mem, List.mem_cons, List.not_mem_nil, or_false,
    forall_eq_or_imp, forall_eq] at *
  obtain ⟨k, hk⟩ := Raw.two_pow_of hw
  obtain ⟨-, h1, h2, h3, h4, h5⟩ := C15_int_div_zero_partial F.w1 hl F.two F.even h0
  obtain ⟨k1, k2, -⟩ := C15_int_div_zero_all_partial F.w1 hl F.two F.even h0
  obtain ⟨k5, k3, k4⟩ := C15_int_div_ceil_zero_partial hk F.w1 hl F.n4 F.even h32 h0 cf.oc
  simp only [List.mem_cons, List.not_mem_nil, or_false, forall_eq_or_imp, forall_eq] at h1 h2 k1 k2
  obtain ⟨h11, h12, h13, h14⟩ := h1
  obtain ⟨h21, h22, h23, h24, h25, h26, h27, h28⟩ := h2
  obtain ⟨k11, k12, k13, k14, k16, k17⟩ := k1
  obtain ⟨k21, k22, k23, k24⟩ := k2
  have op : ∀ {Q : Limbs w → Prop} {f : Bool → Res (Limbs w)}, f true = .panic →
      Yields (toInt x ≠ 0) Q (f false) → Yields (toInt x ≠ 0 ∨ cf.oc = true) Q (f cf.oc) := by
    intro Q f ht hf
    cases cf.oc
    · exact hf.congr (by simp)
    · exact ⟨fun _ => ht, fun h => absurd (.inr rfl) h⟩
  rw [Raw.I.wrappingDiv_ok cf be F hl, Raw.I.wrappingDivEuclid_ok cf be F hl,
    Raw.I.saturatingDiv_ok cf be F hl hw, Raw.I.divFloor_ok cf be F hl, Raw.I.strictDiv_ok cf be F hl hw,
    Raw.I.strictDivEuclid_ok cf be F hl hw, Raw.I.div_ok cf be F hl hw, Raw.I.divEuclid_ok cf be F hl hw,
    Raw.I.checkedDiv_ok cf be F hl hw, Raw.I.checkedDivEuclid_ok cf be F hl hw,
    Raw.I.wrappingRem_ok cf be F hl, Raw.I.wrappingRemEuclid_ok cf be F hl,
    Raw.I.strictRem_ok cf be F hl hw, Raw.I.strictRemEuclid_ok cf be F hl hw, Raw.I.rem_ok cf be F hl hw,
    Raw.I.remEuclid_ok cf be F hl hw, Raw.I.checkedRem_ok cf be F hl hw,
    Raw.I.checkedRemEuclid_ok cf be F hl hw, Raw.I.checkedDivRem_ok cf be F hl hw,
    Raw.I.nextMultipleOf_ok cf be F hl hw, Raw.I.checkedNextMultipleOf_ok cf be F hl hw,
    Raw.I.divCeil_ok cf be F hl hw h32, h11, h12, h13, h14, h21, h22, h23, h24, h3, h5]
  refine ⟨⟨rfl, rfl, rfl, rfl, rfl⟩, rfl, ⟨rfl, rfl, rfl, rfl⟩, ⟨Raw.yields k11, Raw.yields k12,
    Raw.yields k13, Raw.yields k14, Raw.yields k5⟩, ⟨Raw.yields k21, Raw.yields k22⟩,
    ⟨Raw.yields (op (f := fun oc => I.div oc x y) h25 k16),
      Raw.yields (op (f := fun oc => I.divEuclid oc x y) h27 k17)⟩,
    ⟨Raw.yields (op (f := fun oc => I.rem oc x y) h26 k23),
      Raw.yields (op (f := fun oc => I.remEuclid oc x y) h28 k24)⟩, ?_⟩
  exact (op (f := fun oc => I.nextMultipleOf oc x y) k4 k3).map fun v hv => hv ▸ rfl

/-- C86, partial: the pairs and the overflowing forms with a zero divisor: the quotient 1 and the remainder 0
without overflow if the dividend is zero, a panic otherwise. -/
theorem C86_int_div_zero_pairs_partial (h0 : Y = 0) :
    Yields (X ≠ 0) (fun p => ExactS a.length 1 (logical be p.1) ∧ ExactS a.length 0 (logical be p.2))
      (Raw.I.wrappingDivRem cf be a b) ∧
    Yields (X ≠ 0 ∨ cf.oc = true) (fun p => ExactS a.length 1 (logical be p.1) ∧
      ExactS a.length 0 (logical be p.2)) (Raw.I.divRem cf be a b) ∧
    Yields (X ≠ 0) (fun p => (ExactS a.length 1 (logical be p.1.1) ∧
      ExactS a.length 0 (logical be p.1.2)) ∧ p.2 = false) (Raw.I.overflowingDivRem cf be a b) ∧
    (∀ f ∈ [Raw.I.overflowingDiv cf be, Raw.I.overflowingDivEuclid cf be],
      Yields (X ≠ 0) (fun p => ExactS a.length 1 (logical be p.1) ∧ p.2 = false) (f a b)) ∧
    (∀ f ∈ [Raw.I.overflowingRem cf be, Raw.I.overflowingRemEuclid cf be],
      Yields (X ≠ 0) (fun p => ExactS a.length 0 (logical be p.1) ∧ p.2 = false) (f a b)) := by
  obtain ⟨x, rfl⟩ := Raw.exists_mem be a
  obtain ⟨y, rfl⟩ := Raw.exists_mem be b
  subst hX hY
  simp only [Raw.mem_length, Raw.memInt_mem, List.mem_cons, List.not_mem_nil, or_false,
    forall_eq_or_imp, forall_eq] at *
  obtain ⟨-, -, -, -, h4, -⟩ := C15_int_div_zero_partial F.w1 hl F.two F.even h0
  have hz := C15_int_div_zero_all_partial F.w1 hl F.two F.even h0
  simp only [List.mem_cons, List.not_mem_nil, or_false, forall_eq_or_imp, forall_eq] at hz
  obtain ⟨-, -, ⟨k1, k2⟩, ⟨k3, k4⟩, ⟨k5, k6⟩, k7⟩ := hz
  rw [Raw.I.wrappingDivRem_ok' cf be F hl, Raw.I.divRem_ok cf be F hl hw,
    Raw.I.overflowingDivRem_ok cf be F hl hw, Raw.I.overflowingDiv_ok cf be F hl hw,
    Raw.I.overflowingDivEuclid_ok cf be F hl hw, Raw.I.overflowingRem_ok cf be F hl hw,
    Raw.I.overflowingRemEuclid_ok cf be F hl hw]
  have k8 : Yields (toInt x ≠ 0 ∨ cf.oc = true) (fun p => ExactS x.length 1 p.1 ∧
      ExactS x.length 0 p.2) (I.divRem cf.oc x y) := by
    cases cf.oc
    · exact k2.congr (by simp)
    · exact ⟨fun _ => h4, fun h => absurd (.inr rfl) h⟩
  exact ⟨Raw.yieldsP k1, Raw.yieldsP k8, Raw.yieldsPO k7, ⟨Raw.yieldsO k3, Raw.yieldsO k4⟩,
    ⟨Raw.yieldsO k5, Raw.yieldsO k6⟩⟩

end signed

/-! ### The full claims fail in memory as well -/

/-- C86 is false for remainders: `(3 * 2^189) mod (2^189 + 1)` comes out larger than the divisor, on a
big-endian machine as on a little-endian one. -/
theorem C86_uint_rem_false : ∃ a b m : Limbs 64, a.length = 4 ∧ b.length = 4 ∧
    Raw.U.wrappingRem ⟨true, true, false⟩ true a b = .ok m ∧ memNat true b < memNat true m :=
  ⟨n2.reverse, d2.reverse, [0, 0x5fffffffffffffff, 0xffffffffffffffff, 0xfffffffffffffffe],
    by decide +kernel⟩

/-- C86 is false for signed remainders. -/
theorem C86_int_rem_false : ∃ a b m : Limbs 64, a.length = 4 ∧ b.length = 4 ∧
    Raw.I.wrappingRem ⟨true, true, false⟩ true a b = .ok m ∧ 0 < memInt true b ∧
    memInt true b < memInt true m :=
  ⟨n2.reverse, d2.reverse, [0, 0x5fffffffffffffff, 0xffffffffffffffff, 0xfffffffffffffffe],
    by decide +kernel⟩

/-- C86 is false for panics: `(3 * 2^253) / (2^253 + 1)` panics in every form, also in a build without any
checks. -/
theorem C86_uint_div_panic_false : ∃ a b : Limbs 64, a.length = 4 ∧ b.length = 4 ∧ memNat true b ≠ 0 ∧
    ∀ f ∈ [Raw.U.wrappingDiv ⟨false, false, false⟩ true, Raw.U.div ⟨false, false, false⟩ true,
      Raw.U.saturatingDiv ⟨false, false, false⟩ true, Raw.U.divCeil ⟨false, false, false⟩ true],
      f a b = .panic :=
  ⟨n3.reverse, d3.reverse, by decide +kernel⟩

/-- C86 is false for multiples: an exact multiple is not recognised, and `div_ceil` is one too large. -/
theorem C86_uint_multiple_false : ∃ a b m : Limbs 64, a.length = 4 ∧ b.length = 4 ∧ memNat true b ≠ 0 ∧
    memNat true a % memNat true b = 0 ∧ Raw.U.isMultipleOf ⟨true, true, false⟩ true a b = .ok false ∧
    Raw.U.divCeil ⟨true, true, false⟩ true a b = .ok m ∧
    memNat true m = memNat true a / memNat true b + 1 :=
  ⟨mult.reverse, d1.reverse, [0, 0, 0xffffffffffffffff, 0], by decide +kernel⟩

/-- C86 is false for division by zero: `0 / 0` is 1. -/
theorem C86_uint_div_zero_false : Raw.U.div ⟨false, true, false⟩ true zero zero =
      .ok ([0, 0, 0, 1] : Limbs 64) ∧
    Raw.I.div ⟨false, true, false⟩ true zero zero = .ok ([0, 0, 0, 1] : Limbs 64) ∧
    Raw.U.rem ⟨false, true, false⟩ true zero zero = .ok zero := by
  decide +kernel

/-! ### The hypotheses are met -/

section examples
variable (cf : Cfg) (be : Bool)

example := C86_uint_div (cf := cf) (a := n2) (b := d2) (be := false) Raw.fit4 (by decide) rfl rfl
  (by decide)
example := C86_uint_rem_partial (cf := cf) (a := n2) (b := d2) (be := false) Raw.fit4 (by decide) rfl rfl
  (by decide) rfl
example := C86_uint_div_rem_partial (cf := cf) (a := n3) (b := d3) (be := false) Raw.fit4 (by decide) rfl rfl
  (by decide) rfl
example := C86_uint_div_ceil_partial (cf := cf) (a := mult.reverse) (b := d1.reverse) (be := true) Raw.fit4
  (by decide) rfl rfl (by decide)
example := C86_uint_is_multiple_of_partial (cf := cf) (a := mult.reverse) (b := d1.reverse) (be := true)
  Raw.fit4 (by decide) rfl rfl
example := C86_uint_next_multiple_of_partial (cf := cf) (a := n2) (b := d2) (be := false) Raw.fit4 (by decide)
  rfl rfl (by decide) rfl
example := C86_uint_div_zero_partial (cf := cf) (a := one) (b := zero) (be := be) Raw.fit4 (by decide) rfl
  rfl (by cases be <;> decide)
example := C86_uint_div_zero_pairs_partial (cf := cf) (a := one) (b := zero) (be := be) Raw.fit4 (by decide)
  rfl rfl (by cases be <;> decide)
example := C86_int_div (cf := cf) (a := b32) (b := ones32) (be := be) (.inl rfl) Raw.fit8 (by decide) rfl rfl
  (by cases be <;> decide)
example := C86_int_rem_partial (cf := cf) (a := top) (b := ones) (be := false) (.inr rfl) Raw.fit4 (by decide)
  rfl rfl (by decide) rfl
example := C86_int_div_rem_partial (cf := cf) (a := n2) (b := d2) (be := false) (.inr rfl) Raw.fit4
  (by decide) rfl rfl (by decide) rfl
example := C86_int_div_euclid_partial (cf := cf) (a := mult1n) (b := e1) (be := false) (.inr rfl) Raw.fit4
  (by decide) rfl rfl (by decide) rfl
example := C86_int_rem_euclid_partial (cf := cf) (a := mult1n) (b := e1) (be := false) (.inr rfl) Raw.fit4
  (by decide) rfl rfl (by decide) rfl
example := C86_int_round_partial (cf := cf) (a := mult1n) (b := e1) (be := false) (.inr rfl) Raw.fit4
  (by decide) rfl rfl (by decide) (by decide)
example := C86_int_next_multiple_of_partial (cf := cf) (a := maxS) (b := m2) (be := false) (.inr rfl) Raw.fit4
  (by decide) rfl rfl (by decide) (by decide) rfl rfl
example := C86_int_next_multiple_of_neg_one (cf := cf) (a := top) (b := ones) (be := be) (.inr rfl) Raw.fit4
  (by decide) rfl rfl (by cases be <;> decide)
example := C86_int_div_zero_partial (cf := cf) (a := top) (b := zero) (be := be) (.inr rfl) Raw.fit4
  (by decide) rfl rfl (by decide) (by cases be <;> decide)
example := C86_int_div_zero_pairs_partial (cf := cf) (a := top) (b := zero) (be := be) (.inr rfl) Raw.fit4
  (by decide) rfl rfl (by cases be <;> decide)

end examples

example : Raw.U.div ⟨true, true, false⟩ true ([0, 0, 1, 0] : Limbs 64) [0, 0, 0, 3] =
      .ok [0, 0, 0, 0x5555555555555555] ∧
    Raw.U.overflowingRem ⟨true, true, false⟩ true ([0, 0, 1, 0] : Limbs 64) [0, 0, 0, 3] =
      .ok ([0, 0, 0, 1], false) ∧
    Raw.U.divCeil ⟨true, true, false⟩ true ([0, 0, 1, 0] : Limbs 64) [0, 0, 0, 3] =
      .ok [0, 0, 0, 0x5555555555555556] ∧
    Raw.U.checkedDivRem ⟨true, true, false⟩ true ([0, 0, 1, 0] : Limbs 64) zero = .ok none ∧
    Raw.U.nextMultipleOf ⟨true, true, false⟩ true ([0, 0, 0, 10] : Limbs 64) [0, 0, 0, 4] =
      .ok [0, 0, 0, 12] := by decide +kernel
example : Raw.I.saturatingDiv ⟨true, true, false⟩ true ([0x8000000000000000, 0, 0, 0] : Limbs 64) ones =
      .ok [0x7fffffffffffffff, 0xffffffffffffffff, 0xffffffffffffffff, 0xffffffffffffffff] ∧
    Raw.I.div ⟨true, true, false⟩ true ([0x8000000000000000, 0, 0, 0] : Limbs 64) ones = .panic ∧
    Raw.I.divFloor ⟨true, true, false⟩ true ones ([0, 0, 0, 2] : Limbs 64) = .ok ones ∧
    Raw.I.divCeil ⟨true, true, false⟩ true ones ([0, 0, 0, 2] : Limbs 64) = .ok zero ∧
    Raw.I.remEuclid ⟨true, true, false⟩ true ones ([0, 0, 0, 3] : Limbs 64) = .ok [0, 0, 0, 2] ∧
    Raw.I.nextMultipleOf ⟨true, true, false⟩ true ones ([0, 0, 0, 3] : Limbs 64) = .ok zero := by
  decide +kernel

end I256
