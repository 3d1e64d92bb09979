import Verif.Props.DivScalar
import Verif.Lemmas.DivMultAll

/-!
# Zero divisors (C15) and multiples (C34) for all operands

Together with Verif/Props/Div.lean and Verif/Props/DivSigned.lean: what every form of division does
when the divisor is zero, and what `next_multiple_of` returns when long division spoils the remainder.
-/

namespace I256

open Sample

variable {w : Nat} {x y : Limbs w}

/-! ### C15: all forms with a zero divisor -/

/-- C15, partial: what every unsigned form that is not checked or strict does with a zero divisor when
the build has no overflow checks: it panics if the numerator is not zero; `0 / 0` is `1` with
remainder `0`. -/
theorem C15_uint_div_zero_all_partial (hw : 0 < w) (hl : x.length = y.length) (h2 : 2 ≤ x.length)
    (he : x.length % 2 = 0) (hy : toNat y = 0) :
    (∀ f ∈ [U.wrappingDiv, U.wrappingDivEuclid, U.saturatingDiv, U.divFloor, U.divCeil, U.div false,
      U.divEuclid false], Yields (toNat x ≠ 0) (ExactU x.length 1) (f x y)) ∧
    (∀ f ∈ [U.wrappingRem, U.wrappingRemEuclid, U.rem false, U.remEuclid false],
      Yields (toNat x ≠ 0) (ExactU x.length 0) (f x y)) ∧
    (∀ f ∈ [U.wrappingDivRem, U.divRem false],
      Yields (toNat x ≠ 0) (fun p => ExactU x.length 1 p.1 ∧ ExactU x.length 0 p.2) (f x y)) ∧
    (∀ f ∈ [U.overflowingDiv, U.overflowingDivEuclid],
      Yields (toNat x ≠ 0) (fun p => ExactU x.length 1 p.1 ∧ p.2 = false) (f x y)) ∧
    (∀ f ∈ [U.overflowingRem, U.overflowingRemEuclid],
      Yields (toNat x ≠ 0) (fun p => ExactU x.length 0 p.1 ∧ p.2 = false) (f x y)) ∧
    Yields (toNat x ≠ 0) (fun p => (ExactU x.length 1 p.1.1 ∧ ExactU x.length 0 p.1.2) ∧ p.2 = false)
      (U.overflowingDivRem x y) ∧
    Yields (toNat x ≠ 0) (fun v => v = x) (U.nextMultipleOf false x y) ∧
    U.nextMultipleOf true x y = .panic := by
  have h : Yields (toNat x ≠ 0) (fun p => ExactU x.length 1 p.1 ∧ ExactU x.length 0 p.2)
      (U.wrappingDivRem x y) := by
    obtain ⟨h1, h0⟩ := Div.full_zero hw hl h2 hy
    obtain ⟨l1, v1⟩ := Div.scalar1_spec (N := x.length) (by omega) (1 : BitVec w)
    obtain ⟨l0, v0⟩ := Div.scalar1_spec (N := x.length) (by omega) (0 : BitVec w)
    refine ⟨h1, fun hx => ⟨_, h0 (by simpa using hx), ⟨l1, ?_⟩, ?_⟩⟩
    · rw [v1, BitVec.ofNat_eq_ofNat, BitVec.toNat_ofNat, Nat.mod_eq_of_lt (Nat.one_lt_two_pow (by omega))]
      rfl
    · simp only [← hl]
      exact ⟨l0, by rw [v0]; simp⟩
  have hd : Yields (toNat x ≠ 0) (ExactU x.length 1) (U.wrappingDiv x y) := h.map fun p hp => hp.1
  have hr : Yields (toNat x ≠ 0) (ExactU x.length 0) (U.wrappingRem x y) := h.map fun p hp => hp.2
  simp only [List.mem_cons, List.not_mem_nil, or_false, forall_eq_or_imp, forall_eq]
  refine ⟨⟨hd, hd, hd, hd, h.map ?_, hd, hd⟩, ⟨hr, hr, hr, hr⟩, ⟨h, h⟩,
    ⟨hd.map fun p hp => ⟨hp, rfl⟩, hd.map fun p hp => ⟨hp, rfl⟩⟩,
    ⟨hr.map fun p hp => ⟨hp, rfl⟩, hr.map fun p hp => ⟨hp, rfl⟩⟩, h.map fun p hp => ⟨hp, rfl⟩, ?_, ?_⟩
  · rintro ⟨q, r⟩ ⟨hq, hr⟩
    simp only at hq hr ⊢
    have : Ord.eqConst r (ofU8 r.length 0) = true := by
      rw [eqZero_iff (by rw [hr.1]; omega) (by rw [hr.1]; omega)]
      have := hr.2
      omega
    rw [this]
    exact hq
  · refine hr.bind ?_
    intro r hr
    rw [if_pos ((minU_iff hr.1).2 (by have := hr.2; omega))]
    exact ⟨x, rfl, rfl⟩
  · have : U.rem true x y = .panic := by
      rw [U.rem, U.checkedRem, isDivNoneU_zero (by omega) (by omega) hy]; rfl
    rw [U.nextMultipleOf, this, Res.bind_panic]

example := C15_uint_div_zero_all_partial (x := zero) (y := zero) (by decide) (by decide) (by decide)
  (by decide) (by decide)
example : U.overflowingDiv zero zero = .ok (one, false) ∧ U.nextMultipleOf false zero zero = .ok zero ∧
    U.nextMultipleOf false one zero = .panic := by decide +kernel

/-- C15, partial: the same for the signed types. -/
theorem C15_int_div_zero_all_partial (hw : 1 < w) (hl : x.length = y.length) (h2 : 2 ≤ x.length)
    (he : x.length % 2 = 0) (hy : toInt y = 0) :
    (∀ f ∈ [I.wrappingDiv, I.wrappingDivEuclid, I.saturatingDiv, I.divFloor, I.div false,
      I.divEuclid false], Yields (toInt x ≠ 0) (ExactS x.length 1) (f x y)) ∧
    (∀ f ∈ [I.wrappingRem, I.wrappingRemEuclid, I.rem false, I.remEuclid false],
      Yields (toInt x ≠ 0) (ExactS x.length 0) (f x y)) ∧
    (∀ f ∈ [I.wrappingDivRem, I.divRem false],
      Yields (toInt x ≠ 0) (fun p => ExactS x.length 1 p.1 ∧ ExactS x.length 0 p.2) (f x y)) ∧
    (∀ f ∈ [I.overflowingDiv, I.overflowingDivEuclid],
      Yields (toInt x ≠ 0) (fun p => ExactS x.length 1 p.1 ∧ p.2 = false) (f x y)) ∧
    (∀ f ∈ [I.overflowingRem, I.overflowingRemEuclid],
      Yields (toInt x ≠ 0) (fun p => ExactS x.length 0 p.1 ∧ p.2 = false) (f x y)) ∧
    Yields (toInt x ≠ 0) (fun p => (ExactS x.length 1 p.1.1 ∧ ExactS x.length 0 p.1.2) ∧ p.2 = false)
      (I.overflowingDivRem x y) := by
  obtain ⟨xl, xv⟩ := unsignedAbs_natAbs (by omega : 0 < w) h2 he
  obtain ⟨yl, yv⟩ := unsignedAbs_natAbs (x := y) (by omega : 0 < w) (by omega) (by omega)
  have hov : I.isDivOverflow x y = false := by
    rw [isDivOverflow_eq hw hl h2 he]; simp [hy]
  have hyn : I.isNegative y = false := by
    rw [isNegative_eq (by omega) (length_ne (n := 1) (by omega)), hy]; rfl
  have h : Yields (toInt x ≠ 0) (fun p => ExactS x.length 1 p.1 ∧ ExactS x.length 0 p.2)
      (I.wrappingDivRem x y) := by
    obtain ⟨h1, h0⟩ := Div.full_zero (by omega : 0 < w) (x := I.unsignedAbs x) (y := I.unsignedAbs y)
      (by omega) (by omega) (by rw [yv, hy]; rfl)
    obtain ⟨l1, v1⟩ := Div.scalar1_spec (N := x.length) (by omega) (1 : BitVec w)
    obtain ⟨l0, v0⟩ := Div.scalar1_spec (N := x.length) (by omega) (0 : BitVec w)
    refine ⟨fun hx => ?_, fun hx => ?_⟩
    · rw [I.wrappingDivRem, h1 (by omega)]; rfl
    · have hx' : toInt x = 0 := by simpa using hx
      have hxn : I.isNegative x = false := by
        rw [isNegative_eq (by omega) (length_ne (n := 1) (by omega)), hx']; rfl
      rw [I.wrappingDivRem, h0 (by omega), Res.map_ok]
      simp only [hxn, hyn, xl, yl, ← hl]
      refine ⟨_, rfl, ⟨l1, ?_⟩, l0, ?_⟩
      · have hb : 2 ≤ w * x.length := by nlinarith
        have h1 : 2 ^ 2 ≤ 2 ^ (w * x.length) := Nat.pow_le_pow_right (by omega) hb
        simp only [bne_self_eq_false, Bool.false_eq_true, if_false]
        rw [toInt, bits, l1, v1, BitVec.ofNat_eq_ofNat, BitVec.toNat_ofNat,
          Nat.mod_eq_of_lt (Nat.one_lt_two_pow (by omega))]
        rw [if_pos (by omega)]; rfl
      · simp only [Bool.false_eq_true, if_false]
        rw [toInt, v0]; simp
  have neg0 : ∀ r : Limbs w, ExactS x.length 0 r → I.isNegative r = false := by
    intro r hr
    rw [isNegative_eq (by omega) (length_ne (n := 1) (by rw [hr.1]; omega)), hr.2]; rfl
  have hd : Yields (toInt x ≠ 0) (ExactS x.length 1) (I.wrappingDiv x y) := h.map fun p hp => hp.1
  have hr : Yields (toInt x ≠ 0) (ExactS x.length 0) (I.wrappingRem x y) := h.map fun p hp => hp.2
  have hde : Yields (toInt x ≠ 0) (ExactS x.length 1) (I.wrappingDivEuclid x y) := by
    refine h.map ?_
    rintro ⟨q, r⟩ ⟨hq, hr⟩
    simp only [neg0 r hr]
    exact hq
  have hre : Yields (toInt x ≠ 0) (ExactS x.length 0) (I.wrappingRemEuclid x y) := by
    refine hr.map ?_
    intro r hr
    rw [neg0 r hr]
    exact hr
  have hod : Yields (toInt x ≠ 0) (fun p => ExactS x.length 1 p.1 ∧ p.2 = false)
      (I.overflowingDiv x y) := by
    rw [I.overflowingDiv, hov]
    exact hd.map fun p hp => ⟨hp, rfl⟩
  simp only [List.mem_cons, List.not_mem_nil, or_false, forall_eq_or_imp, forall_eq]
  refine ⟨⟨hd, hde, hod.map ?_, h.map ?_, hd, hde⟩, ⟨hr, hre, hr, hre⟩, ⟨h, h⟩, ⟨hod, ?_⟩, ⟨?_, ?_⟩, ?_⟩
  · rintro ⟨q, f⟩ ⟨hq, rfl⟩
    exact hq
  · rintro ⟨q, r⟩ ⟨hq, hr⟩
    simp only at hq hr ⊢
    have : Ord.eqConst r (ofU8 r.length 0) = true := by
      rw [eqZeroS (by rw [hr.1]; omega) (by rw [hr.1]; omega), hr.2]; rfl
    rw [this]
    exact hq
  · rw [I.overflowingDivEuclid, hov]
    exact hde.map fun p hp => ⟨hp, rfl⟩
  · rw [I.overflowingRem, hov]
    exact hr.map fun p hp => ⟨hp, rfl⟩
  · rw [I.overflowingRemEuclid, hov]
    exact hre.map fun p hp => ⟨hp, rfl⟩
  · rw [I.overflowingDivRem, hov]
    exact h.map fun p hp => ⟨hp, rfl⟩

example := C15_int_div_zero_all_partial (x := zero) (y := zero) (by decide) (by decide) (by decide)
  (by decide) (by decide)
example : I.overflowingDivEuclid zero zero = .ok (one, false) ∧
    I.overflowingRem top zero = .panic := by decide +kernel

/-- C15, partial: signed `div_ceil` and `next_multiple_of` with a zero divisor. -/
theorem C15_int_div_ceil_zero_partial {k : Nat} (hk : w = 2 ^ k) (hw : 1 < w)
    (hl : x.length = y.length) (h4 : 4 ≤ x.length) (he : x.length % 2 = 0)
    (h32 : w * x.length < 2 ^ 32) (hy : toInt y = 0) (oc : Bool) :
    Yields (toInt x ≠ 0) (ExactS x.length 1) (I.divCeil oc x y) ∧
    Yields (toInt x ≠ 0) (fun v => v = x) (I.nextMultipleOf false x y) ∧
    I.nextMultipleOf true x y = .panic := by
  obtain ⟨-, ⟨hr, -⟩, ⟨h, -⟩, -⟩ : _ ∧ (Yields (toInt x ≠ 0) (ExactS x.length 0) (I.wrappingRem x y) ∧ _) ∧
      (Yields (toInt x ≠ 0) (fun p => ExactS x.length 1 p.1 ∧ ExactS x.length 0 p.2)
        (I.wrappingDivRem x y) ∧ _) ∧ _ := by
    have := C15_int_div_zero_all_partial hw hl (by omega) he hy
    simpa only [List.mem_cons, List.not_mem_nil, or_false, forall_eq_or_imp, forall_eq] using this
  refine ⟨?_, ?_, ?_⟩
  · refine h.bind ?_
    rintro ⟨q, r⟩ ⟨hq, hr⟩
    obtain ⟨s, c, es, ec, hc⟩ := ceilCorrection hk hw hl (by omega) he h32 oc
    simp only at hq hr ⊢
    rw [es, Res.bind_ok, ec, Res.map_ok]
    refine ⟨_, rfl, ?_⟩
    have : Ord.eqConst r (ofU8 r.length 0) = true := by
      rw [eqZeroS (by rw [hr.1]; omega) (by rw [hr.1]; omega), hr.2]; rfl
    rw [this]
    exact hq
  · have hz := ofU8S (w := w) (N := x.length) (v := 0) (by omega) (by omega) (by positivity)
    rw [I.nextMultipleOf, eqNegOne hw (by omega) (by omega), hy]
    refine hr.bind ?_
    intro r hr
    obtain ⟨m, em, hm⟩ := adjust_all hw hr.1 hl.symm (by omega) false
        ((Ord.gt true r (ofU8 x.length 0) && Ord.lt true y (ofU8 x.length 0)) ||
          (Ord.lt true r (ofU8 x.length 0) && Ord.gt true y (ofU8 x.length 0))) (by
        have g2 := Ord.le_iff (by omega : 0 < w) true (x := y) (hl.symm.trans hz.1.symm) (by omega)
          (by omega)
        have g4 := Ord.lt_iff (by omega : 0 < w) true (x := y) (hl.symm.trans hz.1.symm) (by omega)
          (by omega)
        simp only [Ord.val, if_true, hz.2, Nat.cast_zero] at g2 g4
        rw [Bool.or_eq_true, Bool.and_eq_true, Bool.and_eq_true, g4, Ord.gt, Ord.gt,
          Bool.not_eq_true', Bool.not_eq_true', ← Bool.not_eq_true, ← Bool.not_eq_true, g2, hr.2, hy]
        omega)
    rw [hr.2, hy, if_neg (by omega)] at hm
    rw [em, Res.bind_ok]
    have hmz : Ord.eqConst m (ofU8 x.length 0) = true := by
      rw [← hm.1, eqZeroS (by rw [hm.1]; omega) (by rw [hm.1]; omega), hm.2]; rfl
    rw [if_pos hmz]
    exact ⟨x, rfl, rfl⟩
  · rw [I.nextMultipleOf, eqNegOne hw (by omega) (by omega), hy]
    have : I.rem true x y = .panic := by
      rw [I.rem, I.checkedRem, opS_eq hw hl (by omega) he, if_pos ⟨rfl, .inl hy⟩]
    rw [this]
    rfl

example := C15_int_div_ceil_zero_partial (x := top) (y := zero) (k := 6) rfl (by decide) (by decide)
  (by decide) (by decide) (by decide) (by decide) true
example : I.divCeil true zero zero = .ok one ∧ I.nextMultipleOf false zero zero = .ok zero := by
  decide +kernel

/-! ### C34: `next_multiple_of` for all operands -/

/-- C34, partial: what `next_multiple_of` and `checked_next_multiple_of` return for every non-zero
divisor, in terms of the remainder `R` that long division delivers.  It is the least multiple of `y`
that is at least `x` if `R` is the true remainder (`C34_uint_next_multiple_of_partial`). -/
theorem C34_uint_next_multiple_of_all_partial (hw : 0 < w) (hl : x.length = y.length)
    (h2 : 2 ≤ x.length) (he : x.length % 2 = 0) (hy : toNat y ≠ 0) {R : Nat}
    (hR : R = toNat x % toNat y + strayRem w x.length (toNat x) (toNat y)) (oc : Bool) :
    Yields (DivPanics w x.length (toNat x) (toNat y))
      (CheckU x.length (if R = 0 then toNat x else toNat x + ((toNat y : Int) - R) % 2 ^ (w * x.length)))
      (U.checkedNextMultipleOf x y) ∧
    Yields (DivPanics w x.length (toNat x) (toNat y) ∨
        oc = true ∧ R ≠ 0 ∧ (toNat y < R ∨ 2 ^ (w * x.length) ≤ toNat x + (toNat y - R)))
      (WrapU x.length (if R = 0 then toNat x else (toNat x : Int) + toNat y - R))
      (U.nextMultipleOf oc x y) :=
  ⟨checkedNextMultipleOfU_all hw hl h2 he hy hR, nextMultipleOfU_all hw hl h2 he hy hR oc⟩

example := C34_uint_next_multiple_of_all_partial (x := n2) (y := d2) (by decide) (by decide) (by decide)
  (by decide) (by decide) rfl true
/-- With a spoilt remainder the result wraps to less than `x`, or panics. -/
example : U.nextMultipleOf false n2 d2 = .ok [3, 0, 0x2000000000000000, 0] ∧
    U.nextMultipleOf true n2 d2 = .panic ∧ U.checkedNextMultipleOf n2 d2 = .ok none := by decide +kernel

/-- C34, partial: what the signed functions return for every divisor other than 0 and -1: `R` is the
remainder that long division delivers, `M` the same with the sign of `y`. -/
theorem C34_int_next_multiple_of_all_partial (hw : 1 < w) (hl : x.length = y.length)
    (h4 : 4 ≤ x.length) (he : x.length % 2 = 0) (hy : toInt y ≠ 0) (h1 : toInt y ≠ -1) {R M : Int}
    (hR : R = (toInt x).tmod (toInt y) + (toInt x).sign *
      strayRem w x.length (toInt x).natAbs (toInt y).natAbs)
    (hM : M = if (0 < R ∧ toInt y < 0) ∨ (R < 0 ∧ 0 < toInt y) then R + toInt y else R) (oc : Bool) :
    Yields (DivPanics w x.length (toInt x).natAbs (toInt y).natAbs ∨
        oc = true ∧ M ≠ 0 ∧ ¬ InS (w * x.length) (toInt y - M))
      (CheckS x.length (if M = 0 then toInt x else
        toInt x + Int.bmod (toInt y - M) (2 ^ (w * x.length))))
      (I.checkedNextMultipleOf oc x y) ∧
    Yields (DivPanics w x.length (toInt x).natAbs (toInt y).natAbs ∨
        oc = true ∧ M ≠ 0 ∧ (¬ InS (w * x.length) (toInt y - M) ∨
          ¬ InS (w * x.length) (toInt x + (toInt y - M))))
      (WrapS x.length (if M = 0 then toInt x else toInt x + (toInt y - M)))
      (I.nextMultipleOf oc x y) :=
  ⟨checkedNextMultipleOfS_all hw hl (by omega) he hy h1 hR hM oc,
    nextMultipleOfS_all hw hl h4 he hy h1 hR hM oc⟩

example := C34_int_next_multiple_of_all_partial (x := n2) (y := d2) (by decide) (by decide) (by decide)
  (by decide) (by decide) (by decide) rfl rfl true
/-- A negative exact multiple is not recognised. -/
example : I.nextMultipleOf true mult1n e1 ≠ .ok mult1n ∧
    (toInt mult1n).tmod (toInt e1) = 0 := by decide +kernel

end I256
