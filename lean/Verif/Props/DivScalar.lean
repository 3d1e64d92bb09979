import Verif.Props.DivSigned

/-!
# Division by scalars, remaining forms: C16, C51

The quotient-only and remainder-only forms of division by a limb or a double limb, the operator forms
with and without overflow checks, and all forms for a zero divisor.
-/

namespace I256

open Sample

variable {w : Nat} {x y : Limbs w}

/-! ### C16: zero divisors, unsigned -/

/-- C16: every form of unsigned division by a zero limb: `None` from the checked forms, a panic from
the others. -/
theorem C16_uint_div_ulimb_zero_forms (hx : x ≠ []) (oc : Bool) :
    (∀ f ∈ [U.divULimb oc, U.wrappingDivULimb], f x 0 = .panic) ∧
    (∀ f ∈ [U.remULimb oc, U.wrappingRemULimb], f x 0 = .panic) ∧
    U.overflowingDivRemULimb x 0 = .panic ∧ U.overflowingDivULimb x 0 = .panic ∧
    U.overflowingRemULimb x 0 = .panic := by
  have h : U.wrappingDivRemULimb x 0 = .panic := Div.limb_zero hx
  have hc : U.checkedDivRemULimb x 0 = .ok none := rfl
  have ho : U.divRemULimb oc x 0 = .panic := by rw [U.divRemULimb, h, hc]; cases oc <;> rfl
  have hv : U.overflowingDivRemULimb x 0 = .panic := by rw [U.overflowingDivRemULimb, h]; rfl
  refine ⟨?_, ?_, hv, ?_, ?_⟩
  · simp only [List.mem_cons, List.not_mem_nil, or_false, forall_eq_or_imp, forall_eq]
    exact ⟨by rw [U.divULimb, ho]; rfl, by rw [U.wrappingDivULimb, h]; rfl⟩
  · simp only [List.mem_cons, List.not_mem_nil, or_false, forall_eq_or_imp, forall_eq]
    exact ⟨by rw [U.remULimb, ho]; rfl, by rw [U.wrappingRemULimb, h]; rfl⟩
  · rw [U.overflowingDivULimb, hv]; rfl
  · rw [U.overflowingRemULimb, hv]; rfl

example := C16_uint_div_ulimb_zero_forms (x := zero) (by decide) false

/-- C16: every form of unsigned division by a zero double limb: `None` from the checked forms; the
others panic, except that without overflow checks `0 / 0` is `0`. -/
theorem C16_uint_div_uwide_zero_forms (hw : 0 < w) (h2 : 2 ≤ x.length) :
    U.checkedDivRemUWide x 0 = .ok none ∧ U.checkedDivUWide x 0 = .ok none ∧
    U.checkedRemUWide x 0 = .ok none ∧
    U.divRemUWide true x 0 = .panic ∧ U.divUWide true x 0 = .panic ∧ U.remUWide true x 0 = .panic ∧
    (∀ f ∈ [U.divRemUWide false, U.wrappingDivRemUWide],
      Yields (toNat x ≠ 0) (fun p => ExactU x.length 0 p.1 ∧ p.2 = 0) (f x 0)) ∧
    (∀ f ∈ [U.divUWide false, U.wrappingDivUWide], Yields (toNat x ≠ 0) (ExactU x.length 0) (f x 0)) ∧
    (∀ f ∈ [U.remUWide false, U.wrappingRemUWide], Yields (toNat x ≠ 0) (fun r => r = 0) (f x 0)) ∧
    Yields (toNat x ≠ 0) (fun p => (ExactU x.length 0 p.1.1 ∧ p.1.2 = 0) ∧ p.2 = false)
      (U.overflowingDivRemUWide x 0) ∧
    Yields (toNat x ≠ 0) (fun p => ExactU x.length 0 p.1 ∧ p.2 = false) (U.overflowingDivUWide x 0) ∧
    Yields (toNat x ≠ 0) (fun p => p.1 = 0 ∧ p.2 = false) (U.overflowingRemUWide x 0) := by
  have h : Yields (toNat x ≠ 0) (fun p => ExactU x.length 0 p.1 ∧ p.2 = 0)
      (U.wrappingDivRemUWide x 0) := by
    obtain ⟨h1, h0⟩ := Div.wideDiv_zero hw h2
    obtain ⟨l, v⟩ := Div.scalar1_spec (N := x.length) (by omega) (0 : BitVec w)
    exact ⟨h1, fun hx => ⟨_, h0 (by simpa using hx), ⟨l, by rw [v]; simp⟩, rfl⟩⟩
  have ho : Yields (toNat x ≠ 0) (fun p => (ExactU x.length 0 p.1.1 ∧ p.1.2 = 0) ∧ p.2 = false)
      (U.overflowingDivRemUWide x 0) := h.map fun p hp => ⟨hp, rfl⟩
  refine ⟨rfl, rfl, rfl, rfl, rfl, rfl, ?_, ?_, ?_, ho, ?_, ?_⟩
  · simp only [List.mem_cons, List.not_mem_nil, or_false, forall_eq_or_imp, forall_eq]
    exact ⟨h, h⟩
  · simp only [List.mem_cons, List.not_mem_nil, or_false, forall_eq_or_imp, forall_eq]
    exact ⟨h.map fun p hp => hp.1, h.map fun p hp => hp.1⟩
  · simp only [List.mem_cons, List.not_mem_nil, or_false, forall_eq_or_imp, forall_eq]
    exact ⟨h.map fun p hp => hp.2, h.map fun p hp => hp.2⟩
  · exact ho.map fun p hp => ⟨hp.1.1, hp.2⟩
  · exact ho.map fun p hp => ⟨hp.1.2, hp.2⟩

example := C16_uint_div_uwide_zero_forms (x := a) (by decide) (by decide)
/-- The witness that zero divisors are not always rejected: `0 / 0`. -/
example : U.wrappingDivUWide zero 0 = .ok zero ∧ U.divUWide false a 0 = .panic := by decide +kernel

/-! ### C51: remaining forms -/

/-- C51: the remaining forms for an unsigned double limb. -/
theorem C51_int_div_uwide_forms (hw : 1 < w) (h2 : 2 ≤ x.length) (he : x.length % 2 = 0)
    {n : BitVec (w + w)} (hn : n ≠ 0) (oc : Bool) :
    Yields (DivPanics w 2 (toInt x).natAbs n.toNat)
      (fun o => ∃ q, o = some q ∧ ExactS x.length (toInt x / n.toNat) q) (I.checkedDivUWide oc x n) ∧
    Yields (DivPanics w 2 (toInt x).natAbs n.toNat)
      (fun o => ∃ r, o = some r ∧ (r.toNat : Int) = toInt x % n.toNat) (I.checkedRemUWide oc x n) ∧
    Yields (DivPanics w 2 (toInt x).natAbs n.toNat)
      (fun p => ExactS x.length (toInt x / n.toNat) p.1 ∧ p.2 = false) (I.overflowingDivUWide oc x n) ∧
    Yields (DivPanics w 2 (toInt x).natAbs n.toNat)
      (fun p => (p.1.toNat : Int) = toInt x % n.toNat ∧ p.2 = false)
      (I.overflowingRemUWide oc x n) := by
  obtain ⟨-, hc, ho, -, -⟩ := C51_int_div_uwide hw h2 he hn oc
  refine ⟨hc.map ?_, hc.map ?_, ho.map fun p hp => ⟨hp.2.1, hp.1⟩, ho.map fun p hp => ⟨hp.2.2, hp.1⟩⟩
  · rintro _ ⟨p, rfl, hq, hr⟩
    exact ⟨_, rfl, hq⟩
  · rintro _ ⟨p, rfl, hq, hr⟩
    exact ⟨_, rfl, hr⟩

example := C51_int_div_uwide_forms (x := top) (by decide) (by decide) (by decide)
  (n := (0x2000000000000000#64 ++ 1#64)) (by decide) true
example : I.checkedDivUWide true ([-7, -1, -1, -1] : Limbs 64) (1#64 ++ 0#64) =
      .ok (some [-1, -1, -1, -1]) ∧
    I.overflowingRemUWide false ([-7, -1, -1, -1] : Limbs 64) (1#64 ++ 0#64) =
      .ok ((0#64 ++ (-7 : BitVec 64)), false) := by decide +kernel

/-- C51: the operator forms for a signed limb: the truncated quotient modulo `2^BITS`, or a panic
exactly on `MIN / -1` in a build with overflow checks. -/
theorem C51_int_div_ilimb_ops (hw : 1 < w) (h2 : 2 ≤ x.length) (he : x.length % 2 = 0) {n : BitVec w}
    (hn : n ≠ 0) (oc : Bool) :
    Yields (oc = true ∧ ¬ InS (w * x.length) ((toInt x).tdiv n.toInt))
      (fun p => WrapS x.length ((toInt x).tdiv n.toInt) p.1 ∧ p.2.toInt = (toInt x).tmod n.toInt)
      (I.divRemILimb oc x n) ∧
    OpS oc x.length ((toInt x).tdiv n.toInt) (I.divILimb oc x n) ∧
    Yields (oc = true ∧ ¬ InS (w * x.length) ((toInt x).tdiv n.toInt))
      (fun r => r.toInt = (toInt x).tmod n.toInt) (I.remILimb oc x n) := by
  obtain ⟨⟨q, r, e, -, -, hq, hr⟩, q', r', f, -, -, -, -, -, -, et, ho, hr'⟩ :=
    C51_int_div_ilimb hw h2 he hn
  have h : Yields (oc = true ∧ ¬ InS (w * x.length) ((toInt x).tdiv n.toInt))
      (fun p => WrapS x.length ((toInt x).tdiv n.toInt) p.1 ∧ p.2.toInt = (toInt x).tmod n.toInt)
      (I.divRemILimb oc x n) := by
    cases oc
    · refine ⟨fun h => absurd h.1 (by simp), fun _ => ⟨_, e, hq, hr⟩⟩
    · rw [et]
      refine ⟨fun h => ?_, fun h => ?_⟩
      · rw [if_pos (ho.2.2 h.2)]
      · have : f = false := by
          cases f
          · rfl
          · exact absurd ⟨rfl, ho.2.1 rfl⟩ h
        subst this
        exact ⟨_, rfl, ho.1, hr'⟩
  refine ⟨h, ?_, h.map fun p hp => hp.2⟩
  have hd : Yields (oc = true ∧ ¬ InS (w * x.length) ((toInt x).tdiv n.toInt))
      (WrapS x.length ((toInt x).tdiv n.toInt)) (I.divILimb oc x n) := h.map fun p hp => hp.1
  cases oc
  · exact hd.2 (by simp)
  · refine ⟨fun hz => ?_, fun hz => hd.1 ⟨rfl, hz⟩⟩
    obtain ⟨v, e, hv⟩ := hd.2 fun h => h.2 hz
    exact ⟨v, e, hv.exact hz⟩

example := C51_int_div_ilimb_ops (x := top) (by decide) (by decide) (by decide) (n := (-3 : BitVec 64))
  (by decide) true
example : I.divRemILimb true top (-1) = .panic ∧ I.divILimb false top (-1) = .ok top ∧
    I.remILimb true ([-7, -1, -1, -1] : Limbs 64) 2 = .ok (-1) := by decide +kernel

/-- C51: the remaining forms for a signed double limb. -/
theorem C51_int_div_iwide_forms (hw : 1 < w) (h2 : 2 ≤ x.length) (he : x.length % 2 = 0)
    {n : BitVec (w + w)} (hn : n ≠ 0) :
    Yields (DivPanics w 2 (toInt x).natAbs n.toInt.natAbs)
      (WrapS x.length ((toInt x).tdiv n.toInt)) (I.wrappingDivIWide x n) ∧
    Yields (DivPanics w 2 (toInt x).natAbs n.toInt.natAbs)
      (fun r => r.toInt = (toInt x).tmod n.toInt) (I.wrappingRemIWide x n) ∧
    Yields (DivPanics w 2 (toInt x).natAbs n.toInt.natAbs)
      (OverS x.length ((toInt x).tdiv n.toInt)) (I.overflowingDivIWide x n) ∧
    Yields (DivPanics w 2 (toInt x).natAbs n.toInt.natAbs)
      (fun p => p.1.toInt = (toInt x).tmod n.toInt ∧
        (p.2 = true ↔ ¬ InS (w * x.length) ((toInt x).tdiv n.toInt))) (I.overflowingRemIWide x n) ∧
    Yields (DivPanics w 2 (toInt x).natAbs n.toInt.natAbs)
      (CheckS x.length ((toInt x).tdiv n.toInt)) (I.checkedDivIWide x n) ∧
    Yields (DivPanics w 2 (toInt x).natAbs n.toInt.natAbs)
      (fun o => (o = none ↔ ¬ InS (w * x.length) ((toInt x).tdiv n.toInt)) ∧
        ∀ r, o = some r → r.toInt = (toInt x).tmod n.toInt) (I.checkedRemIWide x n) := by
  obtain ⟨h, ho, hc⟩ := C51_int_div_iwide hw h2 he hn
  refine ⟨h.map fun p hp => hp.1, h.map fun p hp => hp.2, ho.map fun p hp => hp.1,
    ho.map fun p hp => ⟨hp.2, hp.1.2⟩, hc.map fun o ho => ho.1, hc.map ?_⟩
  rintro o ⟨⟨h1, h2⟩, hr⟩
  refine ⟨⟨fun e hz => ?_, fun hz => ?_⟩, fun r e => ?_⟩
  · obtain ⟨v, e', -⟩ := h1 hz
    cases o
    · simp at e'
    · simp at e
  · have := h2 hz
    cases o
    · rfl
    · simp at this
  · cases o with
    | none => simp at e
    | some p =>
      have : p.2 = r := by simpa using e
      exact this ▸ hr p rfl

example := C51_int_div_iwide_forms (x := top) (by decide) (by decide) (by decide)
  (n := ((-3 : BitVec 64) ++ 5#64)) (by decide)
example : I.checkedDivIWide top (-1) = .ok none ∧ I.overflowingRemIWide top (-1) = .ok (0, true) ∧
    I.wrappingDivIWide top (-1) = .ok top ∧
    I.wrappingRemIWide ([-7, -1, -1, -1] : Limbs 64) 2 = .ok (-1) := by decide +kernel

/-- C51: the operator forms for a signed double limb panic when long division on two limbs has to
correct an estimate, and on `MIN / -1` in a build with overflow checks. -/
theorem C51_int_div_iwide_ops (hw : 1 < w) (h2 : 2 ≤ x.length) (he : x.length % 2 = 0)
    {n : BitVec (w + w)} (hn : n ≠ 0) (oc : Bool) :
    Yields (DivPanics w 2 (toInt x).natAbs n.toInt.natAbs ∨
        oc = true ∧ ¬ InS (w * x.length) ((toInt x).tdiv n.toInt))
      (fun p => WrapS x.length ((toInt x).tdiv n.toInt) p.1 ∧ p.2.toInt = (toInt x).tmod n.toInt)
      (I.divRemIWide oc x n) ∧
    Yields (DivPanics w 2 (toInt x).natAbs n.toInt.natAbs ∨
        oc = true ∧ ¬ InS (w * x.length) ((toInt x).tdiv n.toInt))
      (WrapS x.length ((toInt x).tdiv n.toInt)) (I.divIWide oc x n) ∧
    Yields (DivPanics w 2 (toInt x).natAbs n.toInt.natAbs ∨
        oc = true ∧ ¬ InS (w * x.length) ((toInt x).tdiv n.toInt))
      (fun r => r.toInt = (toInt x).tmod n.toInt) (I.remIWide oc x n) := by
  obtain ⟨h, -, hc⟩ := C51_int_div_iwide hw h2 he hn
  have h' : Yields (DivPanics w 2 (toInt x).natAbs n.toInt.natAbs ∨
        oc = true ∧ ¬ InS (w * x.length) ((toInt x).tdiv n.toInt))
      (fun p => WrapS x.length ((toInt x).tdiv n.toInt) p.1 ∧ p.2.toInt = (toInt x).tmod n.toInt)
      (I.divRemIWide oc x n) := by
    cases oc
    · exact h.congr (by simp)
    · have e : I.divRemIWide true x n = (I.checkedDivRemIWide x n).bind unwrapOrPanic := rfl
      rw [e]
      by_cases hp : DivPanics w 2 (toInt x).natAbs n.toInt.natAbs
      · rw [hc.1 hp]
        exact ⟨fun _ => rfl, fun hn => absurd (.inl hp) hn⟩
      · obtain ⟨o, eo, ⟨h1, h2⟩, hr⟩ := hc.2 hp
        rw [eo, Res.bind_ok]
        by_cases hz : InS (w * x.length) ((toInt x).tdiv n.toInt)
        · obtain ⟨v, ev, hv⟩ := h1 hz
          cases o with
          | none => simp at ev
          | some p =>
            refine Yields.ok (by simp [hp, hz]) ⟨?_, hr p rfl⟩
            have : p.1 = v := by simpa using ev
            exact this ▸ hv.wrap
        · have := h2 hz
          cases o with
          | none => exact ⟨fun _ => rfl, fun hn => absurd (.inr ⟨rfl, hz⟩) hn⟩
          | some p => simp at this
  exact ⟨h', h'.map fun p hp => hp.1, h'.map fun p hp => hp.2⟩

example := C51_int_div_iwide_ops (x := top) (by decide) (by decide) (by decide)
  (n := ((-3 : BitVec 64) ++ 5#64)) (by decide) true
example : I.divRemIWide true top (-1) = .panic ∧ I.divIWide false top (-1) = .ok top ∧
    I.remIWide true ([-7, -1, -1, -1] : Limbs 64) 2 = .ok (-1) := by decide +kernel

/-- C51: the remaining forms for zero divisors: `None` from the checked forms; a zero limb panics
everywhere else, a zero double limb unless the numerator is zero too. -/
theorem C51_int_div_zero_forms (hw : 1 < w) (h2 : 2 ≤ x.length) (he : x.length % 2 = 0) (oc : Bool) :
    I.checkedDivULimb oc x 0 = .ok none ∧ I.checkedRemULimb oc x 0 = .ok none ∧
    I.checkedDivUWide oc x 0 = .ok none ∧ I.checkedRemUWide oc x 0 = .ok none ∧
    I.checkedDivILimb x 0 = .ok none ∧ I.checkedRemILimb x 0 = .ok none ∧
    I.checkedDivIWide x 0 = .ok none ∧ I.checkedRemIWide x 0 = .ok none ∧
    (∀ f ∈ [I.divULimb oc, I.wrappingDivULimb oc, I.divILimb oc, I.wrappingDivILimb],
      f x 0 = .panic) ∧
    (∀ f ∈ [I.remULimb oc, I.wrappingRemULimb oc, I.remILimb oc, I.wrappingRemILimb],
      f x 0 = .panic) ∧
    (∀ f ∈ [I.overflowingDivULimb oc, I.overflowingDivILimb], f x 0 = .panic) ∧
    (∀ f ∈ [I.overflowingRemULimb oc, I.overflowingRemILimb], f x 0 = .panic) ∧
    (∀ f ∈ [I.divUWide true, I.divIWide true], f x 0 = .panic) ∧
    (∀ f ∈ [I.remUWide true, I.remIWide true], f x 0 = .panic) ∧
    (∀ f ∈ [I.divUWide false, I.wrappingDivUWide oc, I.divIWide false, I.wrappingDivIWide],
      Yields (toInt x ≠ 0) (ExactS x.length 0) (f x 0)) ∧
    (∀ f ∈ [I.remUWide false, I.wrappingRemUWide oc, I.remIWide false, I.wrappingRemIWide],
      Yields (toInt x ≠ 0) (fun r => r = 0) (f x 0)) ∧
    (∀ f ∈ [I.overflowingDivUWide oc, I.overflowingDivIWide],
      Yields (toInt x ≠ 0) (fun p => ExactS x.length 0 p.1 ∧ p.2 = false) (f x 0)) ∧
    (∀ f ∈ [I.overflowingRemUWide oc, I.overflowingRemIWide],
      Yields (toInt x ≠ 0) (fun p => p.1 = 0 ∧ p.2 = false) (f x 0)) := by
  obtain ⟨-, -, -, -, -, -, -, -, hu, hi, hx⟩ := C51_int_div_scalar_zero hw h2 he oc
  obtain ⟨xl, xv⟩ := unsignedAbs_natAbs (by omega : 0 < w) h2 he
  obtain ⟨l, v⟩ := Div.scalar1_spec (N := x.length) (by omega) (0 : BitVec w)
  have hq : ExactS x.length 0 (Div.scalar1 x.length (0 : BitVec w)) := ⟨l, by rw [toInt, v]; simp⟩
  have p0 : I.primAbs (0 : BitVec (w + w)) = 0 := by simp [I.primAbs]
  have hsl : (0 : BitVec (w + w)).slt 0 = false := by simp [BitVec.slt]
  have ha : ∀ m, 0 < m → ((0 : BitVec m) == BitVec.allOnes m) = false := by
    intro m hm
    simp only [beq_eq_false_iff_ne, ne_eq]
    intro h
    have := congrArg BitVec.toNat h
    have h1 : 2 ^ 1 ≤ 2 ^ m := Nat.pow_le_pow_right (by omega) hm
    simp at this
    omega
  have hd : toInt x = 0 → Div.wideDiv (I.unsignedAbs x) 0 = .ok (Div.scalar1 x.length 0, 0) := by
    intro h
    rw [(Div.wideDiv_zero (by omega : 0 < w) (x := I.unsignedAbs x) (by omega)).2 (by omega), xl]
  have hneg : toInt x = 0 → I.isNegative x = false := by
    intro h
    rw [isNegative_eq (by omega) (length_ne (n := 1) (by omega)), h]
    rfl
  have yu : ∀ oc, Yields (toInt x ≠ 0) (fun p => ExactS x.length 0 p.1 ∧ p.2 = 0)
      (I.wrappingDivRemUWide oc x 0) := by
    intro oc
    obtain ⟨-, -, -, -, -, -, -, -, -, -, hx⟩ := C51_int_div_scalar_zero hw h2 he oc
    refine ⟨fun h => (hx h).1, fun h => ?_⟩
    have h' : toInt x = 0 := by simpa using h
    rw [I.wrappingDivRemUWide, hd h', I.divRemUnsigned, Res.bind_ok]
    simp only [hneg h', Bool.false_and, Bool.false_eq_true, if_false]
    exact ⟨_, rfl, hq, rfl⟩
  have yi : Yields (toInt x ≠ 0) (fun p => ExactS x.length 0 p.1 ∧ p.2 = 0)
      (I.wrappingDivRemIWide x 0) := by
    refine ⟨fun h => (hx h).2, fun h => ?_⟩
    have h' : toInt x = 0 := by simpa using h
    rw [I.wrappingDivRemIWide, p0, hd h', I.divRemSigned, Res.map_ok]
    simp only [hneg h', hsl]
    exact ⟨_, rfl, hq, rfl⟩
  have you : Yields (toInt x ≠ 0) (fun p => (ExactS x.length 0 p.1.1 ∧ p.1.2 = 0) ∧ p.2 = false)
      (I.overflowingDivRemUWide oc x 0) := (yu oc).map fun p hp => ⟨hp, rfl⟩
  have yoi : Yields (toInt x ≠ 0) (fun p => (ExactS x.length 0 p.1.1 ∧ p.1.2 = 0) ∧ p.2 = false)
      (I.overflowingDivRemIWide x 0) := by
    rw [I.overflowingDivRemIWide, I.overflowingDivRemSigned, ha _ (by omega), Bool.and_false,
      if_neg (by simp)]
    exact yi.map fun p hp => ⟨hp, rfl⟩
  have ou : I.overflowingDivRemULimb oc x 0 = .panic := by rw [I.overflowingDivRemULimb, hu]; rfl
  have oi : I.overflowingDivRemILimb x 0 = .panic := by
    rw [I.overflowingDivRemILimb, I.overflowingDivRemSigned, ha _ (by omega), Bool.and_false,
      if_neg (by simp), hi]
    rfl
  have pu : I.divRemULimb oc x 0 = .panic := by rw [I.divRemULimb, hu]; cases oc <;> rfl
  have pi : I.divRemILimb oc x 0 = .panic := by rw [I.divRemILimb, hi]; cases oc <;> rfl
  simp only [List.mem_cons, List.not_mem_nil, or_false, forall_eq_or_imp, forall_eq]
  refine ⟨rfl, rfl, rfl, rfl, rfl, rfl, rfl, rfl, ⟨?_, ?_, ?_, ?_⟩, ⟨?_, ?_, ?_, ?_⟩, ⟨?_, ?_⟩,
    ⟨?_, ?_⟩, ⟨rfl, rfl⟩, ⟨rfl, rfl⟩, ⟨?_, ?_, ?_, ?_⟩, ⟨?_, ?_, ?_, ?_⟩, ⟨?_, ?_⟩, ⟨?_, ?_⟩⟩
  · rw [I.divULimb, pu]; rfl
  · rw [I.wrappingDivULimb, hu]; rfl
  · rw [I.divILimb, pi]; rfl
  · rw [I.wrappingDivILimb, hi]; rfl
  · rw [I.remULimb, pu]; rfl
  · rw [I.wrappingRemULimb, hu]; rfl
  · rw [I.remILimb, pi]; rfl
  · rw [I.wrappingRemILimb, hi]; rfl
  · rw [I.overflowingDivULimb, ou]; rfl
  · rw [I.overflowingDivILimb, oi]; rfl
  · rw [I.overflowingRemULimb, ou]; rfl
  · rw [I.overflowingRemILimb, oi]; rfl
  · exact (yu false).map fun p hp => hp.1
  · exact (yu oc).map fun p hp => hp.1
  · exact yi.map fun p hp => hp.1
  · exact yi.map fun p hp => hp.1
  · exact (yu false).map fun p hp => hp.2
  · exact (yu oc).map fun p hp => hp.2
  · exact yi.map fun p hp => hp.2
  · exact yi.map fun p hp => hp.2
  · exact you.map fun p hp => ⟨hp.1.1, hp.2⟩
  · exact yoi.map fun p hp => ⟨hp.1.1, hp.2⟩
  · exact you.map fun p hp => ⟨hp.1.2, hp.2⟩
  · exact yoi.map fun p hp => ⟨hp.1.2, hp.2⟩

example := C51_int_div_zero_forms (x := top) (by decide) (by decide) (by decide) true
example : I.wrappingDivIWide zero 0 = .ok zero ∧ I.divUWide false top 0 = .panic ∧
    I.overflowingRemIWide zero 0 = .ok (0, false) := by decide +kernel

end I256
