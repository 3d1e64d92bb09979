import Verif.Props.LimbSizeDiv
import Verif.Props.LimbSizeBits
import Verif.Props.ShiftAll
import Verif.Props.FixedStray
import Verif.Props.Ilog
import Verif.Props.Sci
import Verif.Props.Glue

/-!
# Limb size independence (C40): the remaining operations

`x`, `y` are operands in one build and `x'`, `y'` the same operands in the other (`Twins`).
-/

namespace I256

open Sample

variable {w v : Nat} {x y : Limbs w} {x' y' : Limbs v} {N M : Nat}

/-! ### Shift operators -/

/-- C40: the shift operators by primitive integers, in both builds with and without overflow checks. -/
theorem C40_shift_prim (hx : Twins x x') {n : Nat} (oc ps : Bool) (c : BitVec n) :
    SameRes Same (shlPrim oc ps x c) (shlPrim oc ps x' c) ∧
    ∀ sg, SameRes Same (shrPrim oc ps sg x c) (shrPrim oc ps sg x' c) := by
  have gx := hx.symm
  have e := hx.builds.width
  obtain ⟨k, hk⟩ := hx.builds.pow
  obtain ⟨k', hk'⟩ := gx.builds.pow
  obtain ⟨a1, a2, a3⟩ := C38_all_partial hk hx.even hx.ne oc ps c
  obtain ⟨b1, b2, b3⟩ := C38_all_partial hk' gx.even gx.ne oc ps c
  rw [← e] at b1 b2 b3
  rw [← hx.value] at b1 b2
  rw [← hx.int] at b1 b3
  refine ⟨Same.yields_same a1 b1 Iff.rfl fun _ _ _ h h' => Same.wrapU e h.1 h'.1 rfl, fun sg => ?_⟩
  cases sg
  · exact Same.yields_same a2 b2 Iff.rfl fun _ _ _ h h' => Same.exactU e h h' rfl
  · exact Same.yields_same a3 b3 Iff.rfl fun _ _ _ h h' => Same.exactS e h h' rfl

example := C40_shift_prim twins_b true true (-3#16)

/-- C40: the shift operators by big integers, of the same or of the other signedness. -/
theorem C40_shift_big (hx : Twins x x') (hy : Twins y y') (hl : x.length = y.length) (oc os : Bool) :
    SameRes Same (shlBig oc os x y) (shlBig oc os x' y') ∧
    (∀ sg, SameRes Same (shrBig oc os sg x y) (shrBig oc os sg x' y')) ∧
    Same (shlSelf x y) (shlSelf x' y') ∧ ∀ sg, Same (shrSelf sg x y) (shrSelf sg x' y') := by
  have gx := hx.symm
  have hl' := hx.len hy hl
  have e := hx.builds.width
  obtain ⟨k, hk⟩ := hx.builds.pow
  obtain ⟨k', hk'⟩ := gx.builds.pow
  obtain ⟨a1, -, a2, a3⟩ := C49_self_all_partial (y := y) hk hx.builds.w32 hx.even hx.ne
  obtain ⟨b1, -, b2, b3⟩ := C49_self_all_partial (y := y') hk' gx.builds.w32 gx.even gx.ne
  rw [← e, ← hx.value, ← hy.value] at b1 b2
  rw [← e, ← hx.int, ← hy.value] at b3
  have s1 := Same.wrapU e a1 b1 rfl
  have s2 : ∀ sg, Same (shrSelf sg x y) (shrSelf sg x' y') := by
    intro sg
    cases sg
    · exact Same.exactU e a2 b2 rfl
    · exact Same.exactS e a3 b3 rfl
  have p : (oc && bigOutOfRange os (bits x) y) = (oc && bigOutOfRange os (bits x') y') := by
    cases oc
    · rfl
    have t := C49_other_type (y := y) hk hx.builds.w32 hl hx.even hx.ne hx.builds.small true os
    have t' := C49_other_type (y := y') hk' gx.builds.w32 hl' gx.even gx.ne gx.builds.small true os
    have ev : (if os then toInt y else (toNat y : Int)) = if os then toInt y' else (toNat y' : Int) := by
      rw [hy.int, hy.value]
    rw [← ev, ← e] at t'
    have r : ∀ {u : Nat} {a b : Limbs u}, (true && bigOutOfRange os (bits a) b) = true ↔
        shlBig true os a b = .panic := by
      intro u a b
      rw [shlBig]
      split <;> simp_all
    rw [Bool.eq_iff_iff, r, r]
    by_cases h : (if os then toInt y else (toNat y : Int)) < 0 ∨
        ((w * x.length : Nat) : Int) ≤ (if os then toInt y else (toNat y : Int))
    · exact iff_of_true (t.2 rfl h).1 (t'.2 rfl h).1
    · push Not at h
      obtain ⟨s, hs⟩ := Int.eq_ofNat_of_zero_le h.1
      have hs' : s < w * x.length := by omega
      obtain ⟨_, q, -⟩ := (t.1 s (by exact_mod_cast hs) hs').1
      obtain ⟨_, q', -⟩ := (t'.1 s (by exact_mod_cast hs) hs').1
      rw [q, q']
      simp
  refine ⟨?_, fun sg => ?_, s1, s2⟩
  · rw [shlBig, shlBig, p]
    split
    · trivial
    · exact s1
  · rw [shrBig, shrBig, p]
    split
    · trivial
    · exact s2 sg

example := C40_shift_big twins_b twins_ones rfl true true

/-- C40: the signed `unbounded_shr`. -/
theorem C40_int_unbounded_shr (hx : Twins x x') (s : Nat) :
    Same (unboundedShr true x s) (unboundedShr true x' s) := by
  have gx := hx.symm
  obtain ⟨k, hk⟩ := hx.builds.pow
  obtain ⟨k', hk'⟩ := gx.builds.pow
  exact Same.exactS hx.builds.width (C39_int_unbounded_shr_all_partial hk hx.even hx.ne s).1
    (C39_int_unbounded_shr_all_partial hk' gx.even gx.ne s).1 (by rw [hx.builds.width, hx.int])

example := C40_int_unbounded_shr twins_ones 300

/-! ### Complete products, carries, halves -/

/-- C40: the complete product, with and without a carry, and its high half. -/
theorem C40_widening_mul (hx : Twins x x') (hy : Twins y y') (hl : x.length = y.length) {c : Limbs w}
    {c' : Limbs v} (hc : Twins c c') (hlc : x.length = c.length) (oc : Bool) :
    SamePair (U.wideningMul x y) (U.wideningMul x' y') ∧
    SameRes SamePair (U.carryingMul oc x y c) (U.carryingMul oc x' y' c') ∧
    Same (U.highMul x y) (U.highMul x' y') := by
  have gx := hx.symm
  have hl' := hx.len hy hl
  have e := hx.builds.width
  have key : ∀ {a b : Limbs w} {a' b' : Limbs v}, a.length = x.length → b.length = x.length →
      a'.length = x'.length → b'.length = x'.length →
      toNat a + 2 ^ bits x * toNat b = toNat a' + 2 ^ bits x' * toNat b' → Same a a' ∧ Same b b' := by
    intro a b a' b' la lb la' lb' h
    have ea : bits a = bits a' := by rw [bits, bits, la, la', e]
    have ha := toNat_lt a
    have ha' := toNat_lt a'
    rw [bits, la, ← bits] at ha
    rw [bits, la', ← bits, ← hx.bits_eq] at ha'
    rw [← hx.bits_eq] at h
    have h1 := congrArg (· % 2 ^ bits x) h
    have h2 := congrArg (· / 2 ^ bits x) h
    simp only [Nat.add_mul_mod_self_left, Nat.add_mul_div_left _ _ (Nat.two_pow_pos _),
      Nat.mod_eq_of_lt ha, Nat.mod_eq_of_lt ha', Nat.div_eq_of_lt ha, Nat.div_eq_of_lt ha',
      Nat.zero_add] at h1 h2
    exact ⟨⟨ea, h1⟩, by rw [bits, bits, lb, lb', e], h2⟩
  obtain ⟨l1, l2, h⟩ := C09_widening_mul hx.ne hl
  obtain ⟨l1', l2', h'⟩ := C09_widening_mul gx.ne hl'
  have m := key l1 l2 l1' l2' (by rw [h, h', hx.value, hy.value])
  refine ⟨m, ?_, ?_⟩
  · obtain ⟨lo, hi, q, r1, r2, s⟩ := C09_carrying_mul hx.pos hx.ne hl hlc oc
    obtain ⟨lo', hi', q', r1', r2', s'⟩ := C09_carrying_mul gx.pos gx.ne hl' (hx.len hc hlc) oc
    rw [q, q']
    exact key r1 r2 r1' r2' (by rw [s, s', hx.value, hy.value, hc.value])
  · rw [(C48_high_mul hx.pos hx.ne hl hx.even).2.2, (C48_high_mul gx.pos gx.ne hl' gx.even).2.2]
    exact m.2

example := C40_widening_mul twins_b twins_ones rfl twins_ones rfl true

/-- C40: signed addition with a carry and subtraction with a borrow, and `is_odd`. -/
theorem C40_int_carrying (hx : Twins x x') (hy : Twins y y') (hl : x.length = y.length) (c : Bool) :
    SameFlag (I.carryingAdd x y c) (I.carryingAdd x' y' c) ∧
    SameFlag (I.borrowingSub x y c) (I.borrowingSub x' y' c) ∧ isOdd x = isOdd x' := by
  have gx := hx.symm
  have e := hx.builds.width
  obtain ⟨a, b⟩ := C37_int_carrying_partial hx.one hx.two hl c
  obtain ⟨a', b'⟩ := C37_int_carrying_partial gx.one gx.two (hx.len hy hl) c
  rw [← hx.int, ← hy.int, ← hx.bits_eq] at a' b'
  refine ⟨⟨Same.wrapS e a.1 a'.1 rfl, Bool.eq_iff_iff.2 (a.2.trans a'.2.symm)⟩,
    ⟨Same.wrapS e b.1 b'.1 rfl, Bool.eq_iff_iff.2 (b.2.trans b'.2.symm)⟩, ?_⟩
  rw [Bool.eq_iff_iff, (C48_parity hx.pos hx.ne).2.1, (C48_parity gx.pos gx.ne).2.1, hx.value]

example := C40_int_carrying twins_b twins_ones rfl true

/-! ### Conversions -/

private theorem FitsPrim.unique {n : Nat} {ps : Bool} {z : Int} {a b : Option (BitVec n)}
    (ha : FitsPrim ps z a) (hb : FitsPrim ps z b) : a = b := by
  by_cases h : if ps then InS n z else InU n z
  · obtain ⟨c, rfl, hc⟩ := ha.1 h
    obtain ⟨d, rfl, hd⟩ := hb.1 h
    rw [← hd] at hc
    cases ps
    · exact congrArg some (BitVec.eq_of_toNat_eq (by simpa [primVal] using hc))
    · exact congrArg some (BitVec.eq_of_toInt_eq (by simpa [primVal] using hc))
  · rw [ha.2 h, hb.2 h]

/-- C40: checked conversions to and from the primitive types; `usize` and `isize` have `pw` bits. -/
theorem C40_to_primitive (hx : Twins x x') (h : Builds w N v M) (p : Prim) (a : BitVec p.n) {pw : Nat}
    (h0 : 0 < pw) (hpw : pw ≤ 128) :
    Cast.uToU x p = Cast.uToU x' p ∧ Cast.uToI x p = Cast.uToI x' p ∧ Cast.iToU x p = Cast.iToU x' p ∧
    Cast.iToI x p = Cast.iToI x' p ∧ Cast.uToUsize pw x = Cast.uToUsize pw x' ∧
    Cast.uToIsize pw x = Cast.uToIsize pw x' ∧ Cast.iToUsize pw x = Cast.iToUsize pw x' ∧
    Cast.iToIsize pw x = Cast.iToIsize pw x' ∧
    SameOpt (Cast.uFromPrimI N p a : Option (Limbs w)) (Cast.uFromPrimI M p a : Option (Limbs v)) ∧
    SameOpt (Cast.fromPrimU N p a : Option (Limbs w)) (Cast.fromPrimU M p a : Option (Limbs v)) ∧
    SameOpt (Cast.iFromPrimI N p a : Option (Limbs w)) (Cast.iFromPrimI M p a : Option (Limbs v)) := by
  have gx := hx.symm
  have g := h.symm
  have l := hx.builds.left
  have l' := gx.builds.left
  have b := hx.builds.b128
  have b' := gx.builds.b128
  have c := hx.builds.b129
  have c' := gx.builds.b129
  have su := C46_uint_to_size l hx.four hx.even b h0 hpw
  have su' := C46_uint_to_size l' gx.four gx.even b' h0 hpw
  have si := C46_int_to_size l hx.four hx.even c h0 hpw
  have si' := C46_int_to_size l' gx.four gx.even c' h0 hpw
  rw [← hx.value] at su'
  rw [← hx.int] at si'
  have f := C46_uint_from_primitive h.left h.four h.b128 p a
  have f' := C46_uint_from_primitive g.left g.four g.b128 p a
  refine ⟨(C46_uint_to_unsigned l hx.four hx.even b p).unique
      (hx.value ▸ C46_uint_to_unsigned l' gx.four gx.even b' p),
    (C46_uint_to_signed l hx.four hx.even b p).unique
      (hx.value ▸ C46_uint_to_signed l' gx.four gx.even b' p),
    (C46_int_to_unsigned l hx.four hx.even c p).unique
      (hx.int ▸ C46_int_to_unsigned l' gx.four gx.even c' p),
    (C46_int_to_signed l hx.four hx.even b p).unique
      (hx.int ▸ C46_int_to_signed l' gx.four gx.even b' p),
    su.1.unique su'.1, su.2.unique su'.2, si.1.unique si'.1, si.2.unique si'.2,
    Same.checkU h.width f.1 f'.1 rfl, Same.checkU h.width f.2 f'.2 rfl,
    Same.checkS h.width (C46_int_from_primitive h.left h.four h.b129 p a).1
      (C46_int_from_primitive g.left g.four g.b129 p a).1 rfl⟩

example := C40_to_primitive twins_ones (N := 8) (M := 4)
  ⟨.inl rfl, .inr rfl, rfl, by decide, by decide, by decide⟩ .b64 (-1#64) (pw := 64) (by decide)
  (by decide)

/-! ### num-traits -/

/-- C40: the sign functions of num-traits. -/
theorem C40_num_signed (hx : Twins x x') (hy : Twins y y') (hl : x.length = y.length) (oc : Bool) :
    SameRes Same (NumSigned.absSub oc x y) (NumSigned.absSub oc x' y') ∧
    SameRes Same (NumSigned.signum oc x) (NumSigned.signum oc x') ∧
    NumSigned.isNegative x = NumSigned.isNegative x' ∧ NumTraits.isZero x = NumTraits.isZero x' ∧
    NumTraits.isOne x = NumTraits.isOne x' := by
  have gx := hx.symm
  have e := hx.builds.width
  refine ⟨Same.opS e (C50_abs_sub hx.one hx.even hx.ne hl oc)
      (C50_abs_sub gx.one gx.even gx.ne (hx.len hy hl) oc) (by rw [hx.int, hy.int]),
    Same.ok (C50_signum hx.one hx.even hx.four oc) (C50_signum gx.one gx.even gx.four oc)
      fun _ _ h h' => Same.exactS e h h' (by rw [hx.int]), ?_, ?_, ?_⟩
  · rw [Bool.eq_iff_iff, C50_is_negative hx.one hx.even hx.ne, C50_is_negative gx.one gx.even gx.ne,
      hx.int]
  · rw [Bool.eq_iff_iff, (C57_zero_one hx.one hx.two).1, (C57_zero_one gx.one gx.two).1, hx.value]
  · rw [Bool.eq_iff_iff, (C57_zero_one hx.one hx.two).2.2.1, (C57_zero_one gx.one gx.two).2.2.1,
      hx.value]

example := C40_num_signed twins_b twins_ones rfl true

/-! ### Logarithms -/

/-- C40 (partial): logarithms to a base other than 1 agree iff long division of the number by the base
panics alike. Full statement: they always agree; it is false, as for division. (With base 1 the
unsigned functions do not return, `C32_uint_base_one_partial`.) -/
theorem C40_ilog_partial (hx : Twins x x') (hy : Twins y y') (hl : x.length = y.length) (oc : Bool)
    (hb : toNat y ≠ 1) (rounds : Nat) (hr : bits x ≤ rounds) :
    (U.checkedIlog oc rounds x y = U.checkedIlog oc rounds x' y' ↔
      (PanicsAlike w x.length v x'.length (toNat x) (toNat y))) := by
  have gx := hx.symm
  have hl' := hx.len hy hl
  rw [C32_uint_checked_ilog_partial hx.pos hl hx.even hx.four hx.builds.small oc hb rounds hr,
    C32_uint_checked_ilog_partial gx.pos hl' gx.even gx.four gx.builds.small oc (hy.value ▸ hb) rounds
      (hx.bits_eq ▸ hr), ← hx.value, ← hy.value, PanicsAlike]
  by_cases c : toNat x = 0 ∨ toNat y = 0 ∨ toNat x < toNat y
  · have h1 : toNat y < 2 ^ w ∨ toNat x ≤ toNat y := by
      rcases c with c | c | c
      · omega
      · rw [c]; exact .inl (Nat.two_pow_pos _)
      · omega
    have h2 : toNat y < 2 ^ v ∨ toNat x ≤ toNat y := by
      rcases c with c | c | c
      · omega
      · rw [c]; exact .inl (Nat.two_pow_pos _)
      · omega
    rw [if_pos c, if_pos c]
    exact iff_of_true rfl (iff_of_false (C13_exact_cases hx.pos _ (by tauto)).1
      (C13_exact_cases gx.pos _ (by tauto)).1)
  · rw [if_neg c, if_neg c]
    by_cases p : DivPanics w x.length (toNat x) (toNat y) <;>
      by_cases p' : DivPanics v x'.length (toNat x) (toNat y) <;> simp [p, p']

example := C40_ilog_partial twins_ones twins_b rfl true (by decide) 256 (by decide)

/-! ### Text -/

/-- C40 (partial): `FromStr` of the signed types. Full statement: the same without `hg` and `hg'`; see
`C40_int_parse_partial`. -/
theorem C40_int_from_str_partial (h : Builds w N v M) (s : List Byte) (p32 p32' : Bool)
    (hg : 39 ≤ s.length → ¬ GapText w N 10 s) (hg' : 39 ≤ s.length → ¬ GapText v M 10 s) :
    SameRes SameParsed (I.fromStr p32 N s : Res (Parsed (Limbs w)))
      (I.fromStr p32' M s : Res (Parsed (Limbs v))) :=
  have g := h.symm
  Same.ok (C29_int_from_str_partial h.left h.four h.b128 p32 s hg)
    (C29_int_from_str_partial g.left g.four g.b128 p32' s hg')
    fun _ _ ha hb => Same.parsesS h.width ha hb

example := C40_int_from_str_partial (w := 32) (N := 8) (v := 64) (M := 4)
  ⟨.inl rfl, .inr rfl, rfl, by decide, by decide, by decide⟩ (ascii "-77x") true false
  (fun h => absurd h (by decide)) (fun h => absurd h (by decide))

/-- C40: `Debug`, for all format flags. -/
theorem C40_fmt_debug (hx : Twins x x') (oc : Bool) (f : Write.Flags) :
    U.fmtDebug oc f x = U.fmtDebug oc f x' ∧ I.fmtDebug oc f x = I.fmtDebug oc f x' :=
  ⟨(C40_fmt hx oc f).1, (C40_fmt hx oc f).2.2.2.2.2.2.2.1⟩

example := C40_fmt_debug twins_ones true { width := some 90 }

end I256
