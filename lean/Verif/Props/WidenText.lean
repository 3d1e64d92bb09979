import Verif.Lemmas.WidenText
import Verif.Props.Widen
import Verif.Props.LimbSizeRest

/-!
# Types of different widths (C99): text and scalars of a fixed width

`x`, `y` are operands of one type and `x'`, `y'` the same numbers in a type with at least as many bits.
-/

namespace I256

open Sample

variable {w v : Nat} {x y : Limbs w} {x' y' : Limbs v} {N M : Nat}

/-! ### Text -/

/-- C99: parsing unsigned numbers, for every text and radix. -/
theorem C99_uint_parse (h : Wider w N v M) (s : List Byte) (radix : BitVec 32) (p32 p32' : Bool) :
    SameRes (NarrowParsed EqU (FitsU (w * N)) .posOverflow)
      (U.fromStrRadix N s radix : Res (Parsed (Limbs w))) (U.fromStrRadix M s radix : Res (Parsed (Limbs v))) ∧
    SameRes (NarrowParsed EqU (FitsU (w * N)) .posOverflow)
      (U.fromStr p32 N s : Res (Parsed (Limbs w))) (U.fromStr p32' M s : Res (Parsed (Limbs v))) := by
  have f := h.narrow
  have g := h.wide
  constructor
  · by_cases hr : radix.toNat < 2 ∨ 36 < radix.toNat
    · rw [(C29_radix_panic hr s).1, (C29_radix_panic hr s).1]
      trivial
    · by_cases hs : s = ascii "+"
      · subst hs
        rw [(C29_sign_only_partial (w := w) (by omega) (by omega)).1,
          (C29_sign_only_partial (w := v) (by omega) (by omega)).1]
        have z : ∀ {u K : Nat}, 0 < K → ExactU K 0 (ofU8 K 0 : Limbs u) := fun hK =>
          ofU8U hK (Nat.two_pow_pos _)
        exact Widen.exactU (z (by have := f.four; omega)) (z (by have := g.four; omega)) rfl
      · exact Same.ok (C29_uint_from_str_radix_partial f.left f.four (by omega) (by omega) s hs)
          (C29_uint_from_str_radix_partial g.left g.four (by omega) (by omega) s hs)
          fun _ _ ha hb => Widen.parsesU h.le ha hb
  · refine Same.ok (C29_uint_from_str f.left f.four f.b128 p32 s)
      (C29_uint_from_str g.left g.four g.b128 p32' s) fun a b ha hb => ?_
    by_cases hc : 39 ≤ s.length ∨ s.head? ≠ some 45
    · exact Widen.parsesU h.le (ha.1 hc) (hb.1 hc)
    · push Not at hc
      rw [ha.2 (by omega) hc.2, hb.2 (by omega) hc.2]
      exact .inl rfl

example := C99_uint_parse (w := 32) (N := 8) (v := 64) (M := 8) (by decide) (ascii "+12345z") 36 false true

/-- C99 (partial): parsing signed numbers. Full statement: the same without `hg` and `hg'`; it is false
because each type misreads some texts just below its minimum. -/
theorem C99_int_parse_partial (h : Wider w N v M) (s : List Byte) (radix : BitVec 32)
    (hg : ¬ GapText w N radix.toNat s) (hg' : ¬ GapText v M radix.toNat s) :
    SameRes (NarrowParsed EqS (FitsS (w * N)) (if s.head? = some 45 then .negOverflow else .posOverflow))
      (I.fromStrRadix N s radix : Res (Parsed (Limbs w))) (I.fromStrRadix M s radix : Res (Parsed (Limbs v))) := by
  have f := h.narrow
  have g := h.wide
  by_cases hr : radix.toNat < 2 ∨ 36 < radix.toNat
  · rw [(C29_radix_panic hr s).2, (C29_radix_panic hr s).2]
    trivial
  have z : ∀ {u K : Nat}, 0 < K → toInt (ofU8 K 0 : Limbs u) = 0 := fun {u K} hK => by
    have e0 : toNat (ofU8 K 0 : Limbs u) = 0 :=
      Int.ofNat.inj (ofU8U (w := u) (v := 0) hK (Nat.two_pow_pos _)).2
    rw [toInt, e0]
    simp
  have z' : EqS (ofU8 N 0 : Limbs w) (ofU8 M 0 : Limbs v) :=
    (z (by have := f.four; omega)).trans (z (by have := g.four; omega)).symm
  by_cases hs : s = ascii "+"
  · subst hs
    rw [(C29_sign_only_partial (w := w) (by omega) (by omega)).2.1,
      (C29_sign_only_partial (w := v) (by omega) (by omega)).2.1]
    exact z'
  by_cases hs' : s = ascii "-"
  · subst hs'
    rw [(C29_sign_only_partial (w := w) (by omega) (by omega)).2.2,
      (C29_sign_only_partial (w := v) (by omega) (by omega)).2.2]
    exact z'
  exact Same.ok (C29_int_from_str_radix_partial f.left f.four (by omega) (by omega) s hs hs' hg)
    (C29_int_from_str_radix_partial g.left g.four (by omega) (by omega) s hs hs' hg')
    fun _ _ ha hb => Widen.parsesS h.le ha hb

example := C99_int_parse_partial (w := 32) (N := 8) (v := 64) (M := 8) (by decide) (ascii "+77x") 10
  (by rintro ⟨t, ht, -⟩; cases ht) (by rintro ⟨t, ht, -⟩; cases ht)

/-- C99 (partial): `FromStr` of signed numbers. Full statement: the same without `hg` and `hg'`. -/
theorem C99_int_from_str_partial (h : Wider w N v M) (s : List Byte) (p32 p32' : Bool)
    (hg : 39 ≤ s.length → ¬ GapText w N 10 s) (hg' : 39 ≤ s.length → ¬ GapText v M 10 s) :
    SameRes (NarrowParsed EqS (FitsS (w * N)) (if s.head? = some 45 then .negOverflow else .posOverflow))
      (I.fromStr p32 N s : Res (Parsed (Limbs w))) (I.fromStr p32' M s : Res (Parsed (Limbs v))) :=
  Same.ok (C29_int_from_str_partial h.narrow.left h.narrow.four h.narrow.b128 p32 s hg)
    (C29_int_from_str_partial h.wide.left h.wide.four h.wide.b128 p32' s hg')
    fun _ _ ha hb => Widen.parsesS h.le ha hb

example := C99_int_from_str_partial (w := 32) (N := 8) (v := 64) (M := 8) (by decide) (ascii "-77x") true false
  (fun h => absurd h (by decide)) (fun h => absurd h (by decide))

/-- C99: `to_str_radix` into a buffer that is long enough for the wide type. -/
theorem C99_uint_to_str_radix (hx : WidenU x x') (oc : Bool) {len : Nat} (hlen : bits x' ≤ len)
    (radix : BitVec 32) : U.toStrRadix oc len x radix = U.toStrRadix oc len x' radix := by
  have le : bits x ≤ bits x' := hx.le
  have p := C30_panic (x := x) (radix := radix) oc len
  have p' := C30_panic (x := x') (radix := radix) oc len
  by_cases h : radix.toNat < 2 ∨ 36 < radix.toNat
  · rw [p.1 (by tauto), p'.1 (by tauto)]
  · rw [C30_uint_to_str_radix hx.l.builds.left hx.l.four hx.l.even (by omega) (by omega) oc len (by omega),
      C30_uint_to_str_radix hx.r.builds.left hx.r.four hx.r.even (by omega) (by omega) oc len (by omega),
      hx.value]

example := C99_uint_to_str_radix wide_b true (len := 512) (by decide) 10

/-- C99: the formatting traits of unsigned numbers, for all format flags. -/
theorem C99_uint_fmt (hx : WidenU x x') (oc : Bool) (f : Write.Flags) :
    U.fmtDisplay oc f x = U.fmtDisplay oc f x' ∧ U.fmtBinary oc f x = U.fmtBinary oc f x' ∧
    U.fmtOctal oc f x = U.fmtOctal oc f x' ∧ U.fmtLowerHex oc f x = U.fmtLowerHex oc f x' ∧
    U.fmtUpperHex oc f x = U.fmtUpperHex oc f x' ∧ U.fmtLowerExp oc f x = U.fmtLowerExp oc f x' ∧
    U.fmtUpperExp oc f x = U.fmtUpperExp oc f x' := by
  have a := hx.l.builds.left
  have b := hx.l.four
  have c := hx.l.even
  have a' := hx.r.builds.left
  have b' := hx.r.four
  have c' := hx.r.even
  have d : U.fmtDisplay oc f x = U.fmtDisplay oc f x' := by
    rw [U.fmtDisplay_eq a b c, U.fmtDisplay_eq a' b' c', hx.value]
  simp only [d, U.fmtBinary_eq a b c,
    U.fmtBinary_eq a' b' c', U.fmtOctal_eq a b c, U.fmtOctal_eq a' b' c', U.fmtLowerHex_eq a b c,
    U.fmtLowerHex_eq a' b' c', U.fmtUpperHex_eq a b c, U.fmtUpperHex_eq a' b' c',
    U.fmtLowerExp_eq a b c, U.fmtLowerExp_eq a' b' c', U.fmtUpperExp_eq a b c,
    U.fmtUpperExp_eq a' b' c', hx.value, and_self]

example := C99_uint_fmt wide_max true { width := some 90 }

/-- C99: the decimal formatting traits of signed numbers, for all format flags. (The others print the two's
complement, which has another length in every type; for numbers from 0 on see `C99_uint_fmt`.) -/
theorem C99_int_fmt (hx : WidenS x x') (oc : Bool) (f : Write.Flags) :
    I.fmtDisplay oc f x = I.fmtDisplay oc f x' ∧ I.fmtLowerExp oc f x = I.fmtLowerExp oc f x' ∧
    I.fmtUpperExp oc f x = I.fmtUpperExp oc f x' := by
  have a := hx.l.builds.left
  have b := hx.l.four
  have c := hx.l.even
  have a' := hx.r.builds.left
  have b' := hx.r.four
  have c' := hx.r.even
  have d : I.fmtDisplay oc f x = I.fmtDisplay oc f x' := by
    rw [I.fmtDisplay_eq a b c, I.fmtDisplay_eq a' b' c', hx.value]
  refine ⟨d, ?_, ?_⟩
  · rw [I.fmtLowerExp_eq a b c, I.fmtLowerExp_eq a' b' c', hx.value]
  · rw [I.fmtUpperExp_eq a b c, I.fmtUpperExp_eq a' b' c', hx.value]

example := C99_int_fmt wideS_neg true { width := some 90 }

/-- C99: `Debug`, for all format flags. -/
theorem C99_fmt_debug (oc : Bool) (f : Write.Flags) :
    (WidenU x x' → U.fmtDebug oc f x = U.fmtDebug oc f x') ∧
    (WidenS x x' → I.fmtDebug oc f x = I.fmtDebug oc f x') :=
  ⟨fun hx => (C99_uint_fmt hx oc f).1, fun hx => (C99_int_fmt hx oc f).1⟩

example := (C99_fmt_debug true { width := some 90 }).1 wide_max
example := (C99_fmt_debug true { width := some 90 }).2 wideS_neg

/-! ### Scalars of a fixed width -/

/-- C99: addition, subtraction and multiplication of unsigned numbers with scalars of a fixed width. -/
theorem C99_uint_fixed (hx : WidenU x x') (k : Fix) (n : BitVec k.n) (oc : Bool) :
    (SameRes Cuts (U.wrappingAddFix k x n) (U.wrappingAddFix k x' n) ∧
      SameRes (NarrowFlag (FitsU (bits x))) (U.overflowingAddFix k x n) (U.overflowingAddFix k x' n) ∧
      SameRes (NarrowOpt EqU (FitsU (bits x))) (U.checkedAddFix k x n) (U.checkedAddFix k x' n) ∧
      NarrowOp oc EqU (FitsU (bits x)) (U.addFix oc k x n) (U.addFix oc k x' n)) ∧
    (SameRes Cuts (U.wrappingSubFix k x n) (U.wrappingSubFix k x' n) ∧
      SameRes (NarrowFlag (FitsU (bits x))) (U.overflowingSubFix k x n) (U.overflowingSubFix k x' n) ∧
      SameRes (NarrowOpt EqU (FitsU (bits x))) (U.checkedSubFix k x n) (U.checkedSubFix k x' n) ∧
      NarrowOp oc EqU (FitsU (bits x)) (U.subFix oc k x n) (U.subFix oc k x' n)) ∧
    (SameRes Cuts (U.wrappingMulFix k x n) (U.wrappingMulFix k x' n) ∧
      SameRes (NarrowFlag (FitsU (bits x))) (U.overflowingMulFix k x n) (U.overflowingMulFix k x' n) ∧
      SameRes (NarrowOpt EqU (FitsU (bits x))) (U.checkedMulFix k x n) (U.checkedMulFix k x' n) ∧
      NarrowOp oc EqU (FitsU (bits x)) (U.mulFix oc k x n) (U.mulFix oc k x' n)) := by
  have en : (toNat x : Int) = toNat x' := by rw [hx.value]
  have a := C53_uint_add_sub_fixed hx.l.builds.left hx.l.builds.large k n oc
  have b := C53_uint_add_sub_fixed hx.r.builds.left hx.r.builds.large k n oc
  have c := C54_uint_mul_fixed hx.l.builds.left hx.l.builds.large k n oc
  have d := C54_uint_mul_fixed hx.r.builds.left hx.r.builds.large k n oc
  have key : ∀ {z z' : Int} {a1 : Res (Limbs w)} {a2 : Res (Limbs w × Bool)}
      {a3 : Res (Option (Limbs w))} {a4 : Res (Limbs w)} {b1 : Res (Limbs v)}
      {b2 : Res (Limbs v × Bool)} {b3 : Res (Option (Limbs v))} {b4 : Res (Limbs v)}
      (_ : FormsU oc x.length z a1 a2 a3 a4) (_ : FormsU oc x'.length z' b1 b2 b3 b4) (_ : z = z'),
      SameRes Cuts a1 b1 ∧ SameRes (NarrowFlag (FitsU (bits x))) a2 b2 ∧
      SameRes (NarrowOpt EqU (FitsU (bits x))) a3 b3 ∧ NarrowOp oc EqU (FitsU (bits x)) a4 b4 :=
    fun ha hb hz => ⟨Same.ok ha.1 hb.1 fun _ _ h h' => Widen.wrapU hx.le h h' hz,
      Same.ok ha.2.1 hb.2.1 fun _ _ h h' => Widen.overU hx.le h h' hz,
      Same.ok ha.2.2.1 hb.2.2.1 fun _ _ h h' => Widen.checkU hx.le h h' hz,
      Widen.opU hx.le ha.2.2.2 hb.2.2.2 hz⟩
  exact ⟨key a.1 b.1 (by rw [en]), key a.2 b.2 (by rw [en]), key c d (by rw [en])⟩

example := C99_uint_fixed wide_b .b128 (-1#128) true

end I256
