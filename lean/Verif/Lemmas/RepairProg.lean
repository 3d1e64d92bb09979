import Verif.Repair.Prog
import Verif.Lemmas.Loop
import Verif.Lemmas.RepairRest
import Verif.Props.Repair

/-!
# Lemmas about programs with the repaired operations
-/

namespace I256

variable {w N : Nat} {x y : Limbs w} {sg oc : Bool}

/-! ## The power loop on an exact multiplication -/

theorem powLoop_flagOver {mul : Limbs w → Limbs w → Limbs w × Bool} (hw : 1 < w) (hN : 0 < N)
    (hm : ∀ a b : Limbs w, a.length = N → b.length = N → OverS N (toInt a * toInt b) (mul a b))
    (fuel exp : Nat) (base acc : Limbs w)
    (h0 : 0 < exp) (h1 : exp < 2 ^ fuel) (hb : base.length = N) (ha : acc.length = N)
    (hz : PowInv (toInt acc) (toInt base)) :
    (overflowingPowLoop mul fuel exp base acc false).2 = true ↔
      ¬ InS (w * N) (toInt acc * toInt base ^ exp) := by
  induction fuel generalizing exp base acc with
  | zero => simp at h1; omega
  | succ fuel ih =>
    obtain ⟨wab, fab⟩ := hm acc base ha hb
    obtain ⟨wbb, fbb⟩ := hm base base hb hb
    have hpos : 0 < w * N := Nat.mul_pos (by omega) hN
    have h2 : (2 : Int) ^ (w * N) = 2 * 2 ^ (w * N - 1) := by
      rw [← pow_succ', show w * N - 1 + 1 = w * N by omega]
    have hP : (0 : Int) < 2 ^ (w * N - 1) := by positivity
    have hP2 : (2 : Int) ≤ 2 ^ (w * N - 1) := by
      have : 1 ≤ w * N - 1 := by
        have := Nat.mul_le_mul hw hN
        omega
      calc (2 : Int) = 2 ^ 1 := by norm_num
        _ ≤ _ := pow_le_pow_right₀ (by omega) this
    have hand : exp &&& 1 = exp % 2 := Nat.and_one_is_mod exp
    set A := toInt acc with hA
    set B := toInt base with hB
    generalize hH : (2 : Int) ^ (w * N - 1) = H at *
    have small : ∀ z : Int, |z| ≤ 1 → InS (w * N) z := by
      intro z h
      unfold InS
      rw [h2]
      rcases abs_cases z with ⟨h4, h5⟩ | ⟨h4, h5⟩ <;> rw [h4] at h <;> omega
    have hBB : (0 : Int) ≤ B * B := mul_self_nonneg B
    -- the squaring step followed by the rest of the loop
    have sq : ∀ acc' : Limbs w, acc'.length = N →
        ((|toInt acc'| ≤ 1 ∧ |B| ≤ 1) ∨
          ((toInt acc' = 1 ∨ 2 ≤ |toInt acc'|) ∧ 2 * |toInt acc'| ≤ B * B)) → 0 < exp / 2 →
        ((overflowingPowLoop mul fuel (exp / 2) (mul base base).1
          acc' (mul base base).2).2 = true ↔
        ¬ InS (w * N) (toInt acc' * (B * B) ^ (exp / 2))) := by
      intro acc' ha' hz' he
      by_cases hf : (mul base base).2 = true
      · rw [hf]
        simp only [overflowingPowLoop_true, true_iff]
        have h3 := Mul.abs_of_not_ok (by omega) hN (fbb.1 hf)
        rw [abs_of_nonneg hBB, hH] at h3
        have h4 : B * B ≤ (B * B) ^ (exp / 2) := le_self_pow₀ (by omega) (by omega)
        rcases hz' with ⟨-, h5⟩ | ⟨h5, -⟩
        · exfalso
          have : B * B ≤ 1 := by
            rw [← abs_mul_abs_self]
            nlinarith [abs_nonneg B]
          omega
        · rcases h5 with h5 | h5
          · refine (Mul.not_ok_of_ge (by omega) hN ?_).1
            rw [h5, one_mul, hH]; omega
          · refine (Mul.not_ok_of_abs (by omega) hN ?_).1
            rw [abs_mul, abs_of_nonneg (by positivity : (0 : Int) ≤ (B * B) ^ (exp / 2)), hH]
            nlinarith
      · have hf' : (mul base base).2 = false := by simpa using hf
        rw [hf']
        have hi : InS (w * N) (B * B) := by
          by_contra hc
          exact hf (fbb.2 hc)
        obtain ⟨l2, v2⟩ := wbb.exact hi
        rw [ih _ _ _ he (half_lt h1) l2 ha' ?_, v2]
        rw [v2]
        unfold PowInv
        rw [abs_of_nonneg hBB]
        rcases hz' with ⟨h5, h6⟩ | h5
        · left
          refine ⟨h5, ?_⟩
          rw [← abs_mul_abs_self]
          nlinarith [abs_nonneg B]
        · exact Or.inr h5
    unfold overflowingPowLoop
    simp only [hand, beq_iff_eq, Bool.false_or, Bool.or_false]
    by_cases ho : exp % 2 = 1
    · rw [if_pos ho]
      by_cases h3 : exp = 1
      · rw [if_pos h3, h3, pow_one]
        exact fab
      · rw [if_neg h3, pow_odd _ _ ho]
        have hABs : |B| * |B| = B * B := abs_mul_abs_self B
        by_cases hi : InS (w * N) (A * B)
        · -- no overflow so far
          have hf' : (mul acc base).2 = false := by
            by_contra hc
            exact (fab.1 (by simpa using hc)) hi
          rw [hf', Bool.false_or]
          obtain ⟨l2, v2⟩ := wab.exact hi
          rw [sq _ l2 ?_ (by omega), v2]
          rw [v2, abs_mul]
          rcases hz with ⟨h5, h6⟩ | ⟨h5, h6⟩
          · left
            exact ⟨by nlinarith [abs_nonneg A, abs_nonneg B], h6⟩
          · right
            have h7 : 1 ≤ |A| := by rcases h5 with h5 | h5; · rw [h5]; simp
                                    · omega
            refine ⟨Or.inr (by nlinarith), ?_⟩
            rw [← hABs]
            nlinarith
        · -- `A * B` is out of range: the result is flagged in any case, since the square is
          have h3a := Mul.abs_of_not_ok (by omega) hN hi
          rw [hH, abs_mul] at h3a
          rcases hz with ⟨h5, h6⟩ | ⟨h5, h6⟩
          · exfalso; nlinarith [abs_nonneg A, abs_nonneg B]
          have h7 : 1 ≤ |A| := by rcases h5 with h5 | h5; · rw [h5]; simp
                                  · omega
          have h8 : 2 * H ≤ B * B := by rw [← hABs]; nlinarith
          have hf2 : (mul base base).2 = true :=
            fbb.2 (Mul.not_ok_of_ge (by omega) hN (by rw [hH]; omega)).1
          rw [hf2, Bool.or_true]
          simp only [overflowingPowLoop_true, true_iff]
          refine (Mul.not_ok_of_abs (by omega) hN ?_).1
          have h9 : B * B ≤ (B * B) ^ (exp / 2) := le_self_pow₀ (by omega) (by omega)
          rw [abs_mul, abs_mul, abs_of_nonneg (by positivity : (0 : Int) ≤ (B * B) ^ (exp / 2)), hH]
          nlinarith
    · rw [if_neg ho, pow_even _ _ ho]
      refine sq acc ha ?_ (by omega)
      rcases hz with h5 | ⟨h5, h6⟩
      · exact Or.inl h5
      · refine Or.inr ⟨h5, ?_⟩
        have h7 : 1 ≤ |A| := by rcases h5 with h5 | h5; · rw [h5]; simp
                                · omega
        rw [← abs_mul_abs_self B]
        nlinarith

namespace Repair

theorem powOver (hw : 1 < w) (hx : 2 ≤ x.length) {e : Nat} (he : e < 2 ^ 32) :
    OverS x.length (toInt x ^ e) (overflowingPow overflowingFullS x e) := by
  have hx0 : x ≠ [] := List.length_pos_iff.1 (by omega)
  have h1 := ofU8S (w := w) (N := x.length) (v := 1) (by omega) hx (Nat.one_lt_two_pow (by omega))
  have hm : ∀ a b : Limbs w, a.length = x.length → b.length = x.length →
      OverS x.length (toInt a * toInt b) (overflowingFullS a b) := by
    intro a b ha hb
    have := overflowingFullS_spec (w := w) (by omega) (x := a) (y := b)
      (List.length_pos_iff.1 (by omega)) (by omega)
    rwa [ha] at this
  constructor
  · have h := powWrapS (by omega : 0 < w) hx0 he
    have e' : (overflowingPow overflowingFullS x e).1 = I.wrappingPow x e := by
      unfold overflowingPow I.wrappingPow I256.wrappingPow
      split
      · rfl
      · refine overflowingPowLoop_fst _ _ (N := x.length) (fun a b ha hb => ?_)
          (fun a b ha hb => (Mul.wrapS a b (by omega) (by omega)).1.trans ha) _ _ _ _ _ rfl h1.1
        have h2 := hm a b ha hb
        have h3 := Mul.wrapS a b (by omega) (by omega)
        rw [ha] at h3
        exact toInt_inj (h2.1.1.trans h3.1.symm) (h2.1.2.trans h3.2.symm)
    rwa [e']
  · unfold overflowingPow
    by_cases h0 : e = 0
    · simp only [h0, beq_self_eq_true, if_true, pow_zero]
      simp only [Bool.false_eq_true, false_iff, not_not]
      exact_mod_cast h1.inS
    · rw [if_neg (by simpa using h0)]
      have h1v : toInt (ofU8 x.length 1 : Limbs w) = 1 := by exact_mod_cast h1.2
      have := powLoop_flagOver hw (N := x.length) (by omega) hm 32 e x (ofU8 x.length 1) (by omega) he
        rfl h1.1 ?_
      · rwa [h1v, one_mul] at this
      · rw [h1v]
        unfold PowInv
        rcases Int.lt_or_le (|toInt x|) 2 with h | h
        · left; constructor
          · simp
          · omega
        · right; exact ⟨Or.inl rfl, by simpa using h⟩

/-! ## The operators -/

section operators
variable (T : IsType w N) (hx : x.length = N) (hy : y.length = N)
include T hx

theorem gives_pow (e : BitVec 32) : ExprGives sg N (settle oc sg (w * N) (value sg x ^ e.toNat))
    (if sg then powS oc x e.toNat else U.pow oc x e.toNat) := by
  subst hx
  have h4 := T.four
  have hx0 : x ≠ [] := by rintro rfl; simp at h4
  cases sg
  · exact settle_opU (C42_uint_pow T.pos hx0 e.isLt oc)
  · exact settle_opS ((powOver T.one (by omega) e.isLt).check.op (powWrapS T.pos hx0 e.isLt) oc)

include hy

theorem gives_mul : ExprGives sg N (settle oc sg (w * N) (value sg x * value sg y))
    (if sg then mulS oc x y else U.mul oc x y) := by
  subst hx
  have h4 := T.four
  cases sg
  · exact settle_opU (C42_uint_mul T.pos hy.symm T.even h4 oc)
  · exact settle_opS ((overflowingFullS_spec T.pos (by rintro rfl; simp at h4) hy.symm).check.op
      (Mul.wrapS x y (by omega) hy.symm) oc)

theorem gives_div : ExprGives sg N
    (if value sg y = 0 then none else settle oc sg (w * N) ((value sg x).tdiv (value sg y)))
    (divOp sg oc x y) := by
  subst hx
  have h4 := T.four
  have h2 := T.even
  cases sg
  · have h := C82_div_rem T.pos hy.symm (by omega)
    simp only [divOp, value, Bool.false_eq_true, if_false, Int.natCast_eq_zero]
    by_cases h0 : toNat y = 0
    · rw [if_pos h0, h.1 h0]
      cases oc
      · rfl
      · rw [isDivNoneU_zero (by omega) (by omega) h0]; rfl
    · obtain ⟨r, e, hq, -⟩ := h.2 h0
      have fit := fits_ediv (x := x) y
      have f : InU (w * x.length) ((toNat x : Int).tdiv (toNat y)) := by simpa [Fits] using fit
      rw [if_neg h0, opU_eq hy.symm (by omega) h2 h0, e]
      refine ?_
      have hs : settle oc false (w * x.length) ((toNat x : Int).tdiv (toNat y)) =
          some ((toNat x : Int).tdiv (toNat y)) := by
        rw [settle, keep, if_pos fit]
        cases oc
        · simp only [reduce, Bool.false_eq_true, if_false]
          rw [Int.emod_eq_of_lt f.1 f.2]
        · rfl
      rw [hs]
      exact ⟨r.1, rfl, hq.1, by
        simp only [value, Bool.false_eq_true, if_false]
        rw [hq.2, Int.tdiv_eq_ediv_of_nonneg (by omega)]
        norm_cast⟩
  · have h := C82_int_div_rem T.pos hy.symm (by omega) h2
    simp only [divOp, value, if_true]
    rw [opS_eq T.one hy.symm (by omega) h2]
    by_cases h0 : toInt y = 0
    · rw [if_pos h0, h.1 h0]
      split <;> rfl
    · obtain ⟨r, e, hq, -⟩ := h.2 h0
      have key := fits_tdiv T h0
      rw [if_neg h0, e]
      cases oc
      · rw [if_neg (by simp)]
        exact ⟨r.1, rfl, hq.1, by simpa [value, reduce] using hq.2⟩
      · simp only [settle, if_true, keep]
        by_cases c : toInt x = -2 ^ (w * x.length - 1) ∧ toInt y = -1
        · rw [if_neg (by tauto), if_pos ⟨trivial, Or.inr c⟩]; rfl
        · have f : Fits true (w * x.length) ((toInt x).tdiv (toInt y)) := by tauto
          rw [if_pos f, if_neg (by tauto)]
          exact ⟨r.1, rfl, hq.1, by simpa [value] using (hq.exact (by simpa [Fits] using f)).2⟩

theorem gives_rem : ExprGives sg N
    (if value sg y = 0 ∨ oc = true ∧ ¬ Fits sg (w * N) ((value sg x).tdiv (value sg y)) then none
      else some ((value sg x).tmod (value sg y)))
    (remOp sg oc x y) := by
  subst hx
  have h4 := T.four
  have h2 := T.even
  cases sg
  · have h := C82_div_rem T.pos hy.symm (by omega)
    simp only [remOp, value, Bool.false_eq_true, if_false, Int.natCast_eq_zero]
    by_cases h0 : toNat y = 0
    · rw [if_pos (Or.inl h0), h.1 h0]
      cases oc
      · rfl
      · rw [isDivNoneU_zero (by omega) (by omega) h0]; rfl
    · obtain ⟨r, e, -, hq⟩ := h.2 h0
      have fit := fits_ediv (x := x) y
      rw [if_neg (by tauto), opU_eq hy.symm (by omega) h2 h0, e]
      exact ⟨r.2, rfl, hq.1, by
        simp only [value, Bool.false_eq_true, if_false]
        rw [hq.2, Int.tmod_eq_emod_of_nonneg (by omega)]
        norm_cast⟩
  · have h := C82_int_div_rem T.pos hy.symm (by omega) h2
    simp only [remOp, value, if_true]
    rw [opS_eq T.one hy.symm (by omega) h2]
    by_cases h0 : toInt y = 0
    · rw [if_pos (Or.inl h0), h.1 h0]
      split <;> rfl
    · obtain ⟨r, e, -, hq⟩ := h.2 h0
      have key := fits_tdiv T h0
      rw [e]
      by_cases c : oc = true ∧ (toInt x = -2 ^ (w * x.length - 1) ∧ toInt y = -1)
      · rw [if_pos (Or.inr ⟨c.1, by tauto⟩), if_pos ⟨c.1, Or.inr c.2⟩]; rfl
      · rw [if_neg (by tauto), if_neg (by tauto)]
        exact ⟨r.2, rfl, hq.1, by simpa [value] using hq.2⟩

end operators

/-! ## Expressions, conditions and programs -/

variable {s : Nat → Limbs w}

theorem eval_ideal (T : IsType w N) (hs : ∀ i, (s i).length = N) (oc : Bool) (e : Expr sg) :
    ExprGives sg N (e.ideal oc (w * N) fun i => value sg (s i)) (eval oc s e) := by
  induction e with
  | var i => exact ⟨_, rfl, hs i, rfl⟩
  | add a b iha ihb => exact iha.two ihb fun x y hx hy _ _ => actual_add T hx hy oc
  | sub a b iha ihb => exact iha.two ihb fun x y hx hy _ _ => actual_sub T hx hy oc
  | mul a b iha ihb => exact iha.two ihb fun x y hx hy _ _ => gives_mul T hx hy
  | div a b iha ihb => exact iha.two ihb fun x y hx hy _ _ => gives_div T hx hy
  | rem a b iha ihb => exact iha.two ihb fun x y hx hy _ _ => gives_rem T hx hy
  | and a b iha ihb => exact iha.two ihb fun x y hx hy _ _ => (gives_bits T hx hy).1
  | or a b iha ihb => exact iha.two ihb fun x y hx hy _ _ => (gives_bits T hx hy).2.1
  | xor a b iha ihb => exact iha.two ihb fun x y hx hy _ _ => (gives_bits T hx hy).2.2
  | not a iha => exact iha.one fun x hx _ => gives_not T hx
  | neg h a iha => exact iha.one fun x hx _ => actual_neg T hx oc h
  | shl a n iha => exact iha.one fun x hx _ => actual_shl T hx oc n
  | shr a n iha => exact iha.one fun x hx _ => actual_shr T hx oc n
  | pow a n iha => exact iha.one fun x hx _ => gives_pow T hx n

theorem test_sem {ev : Expr sg → Option Int} (T : IsType w N)
    (H : ∀ e, ExprGives sg N (ev e) (eval oc s e)) (c : Cond sg) :
    test oc s c = condRes (c.sem ev) := by
  induction c with
  | eq a b =>
    exact (H a).compare (H b) fun x y hx hy => by
      rw [Bool.eq_iff_iff, decide_eq_true_eq, value_eq_iff hx hy, beq_iff_eq]
  | ne a b =>
    exact (H a).compare (H b) fun x y hx hy => by
      rw [Bool.eq_iff_iff, decide_eq_true_eq, ne_eq, value_eq_iff hx hy, bne_iff_ne]
  | lt a b => exact (H a).compare (H b) fun x y hx hy => (order_value T hx hy).1
  | le a b => exact (H a).compare (H b) fun x y hx hy => (order_value T hx hy).2.1
  | gt a b => exact (H a).compare (H b) fun x y hx hy => (order_value T hx hy).2.2.1
  | ge a b => exact (H a).compare (H b) fun x y hx hy => (order_value T hx hy).2.2.2
  | not c ih =>
    rw [test, ih, Cond.sem]
    cases c.sem ev <;> rfl
  | and c d ihc ihd =>
    rw [test, ihc, Cond.sem]
    cases h : c.sem ev with
    | none => rfl
    | some t =>
      cases t
      · rfl
      · exact ihd
  | or c d ihc ihd =>
    rw [test, ihc, Cond.sem]
    cases h : c.sem ev with
    | none => rfl
    | some t =>
      cases t
      · exact ihd
      · rfl

theorem repeatMeets_true {test : (Nat → Int) → Outcome Bool} {body : (Nat → Int) → Outcome (Nat → Int)} (k : Nat) :
    ∀ env, repeatMeets test body (fun _ => True) (fun _ => True) k env := by
  induction k with
  | zero => intro env; trivial
  | succ k ih => intro env; exact ⟨trivial, fun _ => ⟨trivial, fun _ _ => ih _⟩⟩

theorem run_sem {ev : (Nat → Int) → Expr sg → Option Int} (T : IsType w N)
    (H : ∀ (s : Nat → Limbs w) env, Denotes sg N s env → ∀ e, ExprGives sg N (ev env e) (eval oc s e))
    (k : Nat) (c : Cmd sg) : ∀ (s : Nat → Limbs w) env, Denotes sg N s env →
      CmdEnds sg N (c.sem ev k env) (run oc k c s) := by
  induction c with
  | skip => intro s env hd; exact ⟨s, rfl, hd⟩
  | set i e =>
    intro s env hd
    have h := H s env hd e
    rw [Cmd.sem, run]
    generalize ev env e = o at h
    cases o with
    | none => rw [show eval oc s e = .panic from h]; rfl
    | some z =>
      obtain ⟨x, ex, hx, rfl⟩ := h
      rw [ex]
      exact ⟨_, rfl, hd.update hx i⟩
  | seq c d ihc ihd =>
    intro s env hd
    exact (ihc s env hd).bind fun s' env' _ hd' => ihd s' env' hd'
  | ite b c d ihc ihd =>
    intro s env hd
    rw [Cmd.sem, run, test_sem T (H s env hd) b]
    refine .test fun t _ => ?_
    cases t
    · exact ihd s env hd
    · exact ihc s env hd
  | loop b c ih =>
    intro s env hd
    exact CmdEnds.repeat (fun s env hd _ => test_sem T (H s env hd) b) (fun s env hd _ => ih s env hd) k s env hd
      (repeatMeets_true k env)

end Repair

/-! ## With overflow checks the rules are those of the integers -/

theorem Expr.ideal_exact {n : Nat} (env : Nat → Int) (e : Expr sg) : e.ideal true n env = e.exact n env := by
  have hmod : ∀ {a : BitVec 32}, a.toNat < n → a.toNat % n = a.toNat := fun h => Nat.mod_eq_of_lt h
  induction e with
  | var i => rfl
  | add a b iha ihb | sub a b iha ihb | mul a b iha ihb | div a b iha ihb | and a b iha ihb | or a b iha ihb
  | xor a b iha ihb =>
    rw [Expr.ideal, Expr.exact, iha, ihb] <;> rfl
  | rem a b iha ihb =>
    rw [Expr.ideal, Expr.exact, iha, ihb]
    simp
  | not a iha | neg _ a iha | pow a _ iha => rw [Expr.ideal, Expr.exact, iha] <;> rfl
  | shl a t iha | shr a t iha =>
    rw [Expr.ideal, Expr.exact, iha]
    refine congrArg _ (funext fun x => ?_)
    by_cases h : t.toNat < n
    · simp [h, hmod h]
    · simp [h]

theorem reduce_fits {n : Nat} {z : Int} (hz : Fits sg n z) : reduce sg n z = z := by
  cases sg
  · have h : InU n z := by simpa [Fits] using hz
    simpa [reduce] using Int.emod_eq_of_lt h.1 h.2
  · have h : InS n z := by simpa [Fits] using hz
    simpa [reduce] using bmod_of_InS h

theorem settle_some {n : Nat} {z v : Int} (h : keep sg n z = some v) : settle false sg n z = some v := by
  unfold keep at h
  split at h
  · rename_i hz
    simpa [settle, reduce_fits hz] using h
  · cases h

/-- A value that the rules with overflow checks give is also given without. -/
theorem Expr.ideal_release {n : Nat} {env : Nat → Int} (e : Expr sg) : ∀ {z : Int}, e.exact n env = some z →
    e.ideal false n env = some z := by
  have two : ∀ {oa ob oa' ob' : Option Int} {f g : Int → Int → Option Int} {z : Int},
      (∀ {x}, oa = some x → oa' = some x) → (∀ {y}, ob = some y → ob' = some y) →
      (∀ x y, f x y = some z → g x y = some z) → (oa.bind fun x => ob.bind fun y => f x y) = some z →
      (oa'.bind fun x => ob'.bind fun y => g x y) = some z := by
    intro oa ob oa' ob' f g z ha hb h e
    cases oa with
    | none => cases e
    | some x =>
      cases ob with
      | none => cases e
      | some y => rw [ha rfl, hb rfl]; exact h x y e
  have one : ∀ {oa oa' : Option Int} {f g : Int → Option Int} {z : Int}, (∀ {x}, oa = some x → oa' = some x) →
      (∀ x, f x = some z → g x = some z) → oa.bind f = some z → oa'.bind g = some z := by
    intro oa oa' f g z ha h e
    cases oa with
    | none => cases e
    | some x => rw [ha rfl]; exact h x e
  induction e with
  | var i => exact fun h => h
  | add a b iha ihb | sub a b iha ihb | mul a b iha ihb => exact two iha ihb fun x y h => settle_some h
  | div a b iha ihb =>
    intro z
    refine two iha ihb fun x y h => ?_
    split at h
    · cases h
    · rename_i h0; rw [if_neg h0]; exact settle_some h
  | rem a b iha ihb =>
    intro z
    refine two iha ihb fun x y h => ?_
    split at h
    · cases h
    · rename_i h0; rw [if_neg (by tauto)]; exact h
  | and a b iha ihb | or a b iha ihb | xor a b iha ihb => exact two iha ihb fun x y h => h
  | not a iha => exact one iha fun x h => h
  | neg _ a iha | pow a _ iha => exact one iha fun x h => settle_some h
  | shl a t iha | shr a t iha =>
    intro z
    refine one iha fun x h => ?_
    split at h
    · rename_i ht; rw [if_neg (by simp), Nat.mod_eq_of_lt ht]; exact h
    · cases h

/-- `b` is the outcome `a`, unless that is a panic. -/
def Outcome.Kept {α : Type} (a b : Outcome α) : Prop := a ≠ .panic → b = a

theorem Outcome.Kept.bind {α β : Type} {a b : Outcome α} {f g : α → Outcome β} (h : Kept a b)
    (h' : ∀ x, Kept (f x) (g x)) : Kept (a.bind f) (b.bind g) := by
  cases a with
  | panic => exact fun e => absurd rfl e
  | more => rw [h (by simp)]; exact fun _ => rfl
  | ends x => rw [h (by simp)]; exact h' x

theorem Outcome.Kept.repeatWhile {α : Type} {t t' : α → Outcome Bool} {b b' : α → Outcome α}
    (ht : ∀ s, Kept (t s) (t' s)) (hb : ∀ s, Kept (b s) (b' s)) (k : Nat) :
    ∀ s, Kept (repeatWhile t b k s) (repeatWhile t' b' k s) := by
  induction k with
  | zero => exact fun s => (ht s).bind fun _ _ => rfl
  | succ k ih =>
    intro s
    refine (ht s).bind fun x => ?_
    cases x
    · exact fun _ => rfl
    · exact (hb s).bind ih

theorem Outcome.Kept.ofOption {α : Type} {a b : Option α} (h : ∀ x, a = some x → b = some x) :
    Kept (Outcome.ofOption a) (Outcome.ofOption b) := by
  cases a with
  | none => exact fun e => absurd rfl e
  | some x => rw [h x rfl]; exact fun _ => rfl

theorem Cond.sem_kept {ev ev' : Expr sg → Option Int} (h : ∀ e z, ev e = some z → ev' e = some z) (c : Cond sg) :
    ∀ t, c.sem ev = some t → c.sem ev' = some t := by
  have two : ∀ {a b : Expr sg} {f : Int → Int → Bool} {t : Bool},
      ((ev a).bind fun x => (ev b).bind fun y => some (f x y)) = some t →
      ((ev' a).bind fun x => (ev' b).bind fun y => some (f x y)) = some t := by
    intro a b f t e
    cases ha : ev a with
    | none => rw [ha] at e; cases e
    | some x =>
      cases hb : ev b with
      | none => rw [ha, hb] at e; cases e
      | some y => rw [h a x ha, h b y hb]; rw [ha, hb] at e; exact e
  induction c with
  | eq a b | ne a b | lt a b | le a b | gt a b | ge a b => exact fun t e => two e
  | not c ih =>
    intro t e
    rw [Cond.sem] at e ⊢
    cases hc : c.sem ev with
    | none => rw [hc] at e; cases e
    | some u => rw [hc] at e; rw [ih u hc]; exact e
  | and c d ihc ihd | or c d ihc ihd =>
    intro t e
    rw [Cond.sem] at e ⊢
    cases hc : c.sem ev with
    | none => rw [hc] at e; cases e
    | some u =>
      rw [hc] at e; rw [ihc u hc]
      cases u
      · first | exact e | exact ihd t e
      · first | exact ihd t e | exact e

theorem Cmd.sem_kept {ev ev' : (Nat → Int) → Expr sg → Option Int}
    (h : ∀ env e z, ev env e = some z → ev' env e = some z) (k : Nat) (c : Cmd sg) :
    ∀ env, Outcome.Kept (c.sem ev k env) (c.sem ev' k env) := by
  induction c with
  | skip => exact fun _ _ => rfl
  | set i e => exact fun env => (Outcome.Kept.ofOption (h env e)).bind fun _ _ => rfl
  | seq c d ihc ihd => exact fun env => (ihc env).bind ihd
  | ite b c d ihc ihd =>
    intro env
    refine (Outcome.Kept.ofOption (b.sem_kept (h env))).bind fun t => ?_
    cases t
    · exact ihd env
    · exact ihc env
  | loop b c ih =>
    intro env
    exact Outcome.Kept.repeatWhile (fun env => Outcome.Kept.ofOption (b.sem_kept (h env))) ih k env

theorem Cmd.ideal_exact {n : Nat} : Cmd.ideal (sg := sg) true n = Cmd.exact n := by
  unfold Cmd.ideal Cmd.exact
  congr 1
  funext env e
  exact e.ideal_exact env

end I256
