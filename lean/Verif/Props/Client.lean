import Verif.Lemmas.Client
import Verif.Props.Mixed

/-!
# C108: client code can divide exactly

Long division of the crate is wrong for some operands (C13, C14, C17).  A division by shifts and subtractions, written
with the operators that C106 proves exact, is right for all.
-/

namespace I256

open Sample

variable {w N : Nat} {s : Bool → Nat → Limbs w}

/-- Unsigned `u2 = u0 / u1` and `u3 = u0 % u1`:
`u2 = 0; u3 = u0; u4 = u1; u5 = 1; u6 = 0;`
`while u4 <= u3 && u4 <= u3 - u4 { u4 = u4 + u4; u5 = u5 + u5 }`
`while u5 != u6 { if u3 >= u4 { u3 = u3 - u4; u2 = u2 + u5 } u4 = u4 >> 1; u5 = u5 >> 1 }`. -/
def Sample.divide : Mix :=
  .seq (.lit false 2 0) <| .seq (.set (sg := false) 3 (.var 0)) <| .seq (.set (sg := false) 4 (.var 1)) <|
  .seq (.lit false 5 1) <| .seq (.lit false 6 0) <|
  .seq (.loop (sg := false) (.and (.le (.var 4) (.var 3)) (.le (.var 4) (.sub (.var 3) (.var 4))))
    (.seq (.set (sg := false) 4 (.add (.var 4) (.var 4))) (.set (sg := false) 5 (.add (.var 5) (.var 5))))) <|
  .loop (sg := false) (.ne (.var 5) (.var 6))
    (.seq (.ite (sg := false) (.ge (.var 3) (.var 4))
        (.seq (.set (sg := false) 3 (.sub (.var 3) (.var 4))) (.set (sg := false) 2 (.add (.var 2) (.var 5)))) .skip)
      (.seq (.set (sg := false) 4 (.shr (.var 4) 1)) (.set (sg := false) 5 (.shr (.var 5) 1))))

theorem Sample.divide_plain : divide.Plain := by
  simp [divide, Mix.Plain, Cond.Plain, Expr.Plain]

/-- The first loop: `u4` and `u5` are the divisor and one, doubled `j` times. -/
def Sample.Up (n : Nat) (x y : Nat) (base : Bool → Nat → Int) (m : Nat) (env : Bool → Nat → Int) : Prop :=
  ∃ j, m = n - j ∧ env false 4 = (y * 2 ^ j : Nat) ∧ env false 5 = (2 ^ j : Nat) ∧ (j = 0 ∨ y * 2 ^ j ≤ x) ∧
    env false 2 = 0 ∧ env false 3 = x ∧ env false 6 = 0 ∧ env true = base true ∧ env false 0 = base false 0 ∧
    env false 1 = base false 1

/-- The second loop, with `m` rounds to go. -/
def Sample.Down (x y : Nat) (base : Bool → Nat → Int) (m : Nat) (env : Bool → Nat → Int) : Prop :=
  ∃ q r : Nat, env false 2 = q ∧ env false 3 = r ∧ q * y + r = x ∧ r < y * 2 ^ m ∧
    ((m = 0 ∧ env false 5 = 0) ∨ ∃ j, m = j + 1 ∧ env false 4 = (y * 2 ^ j : Nat) ∧ env false 5 = (2 ^ j : Nat)) ∧
    env false 6 = 0 ∧ env true = base true ∧ env false 0 = base false 0 ∧ env false 1 = base false 1

theorem Sample.halve {n x y k : Nat} {base env : Bool → Nat → Int} (hn : 1 < n) (j : Nat)
    (h : ∃ q r : Nat, env false 2 = q ∧ env false 3 = r ∧ q * y + r = x ∧ r < y * 2 ^ j ∧
      env false 4 = (y * 2 ^ j : Nat) ∧ env false 5 = (2 ^ j : Nat) ∧ env false 6 = 0 ∧ env true = base true ∧
      env false 0 = base false 0 ∧ env false 1 = base false 1) :
    Mix.Ends n k (.seq (.set (sg := false) 4 (.shr (.var 4) 1)) (.set (sg := false) 5 (.shr (.var 5) 1))) env
      fun e => ∃ m', m' < j + 1 ∧ Down x y base m' e := by
  obtain ⟨q, r, h2, h3, hq, hr, h4, h5, h6, ht, h0, h1⟩ := h
  refine .seq (.set (y * 2 ^ j / 2 : Nat) ?_ (.set (2 ^ j / 2 : Nat) ?_ ⟨j, by omega, q, r, ?_⟩))
  · simp [Expr.exact, h4, hn]
  · simp [Expr.exact, setVar_apply, h5, hn]
  · simp [setVar_apply, setVar_other, h2, h3, hq, hr, h6, ht, h0, h1]
    cases j with
    | zero => left; simp
    | succ j =>
      right
      refine ⟨j, rfl, ?_, ?_⟩
      · rw [pow_succ, ← Int.mul_assoc, Int.mul_ediv_cancel _ (by decide)]
      · rw [pow_succ, Int.mul_ediv_cancel _ (by decide)]

theorem Sample.divide_exact {n x y : Nat} (hn : 1 < n) (base : Bool → Nat → Int) (hx : base false 0 = x)
    (hy : base false 1 = y) (hxn : x < 2 ^ n) (hy0 : 0 < y) {k : Nat} (hk : n ≤ k) :
    divide.Ends n k base fun env' => env' false 2 = (x / y : Nat) ∧ env' false 3 = (x % y : Nat) ∧
      env' true = base true ∧ env' false 0 = x ∧ env' false 1 = y := by
  have hxn' : (x : Int) < 2 ^ n := by exact_mod_cast hxn
  refine .seq (.lit (.seq (.set x ?_ (.seq (.set y ?_ (.seq (.lit (.seq (.lit (.seq
    (.loop (I := Up n x y base) (m := n) hk ?_ ?_)))))))))))
  · simp [Expr.exact, setVar_apply, hx]
  · simp [Expr.exact, setVar_apply, hy]
  · refine ⟨0, by simp, ?_⟩
    simp [setVar_apply, setVar_other, hx, hy]
  · rintro m env ⟨j, rfl, h4, h5, hj, h2, h3, h6, ht, h0, h1⟩
    have e2 : y * 2 ^ (j + 1) = y * 2 ^ j + y * 2 ^ j := by rw [pow_succ]; ring
    have e3 : 2 ^ (j + 1) = 2 ^ j + 2 ^ j := by rw [pow_succ]; ring
    have l1 : 2 ^ j ≤ y * 2 ^ j := Nat.le_mul_of_pos_left _ hy0
    have l2 : 0 < 2 ^ j := by positivity
    by_cases hc : y * 2 ^ (j + 1) ≤ x
    · right
      have hjn : j < n := by
        by_contra hge
        have : 2 ^ n ≤ 2 ^ j := Nat.pow_le_pow_right (by omega) (by omega)
        omega
      have k1 : keep false n ((x : Int) - (y * 2 ^ j : Nat)) = some ((x : Int) - (y * 2 ^ j : Nat)) :=
        keep_nat (by omega) (by omega)
      refine ⟨?_, .seq (.set (y * 2 ^ (j + 1) : Nat) ?_
        (.set (2 ^ (j + 1) : Nat) ?_ ⟨n - (j + 1), by omega, j + 1, rfl, ?_⟩))⟩
      · simp only [Cond.sem, Expr.exact, h4, h3, Option.bind_eq_bind, Option.bind_some, k1]
        rw [decide_eq_true (by omega), decide_eq_true (by omega)]; rfl
      · simp only [Expr.exact, h4, Option.bind_eq_bind, Option.bind_some]
        rw [keep_nat (by omega) (by omega)]; congr 1; omega
      · simp only [Expr.exact, setVar_apply, h5, Option.bind_eq_bind, Option.bind_some]
        simp only [Nat.reduceEqDiff, and_false, if_false]
        rw [keep_nat (by omega) (by omega)]; congr 1; omega
      · simp [setVar_apply, setVar_other, h2, h3, h6, ht, h0, h1]
        omega
    · left
      constructor
      · by_cases hle : y * 2 ^ j ≤ x
        · have k1 : keep false n ((x : Int) - (y * 2 ^ j : Nat)) = some ((x : Int) - (y * 2 ^ j : Nat)) :=
            keep_nat (by omega) (by omega)
          simp only [Cond.sem, Expr.exact, h4, h3, Option.bind_eq_bind, Option.bind_some, k1]
          rw [decide_eq_true (by omega), decide_eq_false (by omega)]; rfl
        · simp only [Cond.sem, Expr.exact, h4, h3, Option.bind_eq_bind, Option.bind_some]
          rw [decide_eq_false (by omega)]; rfl
      refine .loop (I := Down x y base) (m := j + 1) ?_
        ⟨0, x, h2, h3, by simp, by omega, .inr ⟨j, rfl, h4, h5⟩, h6, ht, h0, h1⟩ ?_
      · rcases hj with rfl | hj
        · omega
        · have : j < n := by
            by_contra hge
            have : 2 ^ n ≤ 2 ^ j := Nat.pow_le_pow_right (by omega) (by omega)
            omega
          omega
      · rintro m env ⟨q, r, h2, h3, hq, hr, hcase, h6, ht, h0, h1⟩
        rcases hcase with ⟨rfl, h5⟩ | ⟨j, rfl, h4, h5⟩
        · left
          refine ⟨by simp [Cond.sem, Expr.exact, h5, h6], ?_⟩
          have hr' : r < y := by simpa using hr
          have e1 : x / y = q := by
            rw [← hq, Nat.add_comm, Nat.add_mul_div_right _ _ hy0, Nat.div_eq_of_lt hr', Nat.zero_add]
          have e2 : x % y = r := by
            rw [← hq, Nat.add_comm, Nat.add_mul_mod_self_right, Nat.mod_eq_of_lt hr']
          exact ⟨by rw [h2, e1], by rw [h3, e2], ht, h0.trans hx, h1.trans hy⟩
        · right
          have l2 : 0 < 2 ^ j := by positivity
          have e2 : y * 2 ^ (j + 1) = y * 2 ^ j + y * 2 ^ j := by rw [pow_succ]; ring
          constructor
          · simp only [Cond.sem, Expr.exact, h5, h6, Option.bind_eq_bind, Option.bind_some]
            rw [decide_eq_true (by omega)]
          refine .seq ?_
          by_cases hc : y * 2 ^ j ≤ r
          · have le : (q + 2 ^ j) * y ≤ x := by
              rw [← hq, Nat.add_mul, Nat.mul_comm (2 ^ j)]; omega
            have le' : q + 2 ^ j ≤ (q + 2 ^ j) * y := Nat.le_mul_of_pos_right _ hy0
            refine .yes ?_ (.seq (.set (r - y * 2 ^ j : Nat) ?_ (.set (q + 2 ^ j : Nat) ?_
              (halve hn j ⟨q + 2 ^ j, r - y * 2 ^ j, ?_⟩))))
            · simp only [Cond.sem, Expr.exact, h3, h4, Option.bind_eq_bind, Option.bind_some]
              rw [decide_eq_true (by omega)]
            · simp only [Expr.exact, h3, h4, Option.bind_eq_bind, Option.bind_some]
              rw [keep_nat (by omega) (by omega)]; congr 1; omega
            · simp only [Expr.exact, setVar_apply, h2, h5, Option.bind_eq_bind, Option.bind_some, Nat.reduceEqDiff,
                and_false, if_false]
              rw [keep_nat (by omega) (by omega)]; congr 1
            · simp [setVar_apply, setVar_other, h4, h5, h6, ht, h0, h1]
              refine ⟨?_, ?_⟩
              · rw [Nat.add_mul, Nat.mul_comm (2 ^ j)]; omega
              · omega
          · refine .no ?_ (.skip (halve hn j ⟨q, r, h2, h3, hq, by omega, h4, h5, h6, ht, h0, h1⟩))
            simp only [Cond.sem, Expr.exact, h3, h4, Option.bind_eq_bind, Option.bind_some]
            rw [decide_eq_false (by omega)]

theorem Sample.divide_zero {n : Nat} (hn : 1 < n) (base : Bool → Nat → Int) (hx : 0 ≤ base false 0)
    (hy : base false 1 = 0) {k : Nat} (hk : n ≤ k) (hxn : base false 0 < 2 ^ n) : divide.Fails n k base := by
  refine .seq (.lit (.seq (.set (base false 0) ?_ (.seq (.set 0 ?_ (.seq (.lit (.seq (.lit (.first
    (.loop (I := fun m env => m ≤ n ∧ 0 < m ∧ env false 3 = base false 0 ∧ env false 4 = 0 ∧
      env false 5 = (2 ^ (n - m) : Nat)) (m := n) hk ?_ ?_)))))))))))
  · simp [Expr.exact, setVar_apply]
  · simp [Expr.exact, setVar_apply, hy]
  · simp [setVar_apply]; omega
  · rintro m env ⟨hm, h0, h3, h4, h5⟩
    have hs : keep false n (base false 0 - 0) = some (base false 0) := by rw [sub_zero]; exact keep_nat hx hxn
    have h00 : keep false n (0 + 0) = some 0 := keep_nat (by omega) (by positivity)
    refine ⟨by simp [Cond.sem, Expr.exact, h3, h4, hx, keep_nat hx hxn], h0, ?_⟩
    have e : ((2 ^ (n - m) : Nat) : Int) + (2 ^ (n - m) : Nat) = (2 ^ (n - m + 1) : Nat) := by
      push_cast; rw [pow_succ]; ring
    by_cases h1 : m = 1
    · left
      refine .seq (.set 0 (by simp [Expr.exact, h4]; exact h00) (.set ?_))
      simp only [Expr.exact, setVar_apply, h5, Option.bind_eq_bind, Option.bind_some, Nat.reduceEqDiff, and_false,
        if_false, e]
      refine if_neg fun h => ?_
      have := h.2
      rw [show n - m + 1 = n by omega] at this
      push_cast at this
      omega
    · right
      refine .seq (.set 0 (by simp [Expr.exact, h4]; exact h00) (.set (2 ^ (n - m + 1) : Nat) ?_ ⟨m - 1, by omega, ?_⟩))
      · simp only [Expr.exact, setVar_apply, h5, Option.bind_eq_bind, Option.bind_some, Nat.reduceEqDiff, and_false,
          if_false, e]
        refine keep_nat (by positivity) ?_
        have : 2 ^ (n - m + 1) < 2 ^ n := Nat.pow_lt_pow_right (by omega) (by omega)
        exact_mod_cast this
      · simp [setVar_apply, h3, show n - (m - 1) = n - m + 1 by omega]
        omega

/-- C108: division by shifts and subtractions gives the exact quotient and remainder in both builds, for all operands;
a divisor of zero is a panic in a build with overflow checks.  Each loop takes at most as many rounds as the type has
bits. -/
theorem C108_divide (T : IsType w N) (hs : ∀ sg i, (s sg i).length = N) {k : Nat} (hk : w * N ≤ k) :
    (toNat (s false 1) ≠ 0 → ∀ oc, ∃ s', divide.run oc N k s = .ends s' ∧
      toNat (s' false 2) = toNat (s false 0) / toNat (s false 1) ∧
      toNat (s' false 3) = toNat (s false 0) % toNat (s false 1)) ∧
    (toNat (s false 1) = 0 → divide.run true N k s = .panic) := by
  have h := C106_plain T hs divide divide_plain k
  have hn : 1 < w * N := by have := T.large; omega
  have hx : toNat (s false 0) < 2 ^ (w * N) := by
    have := toNat_lt (s false 0)
    rwa [bits, hs] at this
  constructor
  · intro h0 oc
    obtain ⟨env, e, h2, h3, -⟩ := divide_exact (x := toNat (s false 0)) (y := toNat (s false 1)) hn
      (fun sg i => value sg (s sg i)) rfl rfl hx (by omega) hk
    rw [e] at h
    obtain ⟨s', es, hd⟩ := h
    refine ⟨s', ?_, Int.ofNat.inj ((hd false 2).2.trans h2), Int.ofNat.inj ((hd false 3).2.trans h3)⟩
    cases oc
    · exact ((C106_debug_release T hs divide k).1 s' es).1
    · exact es
  · intro h0
    have hf := divide_zero hn (fun sg i => value sg (s sg i)) (Int.natCast_nonneg _)
      (show (toNat (s false 1) : Int) = 0 by omega) hk
      (show (toNat (s false 0) : Int) < 2 ^ (w * N) by exact_mod_cast hx)
    rw [show divide.exact (w * N) k (fun sg i => value sg (s sg i)) = .panic from hf] at h
    exact h

example := C108_divide (s := both) (by decide) both_length (k := 256) (by decide)
/-- Operands for which the remainder of the crate is wrong. -/
example : (toNat (both false 0) % toNat (both false 1) : Nat) = 2 ^ 159 - 4 ∧
    (U.rem true (both false 0) (both false 1)).map toNat ≠ .ok (2 ^ 159 - 4) := by decide +kernel

/-- Signed `v2 = v0 / v1` and `v3 = v0 % v1` after the division of the absolute values in `u2` and `u3`:
`v4 = 0; u6 = 0; u7 = 1;`
`if v0 < v4 && v1 >= v4 || v0 >= v4 && v1 < v4 {`
`  if u2 != u6 { u2 = u2 - u7; v2 = u2.as_signed(); v2 = !v2 } else { v2 = v4 }`
`} else { v2 = u2.as_signed(); u8 = U::try_from(v2).unwrap() }`
`v3 = u3.as_signed(); if v0 < v4 { v3 = -v3 }`. -/
def Sample.signs : Mix :=
  .seq (.lit true 4 0) <| .seq (.lit false 6 0) <| .seq (.lit false 7 1) <|
  .seq (.ite (sg := true) (.or (.and (.lt (.var 0) (.var 4)) (.ge (.var 1) (.var 4)))
      (.and (.ge (.var 0) (.var 4)) (.lt (.var 1) (.var 4))))
    (.ite (sg := false) (.ne (.var 2) (.var 6))
      (.seq (.set (sg := false) 2 (.sub (.var 2) (.var 7))) <| .seq (.move .asSigned 2 2)
        (.set (sg := true) 2 (.not (.var 2))))
      (.set (sg := true) 2 (.var 4)))
    (.seq (.move .asSigned 2 2) (.move .tryUnsigned 8 2))) <|
  .seq (.move .asSigned 3 3) <|
  .ite (sg := true) (.lt (.var 0) (.var 4)) (.set (sg := true) 3 (.neg rfl (.var 3))) .skip

/-- Signed division by way of the absolute values. -/
def Sample.divideS : Mix :=
  .seq (.move .unsignedAbs 0 0) <| .seq (.move .unsignedAbs 1 1) <| .seq divide signs

theorem Sample.divideS_plain : divideS.Plain := by
  simp [divideS, divide, signs, Mix.Plain, Cond.Plain, Expr.Plain]

theorem Sample.signs_test {n : Nat} {x y : Int} {env : Nat → Int} (hx : env 0 = x) (hy : env 1 = y) (h4 : env 4 = 0) :
    ((Cond.or (sg := true) (.and (.lt (.var 0) (.var 4)) (.ge (.var 1) (.var 4)))
      (.and (.ge (.var 0) (.var 4)) (.lt (.var 1) (.var 4)))).sem fun e => e.exact n env) =
        some (!decide (x < 0 ↔ y < 0)) := by
  simp only [Cond.sem, Expr.exact, hx, hy, h4]
  rcases lt_or_ge x 0 with h1 | h1 <;> rcases lt_or_ge y 0 with h5 | h5
  · simp [h1, h5, not_le.2 h1, not_le.2 h5]
  · simp [h1, h5, not_lt.2 h5]
  · simp [h1, h5, not_lt.2 h1]
  · simp [h1, not_lt.2 h1, not_lt.2 h5]

theorem Sample.signs_rem {n k r : Nat} {x z : Int} (hn : 0 < n) {env : Bool → Nat → Int} (hx : env true 0 = x)
    (h2 : env true 2 = z) (h3 : env false 3 = r) (h4 : env true 4 = 0) (hr : (r : Int) < 2 ^ (n - 1)) :
    Mix.Ends n k (.seq (.move .asSigned 3 3) <|
      .ite (sg := true) (.lt (.var 0) (.var 4)) (.set (sg := true) 3 (.neg rfl (.var 3))) .skip) env
      fun e => e true 2 = z ∧ e true 3 = if x < 0 then -(r : Int) else r := by
  have hp : (2 : Int) ^ n = 2 * 2 ^ (n - 1) := by
    rw [← pow_succ', Nat.sub_add_cancel (by omega)]
  refine .seq (.move r ?_ ?_)
  · simp only [Move.exact, Move.src, h3, reduce, if_true]
    rw [bmod_of_InS (by unfold InS; omega)]
  · by_cases hc : x < 0
    · refine .yes ?_ (.set (-(r : Int)) ?_ ?_)
      · simp [Cond.sem, Expr.exact, setVar_apply, Move.src, hx, h4, hc]
      · simp only [Expr.exact, setVar_apply, Move.src]
        exact if_pos (show InS n (-(r : Int)) by unfold InS; omega)
      · simp [setVar_apply, Move.src, h2, hc]
    · refine .no ?_ (.skip ?_)
      · simp [Cond.sem, Expr.exact, setVar_apply, Move.src, hx, h4, hc]
      · simp [setVar_apply, Move.src, h2, hc]

theorem Sample.signs_exact {n k q r : Nat} {x y : Int} (hn : 0 < n) {env : Bool → Nat → Int} (hx : env true 0 = x)
    (hy : env true 1 = y) (h2 : env false 2 = q) (h3 : env false 3 = r) (hr : (r : Int) < 2 ^ (n - 1))
    (hq : (q : Int) ≤ 2 ^ (n - 1)) (hd : (x < 0 ↔ y < 0) → (q : Int) < 2 ^ (n - 1)) :
    signs.Ends n k env fun e => e true 2 = (if x < 0 ↔ y < 0 then (q : Int) else -q) ∧
      e true 3 = if x < 0 then -(r : Int) else r := by
  have hp : (2 : Int) ^ n = 2 * 2 ^ (n - 1) := by
    rw [← pow_succ', Nat.sub_add_cancel (by omega)]
  have hpos : (0 : Int) < 2 ^ (n - 1) := by positivity
  have fit : ∀ z : Int, 0 ≤ z → z < 2 ^ (n - 1) → reduce true n z = z := fun z h h' =>
    bmod_of_InS (by unfold InS; omega)
  refine .seq (.lit (.seq (.lit (.seq (.lit (.seq ?_))))))
  have test := signs_test (n := n) (env := setVar (setVar (setVar env true 4 0) false 6 0) false 7 1 true) (x := x) (y := y)
    (by simp [setVar_apply, hx]) (by simp [setVar_apply, hy]) (by simp [setVar_apply])
  change Mix.Ends n k _ (setVar (setVar (setVar env true 4 0) false 6 0) false 7 1) _
  by_cases hc : x < 0 ↔ y < 0
  · refine .no (by rw [test]; simp [hc]) (.seq (.move q ?_ (.move q ?_ ?_)))
    · simp [Move.exact, Move.src, setVar_apply, h2, fit q (by omega) (hd hc)]
    · simp [Move.exact, Move.src, setVar_apply]
      exact keep_nat (by omega) (by have := hd hc; omega)
    · refine signs_rem hn ?_ ?_ ?_ ?_ hr <;> simp [setVar_apply, Move.src, hx, h3, hc]
  · refine .yes (by rw [test]; simp [hc]) ?_
    by_cases h0 : q = 0
    · refine .no ?_ (.set 0 ?_ ?_)
      · simp [Cond.sem, Expr.exact, setVar_apply, h2, h0]
      · simp [Expr.exact, setVar_apply]
      · refine signs_rem hn ?_ ?_ ?_ ?_ hr <;> simp [setVar_apply, hx, h3, hc, h0]
    · refine .yes ?_ (.seq (.set (q - 1 : Int) ?_ (.seq (.move (q - 1 : Int) ?_ (.set (-q : Int) ?_ ?_)))))
      · simp [Cond.sem, Expr.exact, setVar_apply, h2, h0]
      · simp [Expr.exact, setVar_apply, h2]
        exact keep_nat (by omega) (by omega)
      · simp [Move.exact, Move.src, setVar_apply, fit (q - 1) (by omega) (by omega)]
      · simp [Expr.exact, setVar_apply, Move.src]; omega
      · refine signs_rem hn ?_ ?_ ?_ ?_ hr <;> simp [setVar_apply, Move.src, hx, h3, hc]

theorem Sample.abs_tdiv (x y : Int) : x.tdiv y = (if x < 0 ↔ y < 0 then ((x.natAbs / y.natAbs : Nat) : Int)
      else -((x.natAbs / y.natAbs : Nat) : Int)) ∧
    x.tmod y = if x < 0 then -((x.natAbs % y.natAbs : Nat) : Int) else (x.natAbs % y.natAbs : Nat) := by
  rcases lt_or_ge x 0 with h1 | h1 <;> rcases lt_or_ge y 0 with h5 | h5
  · obtain ⟨a, rfl⟩ : ∃ a : Nat, x = -a := ⟨x.natAbs, by omega⟩
    obtain ⟨b, rfl⟩ : ∃ b : Nat, y = -b := ⟨y.natAbs, by omega⟩
    rw [if_pos (iff_of_true h1 h5), if_pos h1]
    simp [Int.tmod_eq_emod_of_nonneg]
  · obtain ⟨a, rfl⟩ : ∃ a : Nat, x = -a := ⟨x.natAbs, by omega⟩
    obtain ⟨b, rfl⟩ : ∃ b : Nat, y = b := ⟨y.natAbs, by omega⟩
    rw [if_neg (fun h => not_lt.2 h5 (h.1 h1)), if_pos h1]
    simp [Int.tmod_eq_emod_of_nonneg]
  · obtain ⟨a, rfl⟩ : ∃ a : Nat, x = a := ⟨x.natAbs, by omega⟩
    obtain ⟨b, rfl⟩ : ∃ b : Nat, y = -b := ⟨y.natAbs, by omega⟩
    rw [if_neg (fun h => not_lt.2 h1 (h.2 h5)), if_neg (not_lt.2 h1)]
    simp [Int.tmod_eq_emod_of_nonneg]
  · obtain ⟨a, rfl⟩ : ∃ a : Nat, x = a := ⟨x.natAbs, by omega⟩
    obtain ⟨b, rfl⟩ : ∃ b : Nat, y = b := ⟨y.natAbs, by omega⟩
    rw [if_pos (iff_of_false (not_lt.2 h1) (not_lt.2 h5)), if_neg (not_lt.2 h1)]
    simp [Int.tmod_eq_emod_of_nonneg]

theorem Sample.divideS_exact {n k : Nat} {x y : Int} (hn : 1 < n) (base : Bool → Nat → Int) (hx : base true 0 = x)
    (hy : base true 1 = y) (ix : InS n x) (iy : InS n y) (hk : n ≤ k) :
    (y ≠ 0 → InS n (x.tdiv y) → divideS.Ends n k base fun e => e true 2 = x.tdiv y ∧ e true 3 = x.tmod y) ∧
      (y = 0 ∨ ¬ InS n (x.tdiv y) → divideS.Fails n k base) := by
  have hp : (2 : Int) ^ n = 2 * 2 ^ (n - 1) := by
    rw [← pow_succ', Nat.sub_add_cancel (by omega)]
  have hpos : (0 : Int) < 2 ^ (n - 1) := by positivity
  obtain ⟨t1, t2⟩ := abs_tdiv x y
  unfold InS at ix iy
  have ax : (x.natAbs : Int) ≤ 2 ^ (n - 1) := by omega
  have ay : (y.natAbs : Int) ≤ 2 ^ (n - 1) := by omega
  have hxn : x.natAbs < 2 ^ n := by
    have : (x.natAbs : Int) < ((2 ^ n : Nat) : Int) := by rw [Nat.cast_pow, Nat.cast_ofNat]; omega
    exact_mod_cast this
  have hq : ((x.natAbs / y.natAbs : Nat) : Int) ≤ 2 ^ (n - 1) := by
    have := Nat.div_le_self x.natAbs y.natAbs
    omega
  have hq0 : (0 : Int) ≤ (x.natAbs / y.natAbs : Nat) := Int.natCast_nonneg _
  have hr : y ≠ 0 → ((x.natAbs % y.natAbs : Nat) : Int) < 2 ^ (n - 1) := by
    intro h0
    have := Nat.mod_lt x.natAbs (show 0 < y.natAbs by omega)
    omega
  -- the state after the two absolute values
  have start : ∀ {Q : (Bool → Nat → Int) → Prop},
      (∀ e : Bool → Nat → Int, e false 0 = x.natAbs → e false 1 = y.natAbs → e true = base true → Q e) →
      Mix.Ends n k (.move .unsignedAbs 0 0) base fun e => Mix.Ends n k (.move .unsignedAbs 1 1) e Q := by
    intro Q h
    refine .move x.natAbs ?_ (.move y.natAbs ?_ (h _ ?_ ?_ ?_))
    · simp [Move.exact, Move.src, hx]
    · simp [Move.exact, Move.src, setVar_apply, hy]
    · simp [Move.src, setVar_apply]
    · simp [Move.src, setVar_apply]
    · simp [Move.src, setVar_other]
  constructor
  · intro h0 hi
    refine .seq ((start fun e e0 e1 et => ?_).mono fun _ h => .seq h)
    refine .seq ((divide_exact hn e e0 e1 hxn (by omega) hk).mono ?_)
    rintro f ⟨f2, f3, ft, -, -⟩
    rw [t1, t2]
    refine signs_exact (by omega) ?_ ?_ f2 f3 (hr h0) hq ?_
    · rw [ft, et, hx]
    · rw [ft, et, hy]
    · intro hs
      rw [t1, if_pos hs] at hi
      unfold InS at hi
      omega
  · intro h
    by_cases h0 : y = 0
    · refine .seq ((start fun e e0 e1 et => ?_).mono fun _ h => .seq h)
      exact .first (divide_zero hn e (by rw [e0]; omega) (by rw [e1, h0]; rfl) hk (by rw [e0]; omega))
    · replace h := h.resolve_left h0
      refine .seq ((start fun e e0 e1 et => ?_).mono fun _ h => .seq h)
      refine .seq ((divide_exact hn e e0 e1 hxn (by omega) hk).mono ?_)
      rintro f ⟨f2, f3, ft, -, -⟩
      have hs : x < 0 ↔ y < 0 := by
        by_contra hs
        rw [t1, if_neg hs] at h
        exact h (by unfold InS; omega)
      rw [t1, if_pos hs] at h
      have e : ((x.natAbs / y.natAbs : Nat) : Int) = 2 ^ (n - 1) := by
        unfold InS at h; omega
      have test := signs_test (n := n) (env := setVar (setVar (setVar f true 4 0) false 6 0) false 7 1 true) (x := x)
        (y := y) (by simp [setVar_apply, ft, et, hx]) (by simp [setVar_apply, ft, et, hy]) (by simp [setVar_apply])
      refine .seq (.lit (.seq (.lit (.seq (.lit (.first ?_))))))
      change Mix.Fails n k _ (setVar (setVar (setVar f true 4 0) false 6 0) false 7 1)
      refine .no (by rw [test]; simp [hs]) (.seq (.move (-2 ^ (n - 1)) ?_ (.move ?_)))
      · simp only [Move.exact, Move.src, setVar_apply]
        simp only [Nat.reduceEqDiff, and_false, if_false, f2, e, Bool.false_eq_true]
        simp only [reduce, if_true]
        rw [show (2 : Int) ^ (n - 1) = -2 ^ (n - 1) + ((2 ^ n : Nat) : Int) * 1 by push_cast; omega,
          Int.add_mul_bmod_self_left, bmod_of_InS (by unfold InS; omega)]
        simp; omega
      · simp [Move.exact, Move.src, setVar_apply]
        exact if_neg fun h => by have := h.1; omega

/-- C108: signed division by way of the absolute values gives the exact quotient and remainder, rounded toward zero, in
both builds; a divisor of zero and `MIN / -1` are panics in a build with overflow checks. -/
theorem C108_divide_signed (T : IsType w N) (hs : ∀ sg i, (s sg i).length = N) {k : Nat} (hk : w * N ≤ k) :
    (toInt (s true 1) ≠ 0 → InS (w * N) ((toInt (s true 0)).tdiv (toInt (s true 1))) → ∀ oc, ∃ s',
      divideS.run oc N k s = .ends s' ∧ toInt (s' true 2) = (toInt (s true 0)).tdiv (toInt (s true 1)) ∧
      toInt (s' true 3) = (toInt (s true 0)).tmod (toInt (s true 1))) ∧
    (toInt (s true 1) = 0 ∨ ¬ InS (w * N) ((toInt (s true 0)).tdiv (toInt (s true 1))) →
      divideS.run true N k s = .panic) := by
  have h := C106_plain T hs divideS divideS_plain k
  have hn : 1 < w * N := by have := T.large; omega
  have hi : ∀ i, InS (w * N) (toInt (s true i)) := by
    intro i
    have := toInt_InS (s true i)
    rwa [bits, hs] at this
  obtain ⟨h1, h2⟩ := divideS_exact hn (fun sg i => value sg (s sg i)) rfl rfl (hi 0) (hi 1) hk
  constructor
  · intro h0 hf oc
    obtain ⟨env, e, e2, e3⟩ := h1 h0 hf
    rw [e] at h
    obtain ⟨s', es, hd⟩ := h
    refine ⟨s', ?_, (hd true 2).2.trans e2, (hd true 3).2.trans e3⟩
    cases oc
    · exact ((C106_debug_release T hs divideS k).1 s' es).1
    · exact es
  · intro h0
    rw [show divideS.exact (w * N) k (fun sg i => value sg (s sg i)) = .panic from h2 h0] at h
    exact h

example := C108_divide_signed (s := both) (by decide) both_length (k := 256) (by decide)
example : toInt (both true 1) ≠ 0 ∧ InS 256 ((toInt (both true 0)).tdiv (toInt (both true 1))) := by decide +kernel
/-- `MIN / -1` is a panic. -/
example : divideS.run true 4 256 (fun sg i => if sg ∧ i = 0 then I.minValue 64 4 else
    if sg ∧ i = 1 then List.replicate 4 (-1) else List.replicate 4 (0 : BitVec 64)) = .panic :=
  (C108_divide_signed (by decide) (by intro sg i; split <;> (try split) <;> rfl)
    (by decide)).2 (.inr (by decide +kernel))

end I256
