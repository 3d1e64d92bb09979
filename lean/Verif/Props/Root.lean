import Verif.Props.Client
import Mathlib.Data.Nat.Sqrt

/-!
# C113: square root and greatest common divisor in client code

The crate leaves `isqrt` out (src/uint/ops.rs L154-159).  A square root by shifts and subtractions and the algorithm of
Euclid with the division of C108, written with the operators that C106 proves exact, are right for all operands.
-/

namespace I256

open Sample

variable {w N : Nat} {s : Bool → Nat → Limbs w}

/-- Unsigned `u1` the root of `u0` and `u2` what is left:
`u1 = 0; u2 = u0; u3 = 1; u4 = 0;`
`while u3 <= u2 >> 2 { u3 = u3 << 2 }`
`while u3 != u4 { u5 = u1 + u3;`
`  if u2 >= u5 { u2 = u2 - u5; u1 = (u1 >> 1) + u3 } else { u1 = u1 >> 1 }`
`  u3 = u3 >> 2 }`. -/
def Sample.root : Mix :=
  .seq (.lit false 1 0) <| .seq (.set (sg := false) 2 (.var 0)) <| .seq (.lit false 3 1) <| .seq (.lit false 4 0) <|
  .seq (.loop (sg := false) (.le (.var 3) (.shr (.var 2) 2)) (.set (sg := false) 3 (.shl (.var 3) 2))) <|
  .loop (sg := false) (.ne (.var 3) (.var 4)) <|
    .seq (.set (sg := false) 5 (.add (.var 1) (.var 3))) <|
    .seq (.ite (sg := false) (.ge (.var 2) (.var 5))
      (.seq (.set (sg := false) 2 (.sub (.var 2) (.var 5)))
        (.set (sg := false) 1 (.add (.shr (.var 1) 1) (.var 3))))
      (.set (sg := false) 1 (.shr (.var 1) 1))) <|
    .set (sg := false) 3 (.shr (.var 3) 2)

theorem Sample.root_plain : root.Plain := by
  simp [root, Mix.Plain, Cond.Plain, Expr.Plain]

/-- The first loop: `u3` is a power of four. -/
def Sample.RootUp (n x m : Nat) (env : Bool → Nat → Int) : Prop :=
  ∃ j, m = n - j ∧ env false 3 = (4 ^ j : Nat) ∧ (j = 0 ∨ 4 ^ j ≤ x) ∧ env false 1 = 0 ∧ env false 2 = x ∧ env false 4 = 0

/-- The second loop, with `m` rounds to go: `a` are the digits of the root that are known. -/
def Sample.RootDown (n x m : Nat) (env : Bool → Nat → Int) : Prop :=
  ∃ a r : Nat, env false 1 = (a * 4 ^ m : Nat) ∧ env false 2 = r ∧ a * a * 4 ^ m + r = x ∧
    x < (a + 1) * (a + 1) * 4 ^ m ∧ env false 3 = (4 ^ m / 4 : Nat) ∧ 2 * m ≤ n ∧ env false 4 = 0

theorem Sample.root_bound {n x a m : Nat} (hx : x < 2 ^ n) (h : a * a * 4 ^ (m + 1) ≤ x) (hm : 2 * (m + 1) ≤ n) :
    a * 4 ^ (m + 1) + 4 ^ m < 2 ^ n := by
  have e : 4 ^ (m + 1) = 4 * 4 ^ m := by rw [pow_succ]; ring
  have hp : 0 < 4 ^ m := by positivity
  rcases Nat.lt_or_ge a 2 with ha | ha
  · have h4 : 4 ^ (m + 1) ≤ 2 ^ n := by
      rw [show 4 = 2 ^ 2 from rfl, ← pow_mul]
      exact Nat.pow_le_pow_right (by omega) hm
    obtain rfl | rfl : a = 0 ∨ a = 1 := by omega
    · omega
    · have h5 : 2 * 4 ^ (m + 1) ≤ 2 ^ n := by
        have h6 : 2 ^ (2 * (m + 1)) < 2 ^ n := by
          rw [pow_mul, show 2 ^ 2 = 4 from rfl]
          omega
        have h7 := (Nat.pow_lt_pow_iff_right (by omega)).1 h6
        rw [show 4 = 2 ^ 2 from rfl, ← pow_mul, ← pow_succ']
        exact Nat.pow_le_pow_right (by omega) h7
      omega
  · have : 2 * (a * 4 ^ (m + 1)) ≤ a * (a * 4 ^ (m + 1)) := Nat.mul_le_mul_right _ ha
    have h8 : 4 ^ (m + 1) ≤ a * 4 ^ (m + 1) := Nat.le_mul_of_pos_left _ (by omega)
    rw [Nat.mul_assoc] at h
    omega

theorem Sample.root_exact {n x : Nat} (hn : 2 < n) (he : n % 2 = 0) (base : Bool → Nat → Int) (hx : base false 0 = x)
    (hxn : x < 2 ^ n) {k : Nat} (hk : n ≤ k) :
    root.Ends n k base fun env' => env' false 1 = (Nat.sqrt x : Nat) ∧ env' false 2 = (x - Nat.sqrt x * Nat.sqrt x : Nat) := by
  refine .seq (.lit (.seq (.set x ?_ (.seq (.lit (.seq (.lit (.seq (.loop (I := RootUp n x) (m := n) hk ?_ ?_)))))))))
  · simp [Expr.exact, setVar_apply, hx]
  · exact ⟨0, by simp, by simp [setVar_apply]⟩
  rintro m env ⟨j, rfl, h3, hj, h1, h2, h4⟩
  have e4 : 4 ^ (j + 1) = 4 * 4 ^ j := by rw [pow_succ]; ring
  have hjn : 2 * (j + 1) ≤ n := by
    rcases hj with rfl | hj
    · omega
    · have : 2 ^ (2 * j) < 2 ^ n := by
        rw [pow_mul, show 2 ^ 2 = 4 from rfl]
        omega
      have := (Nat.pow_lt_pow_iff_right (by omega)).1 this
      omega
  have sem : ((Cond.le (sg := false) (.var 3) (.shr (.var 2) 2)).sem fun e => e.exact n (env false)) =
      some (decide (4 ^ (j + 1) ≤ x)) := by
    simp only [Cond.sem, Expr.exact, h2, h3, Option.bind_eq_bind, Option.bind_some]
    rw [if_pos (by simpa using hn)]
    simp only [Option.bind_some, show (2 : Int) ^ (2 : BitVec 32).toNat = 4 from rfl, Option.some.injEq]
    exact decide_eq_decide.2 (by omega)
  by_cases hc : 4 ^ (j + 1) ≤ x
  · right
    refine ⟨by rw [sem, decide_eq_true hc], .set (4 ^ (j + 1) : Nat) ?_ ⟨n - (j + 1), by omega, j + 1, rfl, ?_⟩⟩
    · simp [Expr.exact, h3, hn, reduce]
      rw [pow_succ]
      refine Int.emod_eq_of_lt (by positivity) ?_
      have : (4 : Nat) ^ j * 4 < 2 ^ n := by omega
      exact_mod_cast this
    · simp [setVar_apply, h1, h2, h4, hc]
  left
  refine ⟨by rw [sem, decide_eq_false hc], .loop (I := RootDown n x) (m := j + 1) (by omega) ?_ ?_⟩
  · exact ⟨0, x, by simp [h1], h2, by simp, by omega, by rw [h3, e4]; simp, hjn, h4⟩
  rintro m env ⟨a, r, h1, h2, ha, ha', h3, hm, h4⟩
  cases m with
  | zero =>
    left
    refine ⟨by simp [Cond.sem, Expr.exact, h3, h4], ?_⟩
    rw [pow_zero, Nat.mul_one] at ha ha'
    have : Nat.sqrt x = a := (Nat.eq_sqrt.2 ⟨by omega, by omega⟩).symm
    rw [this, h1, h2]
    simp
    omega
  | succ m =>
    right
    have e4 : 4 ^ (m + 1) = 4 * 4 ^ m := by rw [pow_succ]; ring
    have hp : 0 < 4 ^ m := by positivity
    have hb := root_bound (a := a) hxn (by omega) hm
    have h3' : env false 3 = (4 ^ m : Nat) := by rw [h3, e4]; simp
    have hn1 : 1 < n := by omega
    have half : ((a * 4 ^ (m + 1) : Nat) : Int) / 2 = (2 * a * 4 ^ m : Nat) := by
      rw [e4, show a * (4 * 4 ^ m) = 2 * a * 4 ^ m * 2 by ring]
      push_cast
      exact Int.mul_ediv_cancel _ (by decide)
    have quarter : ((4 ^ m : Nat) : Int) / 4 = (4 ^ m / 4 : Nat) := by push_cast; rfl
    constructor
    · simp only [Cond.sem, Expr.exact, h3', h4, Option.bind_eq_bind, Option.bind_some]
      rw [decide_eq_true (by omega)]
    refine .seq (.set (a * 4 ^ (m + 1) + 4 ^ m : Nat) ?_ (.seq ?_))
    · simp only [Expr.exact, h1, h3', Option.bind_eq_bind, Option.bind_some]
      rw [keep_nat (by omega) (by exact_mod_cast hb)]; rfl
    have sq : (2 * a + 1) * (2 * a + 1) * 4 ^ m = a * a * 4 ^ (m + 1) + (a * 4 ^ (m + 1) + 4 ^ m) := by
      rw [e4]; ring
    have sq2 : (2 * a + 1 + 1) * (2 * a + 1 + 1) * 4 ^ m = (a + 1) * (a + 1) * 4 ^ (m + 1) := by
      rw [e4]; ring
    have sq3 : 2 * a * (2 * a) * 4 ^ m = a * a * 4 ^ (m + 1) := by
      rw [e4]; ring
    by_cases hc : a * 4 ^ (m + 1) + 4 ^ m ≤ r
    · have le : 2 * a * 4 ^ m + 4 ^ m < 2 ^ n := by
        have : 2 * a * 4 ^ m ≤ a * 4 ^ (m + 1) := by
          rw [e4, show a * (4 * 4 ^ m) = 2 * (2 * a * 4 ^ m) by ring]; omega
        omega
      refine .yes ?_ (.seq (.set (r - (a * 4 ^ (m + 1) + 4 ^ m) : Nat) ?_ (.set (2 * a * 4 ^ m + 4 ^ m : Nat) ?_
        (.set (4 ^ m / 4 : Nat) ?_ ⟨m, by omega, 2 * a + 1, r - (a * 4 ^ (m + 1) + 4 ^ m), ?_⟩))))
      · simp only [Cond.sem, Expr.exact, setVar_apply, h2, Option.bind_eq_bind, Option.bind_some, Nat.reduceEqDiff,
          and_false, and_self, if_false, if_true]
        rw [decide_eq_true (by omega)]
      · simp only [Expr.exact, setVar_apply, h2, Option.bind_eq_bind, Option.bind_some, Nat.reduceEqDiff,
          and_false, and_self, if_false, if_true]
        have hr : (r : Int) < 2 ^ n := by
          have : r < 2 ^ n := by omega
          exact_mod_cast this
        rw [keep_nat (by omega) (by omega)]; congr 1; omega
      · simp only [Expr.exact, setVar_apply, h1, h3', Option.bind_eq_bind, Option.bind_some, Nat.reduceEqDiff,
          and_false, if_false]
        rw [if_pos (by simpa using hn1)]
        simp only [Option.bind_some]
        rw [show (2 : Int) ^ (1 : BitVec 32).toNat = 2 from rfl, half, keep_nat (by omega) (by exact_mod_cast le)]; rfl
      · simp only [Expr.exact, setVar_apply, h3', Option.bind_eq_bind, Option.bind_some, Nat.reduceEqDiff,
          and_false, if_false]
        rw [if_pos (by simpa using hn)]
        exact congrArg some quarter
      · simp only [setVar_apply, h4, Nat.reduceEqDiff, and_false, and_self, if_false, if_true, true_and, and_true]
        rw [sq2, sq]
        refine ⟨by congr 1; ring, by omega, by omega, by omega⟩
    · refine .no ?_ (.set (2 * a * 4 ^ m : Nat) ?_ (.set (4 ^ m / 4 : Nat) ?_ ⟨m, by omega, 2 * a, r, ?_⟩))
      · simp only [Cond.sem, Expr.exact, setVar_apply, h2, Option.bind_eq_bind, Option.bind_some, Nat.reduceEqDiff,
          and_false, and_self, if_false, if_true]
        rw [decide_eq_false (by omega)]
      · simp only [Expr.exact, setVar_apply, h1, Option.bind_eq_bind, Option.bind_some, Nat.reduceEqDiff,
          and_false, if_false]
        rw [if_pos (by simpa using hn1)]
        exact congrArg some half
      · simp only [Expr.exact, setVar_apply, h3', Option.bind_eq_bind, Option.bind_some, Nat.reduceEqDiff,
          and_false, if_false]
        rw [if_pos (by simpa using hn)]
        exact congrArg some quarter
      · simp only [setVar_apply, h2, h4, Nat.reduceEqDiff, and_false, and_self, if_false, if_true, true_and, and_true]
        refine ⟨by omega, by omega, by omega⟩

/-- C113: the root is exact in both builds, for all operands.  Each loop takes at most as many rounds as the type has
bits. -/
theorem C113_root (T : IsType w N) (hs : ∀ sg i, (s sg i).length = N) {k : Nat} (hk : w * N ≤ k) (oc : Bool) :
    ∃ s', root.run oc N k s = .ends s' ∧ toNat (s' false 1) ^ 2 ≤ toNat (s false 0) ∧
      toNat (s false 0) < (toNat (s' false 1) + 1) ^ 2 ∧
      toNat (s' false 2) = toNat (s false 0) - toNat (s' false 1) ^ 2 := by
  have h := C106_plain T hs root root_plain k
  have hn : 2 < w * N := by have := T.large; omega
  have he : w * N % 2 = 0 := by rw [Nat.mul_mod, T.even, Nat.mul_zero, Nat.zero_mod]
  have hx : toNat (s false 0) < 2 ^ (w * N) := by
    have := toNat_lt (s false 0)
    rwa [bits, hs] at this
  obtain ⟨env, e, h1, h2⟩ := root_exact hn he (fun sg i => value sg (s sg i)) rfl hx hk
  rw [e] at h
  obtain ⟨s', es, hd⟩ := h
  have e1 : toNat (s' false 1) = Nat.sqrt (toNat (s false 0)) := Int.ofNat.inj ((hd false 1).2.trans h1)
  have e2 := Int.ofNat.inj ((hd false 2).2.trans h2)
  refine ⟨s', ?_, ?_, ?_, ?_⟩
  · cases oc
    · exact ((C106_debug_release T hs root k).1 s' es).1
    · exact es
  · rw [e1, pow_two]
    exact Nat.sqrt_le _
  · rw [e1, pow_two]
    exact Nat.lt_succ_sqrt _
  · rw [e1, pow_two]
    exact e2

example := C113_root (s := both) (by decide) both_length (k := 256) (by decide)
example : (final2 false 1 (root.run true 4 256 fun _ _ => ([24, 0, 0, 0] : Limbs 64))) = some [4, 0, 0, 0] ∧
    (final2 false 1 (root.run true 4 256 fun _ _ => ones)) =
      some [0xffffffffffffffff, 0xffffffffffffffff, 0, 0] := by decide +kernel

/-- The algorithm of Euclid for `u0` and `u1`:
`u7 = 0; while u1 != u7 { divide u0 by u1 into u2 and u3; u0 = u1; u1 = u3; u7 = 0 }`. -/
def Sample.euclidean : Mix :=
  .seq (.lit false 7 0) <|
  .loop (sg := false) (.ne (.var 1) (.var 7)) <|
    .seq divide <| .seq (.set (sg := false) 0 (.var 1)) <| .seq (.set (sg := false) 1 (.var 3)) (.lit false 7 0)

theorem Sample.euclidean_plain : euclidean.Plain := by
  simp [euclidean, divide, Mix.Plain, Cond.Plain, Expr.Plain]

/-- With `m` rounds to go: the product of the two numbers is below `2 ^ m`, except before the first round. -/
def Sample.Euclidean (n g m : Nat) (env : Bool → Nat → Int) : Prop :=
  ∃ a b : Nat, env false 0 = a ∧ env false 1 = b ∧ env false 7 = 0 ∧ Nat.gcd a b = g ∧ a < 2 ^ n ∧ b < 2 ^ n ∧
    (b ≤ a ∧ a * b < 2 ^ m ∨ m = 2 * n + 1)

theorem Sample.euclidean_exact {n x y : Nat} (hn : 1 < n) (base : Bool → Nat → Int) (hx : base false 0 = x)
    (hy : base false 1 = y) (hxn : x < 2 ^ n) (hyn : y < 2 ^ n) {k : Nat} (hk : 2 * n + 1 ≤ k) :
    euclidean.Ends n k base fun env' => env' false 0 = (Nat.gcd x y : Nat) := by
  refine .seq (.lit (.loop (I := Euclidean n (Nat.gcd x y)) (m := 2 * n + 1) hk ?_ ?_))
  · exact ⟨x, y, by simp [setVar_apply, hx], by simp [setVar_apply, hy], by simp [setVar_apply], rfl, hxn, hyn, .inr rfl⟩
  rintro m env ⟨a, b, h0, h1, h7, hg, ha, hb, hm⟩
  by_cases hb0 : b = 0
  · left
    subst hb0
    exact ⟨by simp [Cond.sem, Expr.exact, h1, h7], by rw [h0, ← hg, Nat.gcd_zero_right]⟩
  right
  refine ⟨by simp [Cond.sem, Expr.exact, h1, h7, hb0], .seq ((divide_exact hn env h0 h1 ha (by omega) (by omega)).mono ?_)⟩
  rintro e ⟨-, h3, -, -, h1'⟩
  refine .seq (.set b ?_ (.seq (.set (a % b : Nat) ?_ (.lit ?_))))
  · simp [Expr.exact, h1']
  · simp [Expr.exact, setVar_apply, h3]
  have hlt : a % b < b := Nat.mod_lt _ (by omega)
  have key : ∀ m', b * (a % b) < 2 ^ m' → Euclidean n (Nat.gcd x y) m'
      (setVar (setVar (setVar e false 0 (b : Int)) false 1 ((a % b : Nat) : Int)) false 7
        (if false = true then ((0 : BitVec 128).toInt) else ((0 : BitVec 128).toNat : Nat))) := by
    intro m' hm'
    refine ⟨b, a % b, by simp [setVar_apply], by simp [setVar_apply], by simp [setVar_apply], ?_, hb, by omega,
      .inl ⟨by omega, hm'⟩⟩
    rw [← hg, Nat.gcd_comm a b, Nat.gcd_rec b a, Nat.gcd_comm]
  rcases hm with ⟨hba, hm⟩ | rfl
  · have h2 : 2 * (a % b) < a := by
      have := Nat.div_add_mod a b
      have h3 : 1 ≤ a / b := Nat.div_pos hba (by omega)
      have h4 : b * 1 ≤ b * (a / b) := Nat.mul_le_mul_left _ h3
      omega
    have h5 : b * (2 * (a % b)) < b * a := Nat.mul_lt_mul_of_pos_left h2 (by omega)
    cases m with
    | zero =>
      have : 0 < a * b := Nat.mul_pos (by omega) (by omega)
      omega
    | succ m =>
      refine ⟨m, by omega, key m ?_⟩
      rw [pow_succ, Nat.mul_comm a b] at hm
      rw [Nat.mul_left_comm] at h5
      omega
  · refine ⟨2 * n, by omega, key _ ?_⟩
    rw [Nat.two_mul, pow_add]
    exact Nat.mul_lt_mul'' hb (by omega)

/-- C113: the greatest common divisor is exact in both builds, for all operands, zeros included; the loop takes at most
twice as many rounds as the type has bits, and one. -/
theorem C113_gcd (T : IsType w N) (hs : ∀ sg i, (s sg i).length = N) {k : Nat} (hk : 2 * (w * N) + 1 ≤ k) (oc : Bool) :
    ∃ s', euclidean.run oc N k s = .ends s' ∧
      toNat (s' false 0) = Nat.gcd (toNat (s false 0)) (toNat (s false 1)) := by
  have h := C106_plain T hs euclidean euclidean_plain k
  have hn : 1 < w * N := by have := T.large; omega
  have hx : ∀ i, toNat (s false i) < 2 ^ (w * N) := by
    intro i
    have := toNat_lt (s false i)
    rwa [bits, hs] at this
  obtain ⟨env, e, h1⟩ := euclidean_exact hn (fun sg i => value sg (s sg i)) rfl rfl (hx 0) (hx 1) hk
  rw [e] at h
  obtain ⟨s', es, hd⟩ := h
  refine ⟨s', ?_, Int.ofNat.inj ((hd false 0).2.trans h1)⟩
  cases oc
  · exact ((C106_debug_release T hs euclidean k).1 s' es).1
  · exact es

example := C113_gcd (s := both) (by decide) both_length (k := 513) (by decide)
example : (final2 false 0 (euclidean.run true 4 256 fun _ i => if i = 0 then ([12, 0, 0, 0] : Limbs 64) else [18, 0, 0, 0])) =
    some [6, 0, 0, 0] := by decide +kernel
/-- Operands for which the same algorithm with the `%` of the crate ends with a wrong number (C101). -/
example : final2 false 0 (euclidean.run true 4 256 both) = some [2, 0, 0, 0] ∧
    (final 0 (euclid.run true 256 (both false))).map toNat = some (2 ^ 159 - 2) := by decide +kernel

end I256
