import Verif.Props.Client

/-!
# C114: modular products and powers in client code

The products of the crate wrap or overflow, and its remainder is wrong for some operands (C17).  Products and powers
modulo any number, by doubling and adding, with the operators that C106 proves exact, are right for all operands; no
step overflows, however large the modulus is.
-/

namespace I256

open Sample

variable {w N : Nat} {s : Bool → Nat → Limbs w}

/-- Unsigned `ui = (ui + u0) % u3` for `ui` and `u0` below `u3`:
`u5 = u3 - u0; if ui >= u5 { ui = ui - u5 } else { ui = ui + u0 }`. -/
def Sample.addTo (i : Nat) : Mix :=
  .seq (.set (sg := false) 5 (.sub (.var 3) (.var 0))) <|
  .ite (sg := false) (.ge (.var i) (.var 5))
    (.set (sg := false) i (.sub (.var i) (.var 5)))
    (.set (sg := false) i (.add (.var i) (.var 0)))

/-- Unsigned `u2 = u0 * u1 % u3` for `u0` below `u3`:
`u2 = 0; u7 = 0;`
`while u1 != u7 { u4 = (u1 >> 1) << 1; if u4 != u1 { u2 = (u2 + u0) % u3 }`
`  u0 = (u0 + u0) % u3; u1 = u1 >> 1 }`. -/
def Sample.mulMod : Mix :=
  .seq (.lit false 2 0) <| .seq (.lit false 7 0) <|
  .loop (sg := false) (.ne (.var 1) (.var 7)) <|
    .seq (.set (sg := false) 4 (.shl (.shr (.var 1) 1) 1)) <|
    .seq (.ite (sg := false) (.ne (.var 4) (.var 1)) (addTo 2) .skip) <|
    .seq (addTo 0) (.set (sg := false) 1 (.shr (.var 1) 1))

/-- Unsigned `u10 = u8 ^ u9 % u3` for `u8` below `u3` and `u3` above one:
`u10 = 1; u11 = 0;`
`while u9 != u11 { u12 = (u9 >> 1) << 1; if u12 != u9 { u0 = u10; u1 = u8; u2 = u0 * u1 % u3; u10 = u2 }`
`  u0 = u8; u1 = u8; u2 = u0 * u1 % u3; u8 = u2; u9 = u9 >> 1 }`. -/
def Sample.powMod : Mix :=
  .seq (.lit false 10 1) <| .seq (.lit false 11 0) <|
  .loop (sg := false) (.ne (.var 9) (.var 11)) <|
    .seq (.set (sg := false) 12 (.shl (.shr (.var 9) 1) 1)) <|
    .seq (.ite (sg := false) (.ne (.var 12) (.var 9))
      (.seq (.set (sg := false) 0 (.var 10)) <| .seq (.set (sg := false) 1 (.var 8)) <|
        .seq mulMod (.set (sg := false) 10 (.var 2))) .skip) <|
    .seq (.set (sg := false) 0 (.var 8)) <| .seq (.set (sg := false) 1 (.var 8)) <|
    .seq mulMod <| .seq (.set (sg := false) 8 (.var 2)) (.set (sg := false) 9 (.shr (.var 9) 1))

theorem Sample.mulMod_plain : mulMod.Plain := by
  simp [mulMod, addTo, Mix.Plain, Cond.Plain, Expr.Plain]

theorem Sample.powMod_plain : powMod.Plain := by
  simp [powMod, mulMod, addTo, Mix.Plain, Cond.Plain, Expr.Plain]

theorem Sample.addTo_exact {n k i x a m : Nat} {env : Bool → Nat → Int} (hi : i ≠ 5) (h0 : env false 0 = x)
    (ha : env false i = a) (h3 : env false 3 = m) (hx : x < m) (ham : a < m) (hm : m < 2 ^ n) :
    (addTo i).Ends n k env fun e =>
      e = setVar (setVar env false 5 ((m - x : Nat) : Int)) false i (((a + x) % m : Nat) : Int) := by
  have hm' : (m : Int) < 2 ^ n := by exact_mod_cast hm
  refine .seq (.set (m - x : Nat) ?_ ?_)
  · simp only [Expr.exact, h0, h3, Option.bind_eq_bind, Option.bind_some]
    rw [keep_nat (by omega) (by omega)]; congr 1; omega
  have hi' : (5 : Nat) ≠ i := fun h => hi h.symm
  by_cases hc : m - x ≤ a
  · have e : (a + x) % m = a - (m - x) := by
      rw [show a + x = a - (m - x) + m by omega, Nat.add_mod_right, Nat.mod_eq_of_lt (by omega)]
    refine .yes ?_ (.set _ ?_ rfl)
    · simp only [Cond.sem, Expr.exact, setVar_apply, ha, hi, Option.bind_eq_bind, Option.bind_some, and_false, and_self,
        if_false, if_true]
      rw [decide_eq_true (by omega)]
    · simp only [Expr.exact, setVar_apply, ha, hi, Option.bind_eq_bind, Option.bind_some, and_false, and_self,
        if_false, if_true]
      rw [keep_nat (by omega) (by omega), e]; congr 1; omega
  · have e : (a + x) % m = a + x := Nat.mod_eq_of_lt (by omega)
    refine .no ?_ (.set _ ?_ rfl)
    · simp only [Cond.sem, Expr.exact, setVar_apply, ha, hi, Option.bind_eq_bind, Option.bind_some, and_false, and_self,
        if_false, if_true]
      rw [decide_eq_false (by omega)]
    · simp only [Expr.exact, setVar_apply, ha, h0, hi, Option.bind_eq_bind, Option.bind_some, and_false, Nat.reduceEqDiff,
        if_false]
      rw [keep_nat (by omega) (by omega), e]; rfl

/-- The last bit cleared. -/
theorem Sample.even_part {n y : Nat} (hn : 1 < n) (hy : y < 2 ^ n) {env : Nat → Int} {i : Nat} (h : env i = y) :
    (Expr.shl (sg := false) (.shr (.var i) 1) 1).exact n env = some ((y / 2 * 2 : Nat) : Int) := by
  have hn' : (1 : BitVec 32).toNat < n := hn
  simp only [Expr.exact, h, Option.bind_eq_bind, Option.bind_some]
  rw [if_pos hn']
  simp only [Option.bind_some]
  rw [if_pos hn']
  have : ((y / 2 * 2 : Nat) : Int) < 2 ^ n := by
    have : y / 2 * 2 < 2 ^ n := by omega
    exact_mod_cast this
  rw [show (2 : Int) ^ (1 : BitVec 32).toNat = 2 from rfl, show (y : Int) / 2 * 2 = (y / 2 * 2 : Nat) by omega]
  simp only [reduce, Bool.false_eq_true, if_false]
  rw [Int.emod_eq_of_lt (by omega) this]

theorem Sample.half {n y : Nat} (hn : 1 < n) {env : Nat → Int} {i : Nat} (h : env i = y) :
    (Expr.shr (sg := false) (.var i) 1).exact n env = some ((y / 2 : Nat) : Int) := by
  simp only [Expr.exact, h, Option.bind_eq_bind, Option.bind_some]
  rw [if_pos (show (1 : BitVec 32).toNat < n from hn)]
  rw [show (2 : Int) ^ (1 : BitVec 32).toNat = 2 from rfl]
  congr 1

/-- With `j` bits of the second factor to go. -/
def Sample.Product (n m p : Nat) (base : Bool → Nat → Int) (j : Nat) (env : Bool → Nat → Int) : Prop :=
  ∃ x y a : Nat, env false 0 = x ∧ env false 1 = y ∧ env false 2 = a ∧ env false 3 = m ∧ env false 7 = 0 ∧
    j ≤ n ∧ x < m ∧ a < m ∧ y < 2 ^ j ∧ (a + x * y) % m = p ∧ ∀ i, 8 ≤ i → env false i = base false i

theorem Sample.product_step {m x y a : Nat} (h : y % 2 = 1) :
    ((a + x) % m + (x + x) % m * (y / 2)) % m = (a + x * y) % m := by
  conv_rhs => rw [← Nat.div_add_mod y 2, h, show a + x * (2 * (y / 2) + 1) = a + x + (x + x) * (y / 2) by ring]
  rw [Nat.add_mod, Nat.mod_mod, Nat.mul_mod ((x + x) % m), Nat.mod_mod, ← Nat.mul_mod, ← Nat.add_mod]

theorem Sample.product_skip {m x y a : Nat} (h : y % 2 = 0) :
    (a + (x + x) % m * (y / 2)) % m = (a + x * y) % m := by
  conv_rhs => rw [← Nat.div_add_mod y 2, h, show a + x * (2 * (y / 2) + 0) = a + (x + x) * (y / 2) by ring]
  rw [Nat.add_mod, Nat.mul_mod ((x + x) % m), Nat.mod_mod, ← Nat.mul_mod, ← Nat.add_mod]

theorem Sample.mulMod_exact {n x y m : Nat} (hn : 1 < n) (base : Bool → Nat → Int) (hx : base false 0 = x)
    (hy : base false 1 = y) (h3 : base false 3 = m) (hxm : x < m) (hm : m < 2 ^ n) (hyn : y < 2 ^ n) {k : Nat}
    (hk : n ≤ k) :
    mulMod.Ends n k base fun e => e false 2 = (x * y % m : Nat) ∧ e false 3 = m ∧
      ∀ i, 8 ≤ i → e false i = base false i := by
  refine .seq (.lit (.seq (.lit (.loop (I := Product n m (x * y % m) base) (m := n) hk ?_ ?_))))
  · refine ⟨x, y, 0, by simp [setVar_apply, hx], by simp [setVar_apply, hy], by simp [setVar_apply],
      by simp [setVar_apply, h3], by simp [setVar_apply], le_rfl, hxm, by omega, hyn, by simp, fun i hi => ?_⟩
    simp [setVar_apply, show i ≠ 2 by omega, show i ≠ 7 by omega]
  rintro j env ⟨x, y, a, h0, h1, h2, h3, h7, hj, hx, ha, hy, hp, hf⟩
  by_cases hy0 : y = 0
  · left
    subst hy0
    refine ⟨by simp [Cond.sem, Expr.exact, h1, h7], ?_, h3, hf⟩
    rw [h2, ← hp, Nat.mul_zero, Nat.add_zero, Nat.mod_eq_of_lt ha]
  right
  refine ⟨by simp [Cond.sem, Expr.exact, h1, h7, hy0], ?_⟩
  obtain ⟨j, rfl⟩ : ∃ i, j = i + 1 := by
    cases j with
    | zero => simp at hy; omega
    | succ j => exact ⟨j, rfl⟩
  have hyn : y < 2 ^ n := lt_of_lt_of_le hy (Nat.pow_le_pow_right (by omega) hj)
  have hy2 : y / 2 < 2 ^ j := by rw [pow_succ] at hy; omega
  have hm0 : 0 < m := by omega
  refine .seq (.set _ (even_part hn hyn h1) (.seq ?_))
  by_cases hc : y % 2 = 1
  · refine .yes ?_ ((addTo_exact (x := x) (a := a) (m := m) (by decide) (by simp [setVar_apply, h0])
      (by simp [setVar_apply, h2]) (by simp [setVar_apply, h3]) hx ha hm).mono ?_)
    · simp only [Cond.sem, Expr.exact, setVar_apply, h1, Option.bind_eq_bind, Option.bind_some, Nat.reduceEqDiff,
        and_false, and_self, if_false, if_true]
      rw [decide_eq_true (by omega)]
    rintro e rfl
    refine .seq ((addTo_exact (x := x) (a := x) (m := m) (by decide) (by simp [setVar_apply, h0])
      (by simp [setVar_apply, h0]) (by simp [setVar_apply, h3]) hx hx hm).mono ?_)
    rintro e rfl
    refine .set _ (half (y := y) hn (by simp [setVar_apply, h1])) ⟨j, by omega, (x + x) % m, y / 2, (a + x) % m, ?_⟩
    refine ⟨by simp [setVar_apply], by simp [setVar_apply], by simp [setVar_apply], by simp [setVar_apply, h3],
      by simp [setVar_apply, h7], by omega, Nat.mod_lt _ hm0, Nat.mod_lt _ hm0, hy2, by rw [product_step hc, hp],
      fun i hi => ?_⟩
    simp only [setVar_apply, true_and]
    repeat rw [if_neg (by omega)]
    exact hf i hi
  · refine .no ?_ (.skip (.seq ((addTo_exact (x := x) (a := x) (m := m) (by decide) (by simp [setVar_apply, h0])
      (by simp [setVar_apply, h0]) (by simp [setVar_apply, h3]) hx hx hm).mono ?_)))
    · simp only [Cond.sem, Expr.exact, setVar_apply, h1, Option.bind_eq_bind, Option.bind_some, Nat.reduceEqDiff,
        and_false, and_self, if_false, if_true]
      rw [decide_eq_false (by omega)]
    rintro e rfl
    refine .set _ (half (y := y) hn (by simp [setVar_apply, h1])) ⟨j, by omega, (x + x) % m, y / 2, a, ?_⟩
    refine ⟨by simp [setVar_apply], by simp [setVar_apply], by simp [setVar_apply, h2], by simp [setVar_apply, h3],
      by simp [setVar_apply, h7], by omega, Nat.mod_lt _ hm0, ha, hy2, by rw [product_skip (by omega), hp],
      fun i hi => ?_⟩
    simp only [setVar_apply, true_and]
    repeat rw [if_neg (by omega)]
    exact hf i hi

theorem Sample.addTo_fails {n k i : Nat} {env : Bool → Nat → Int} (h : env false 3 < env false 0) :
    (addTo i).Fails n k env := by
  refine .first (.set ?_)
  simp only [Expr.exact, Option.bind_eq_bind, Option.bind_some]
  refine if_neg fun hk => ?_
  have := hk.1
  simp at this
  omega

theorem Sample.mulMod_fails {n y : Nat} (hn : 1 < n) (base : Bool → Nat → Int) (hy : base false 1 = y) (hy0 : y ≠ 0)
    (hyn : y < 2 ^ n) (h : base false 3 < base false 0) {k : Nat} (hk : n ≤ k) : mulMod.Fails n k base := by
  refine .seq (.lit (.seq (.lit (.loop (I := fun m env => m = 1 ∧ env false 1 = y ∧ env false 7 = 0 ∧
    env false 3 < env false 0) (m := 1) (by omega) ?_ ?_))))
  · simp [setVar_apply, hy, h]
  rintro m env ⟨rfl, h1, h7, h⟩
  refine ⟨by simp [Cond.sem, Expr.exact, h1, h7, hy0], by decide, .inl (.seq (.set _ (even_part hn hyn h1) ?_))⟩
  by_cases hc : y % 2 = 1
  · refine .first (.yes ?_ (addTo_fails (by simpa [setVar_apply] using h)))
    simp only [Cond.sem, Expr.exact, setVar_apply, h1, Option.bind_eq_bind, Option.bind_some, Nat.reduceEqDiff,
      and_false, and_self, if_false, if_true]
    rw [decide_eq_true (by omega)]
  · refine .seq (.no ?_ (.skip (.first (addTo_fails (by simpa [setVar_apply] using h)))))
    simp only [Cond.sem, Expr.exact, setVar_apply, h1, Option.bind_eq_bind, Option.bind_some, Nat.reduceEqDiff,
      and_false, and_self, if_false, if_true]
    rw [decide_eq_false (by omega)]

/-- With `j` bits of the exponent to go. -/
def Sample.Power (n m p j : Nat) (env : Bool → Nat → Int) : Prop :=
  ∃ b e r : Nat, env false 8 = b ∧ env false 9 = e ∧ env false 10 = r ∧ env false 3 = m ∧ env false 11 = 0 ∧
    j ≤ n ∧ b < m ∧ r < m ∧ e < 2 ^ j ∧ r * b ^ e % m = p

theorem Sample.power_square {m b r e : Nat} : r * (b * b % m) ^ e % m = r * b ^ (2 * e) % m := by
  rw [Nat.mul_mod, Nat.pow_mod, Nat.mod_mod, ← Nat.pow_mod, ← Nat.mul_mod, pow_mul, pow_two]

theorem Sample.power_step {m b r e : Nat} (h : e % 2 = 1) : r * b % m * (b * b % m) ^ (e / 2) % m = r * b ^ e % m := by
  rw [power_square, Nat.mul_mod, Nat.mod_mod, ← Nat.mul_mod, Nat.mul_assoc, ← pow_succ',
    show 2 * (e / 2) + 1 = e by omega]

theorem Sample.square_exact {n m b e r p k j : Nat} (hn : 1 < n) {env : Bool → Nat → Int} (h8 : env false 8 = b)
    (h9 : env false 9 = e) (h10 : env false 10 = r) (h3 : env false 3 = m) (h11 : env false 11 = 0) (hj : j + 1 ≤ n)
    (hb : b < m) (hr : r < m) (he : e < 2 ^ (j + 1)) (hm : m < 2 ^ n) (hk : n ≤ k)
    (hp : r * (b * b % m) ^ (e / 2) % m = p) :
    Mix.Ends n k (.seq (.set (sg := false) 0 (.var 8)) <| .seq (.set (sg := false) 1 (.var 8)) <|
      .seq mulMod <| .seq (.set (sg := false) 8 (.var 2)) (.set (sg := false) 9 (.shr (.var 9) 1))) env
      fun e => ∃ j', j' < j + 1 ∧ Power n m p j' e := by
  refine .seq (.set b (by simp [Expr.exact, h8]) (.seq (.set b (by simp [Expr.exact, setVar_apply, h8]) (.seq
    ((mulMod_exact (x := b) (y := b) (m := m) hn _ (by simp [setVar_apply]) (by simp [setVar_apply])
      (by simp [setVar_apply, h3]) hb hm (by omega) hk).mono ?_)))))
  rintro e' ⟨h2, h3', hf⟩
  have h9' : e' false 9 = e := by rw [hf 9 (by decide)]; simp [setVar_apply, h9]
  have h10' : e' false 10 = r := by rw [hf 10 (by decide)]; simp [setVar_apply, h10]
  have h11' : e' false 11 = 0 := by rw [hf 11 (by decide)]; simp [setVar_apply, h11]
  refine .seq (.set (b * b % m : Nat) (by simp only [Expr.exact, h2]) (.set _ (half (y := e) hn (by simp [setVar_apply, h9']))
    ⟨j, by omega, b * b % m, e / 2, r, by simp [setVar_apply], by simp [setVar_apply], by simp [setVar_apply, h10'],
      by simp [setVar_apply, h3'], by simp [setVar_apply, h11'], by omega, Nat.mod_lt _ (by omega), hr, ?_, hp⟩))
  rw [pow_succ] at he
  omega

theorem Sample.powMod_exact {n b e m : Nat} (hn : 1 < n) (base : Bool → Nat → Int) (h8 : base false 8 = b)
    (h9 : base false 9 = e) (h3 : base false 3 = m) (hb : b < m) (h1 : 1 < m) (hm : m < 2 ^ n) (hen : e < 2 ^ n)
    {k : Nat} (hk : n ≤ k) :
    powMod.Ends n k base fun env => env false 10 = (b ^ e % m : Nat) := by
  refine .seq (.lit (.seq (.lit (.loop (I := Power n m (b ^ e % m)) (m := n) hk ?_ ?_))))
  · exact ⟨b, e, 1, by simp [setVar_apply, h8], by simp [setVar_apply, h9], by simp [setVar_apply],
      by simp [setVar_apply, h3], by simp [setVar_apply], le_rfl, hb, h1, hen, by simp⟩
  rintro j env ⟨b, e, r, h8, h9, h10, h3, h11, hj, hb, hr, he, hp⟩
  by_cases he0 : e = 0
  · left
    subst he0
    refine ⟨by simp [Cond.sem, Expr.exact, h9, h11], ?_⟩
    rw [h10, ← hp, pow_zero, Nat.mul_one, Nat.mod_eq_of_lt hr]
  right
  refine ⟨by simp [Cond.sem, Expr.exact, h9, h11, he0], ?_⟩
  obtain ⟨j, rfl⟩ : ∃ i, j = i + 1 := by
    cases j with
    | zero => simp at he; omega
    | succ j => exact ⟨j, rfl⟩
  have hen : e < 2 ^ n := lt_of_lt_of_le he (Nat.pow_le_pow_right (by omega) hj)
  refine .seq (.set _ (even_part hn hen h9) (.seq ?_))
  by_cases hc : e % 2 = 1
  · refine .yes ?_ (.seq (.set r (by simp [Expr.exact, setVar_apply, h10]) (.seq (.set b
      (by simp [Expr.exact, setVar_apply, h8]) (.seq ((mulMod_exact (x := r) (y := b) (m := m) hn _
      (by simp [setVar_apply]) (by simp [setVar_apply]) (by simp [setVar_apply, h3]) hr hm (by omega) hk).mono ?_))))))
    · simp only [Cond.sem, Expr.exact, setVar_apply, h9, Option.bind_eq_bind, Option.bind_some, Nat.reduceEqDiff,
        and_false, and_self, if_false, if_true]
      rw [decide_eq_true (by omega)]
    rintro e' ⟨h2, h3', hf⟩
    have h8' : e' false 8 = b := by rw [hf 8 (by decide)]; simp [setVar_apply, h8]
    have h9' : e' false 9 = e := by rw [hf 9 (by decide)]; simp [setVar_apply, h9]
    have h11' : e' false 11 = 0 := by rw [hf 11 (by decide)]; simp [setVar_apply, h11]
    exact .set (r * b % m : Nat) (by simp only [Expr.exact, h2]) (square_exact hn (r := r * b % m) (by simp [setVar_apply, h8'])
      (by simp [setVar_apply, h9']) (by simp [setVar_apply]) (by simp [setVar_apply, h3']) (by simp [setVar_apply, h11'])
      hj hb (Nat.mod_lt _ (by omega)) he hm hk (by rw [power_step hc, hp]))
  · refine .no ?_ (.skip (square_exact hn (by simp [setVar_apply, h8])
      (by simp [setVar_apply, h9]) (by simp [setVar_apply, h10]) (by simp [setVar_apply, h3]) (by simp [setVar_apply, h11])
      hj hb hr he hm hk ?_))
    · simp only [Cond.sem, Expr.exact, setVar_apply, h9, Option.bind_eq_bind, Option.bind_some, Nat.reduceEqDiff,
        and_false, and_self, if_false, if_true]
      rw [decide_eq_false (by omega)]
    · rw [power_square, show 2 * (e / 2) = e by omega, hp]

/-- C114: the product modulo `u3` is exact in both builds, for a first factor below the modulus and any second one.  The
loop takes at most as many rounds as the type has bits. -/
theorem C114_product (T : IsType w N) (hs : ∀ sg i, (s sg i).length = N) {k : Nat} (hk : w * N ≤ k)
    (hx : toNat (s false 0) < toNat (s false 3)) (oc : Bool) :
    ∃ s', mulMod.run oc N k s = .ends s' ∧
      toNat (s' false 2) = toNat (s false 0) * toNat (s false 1) % toNat (s false 3) := by
  have h := C106_plain T hs mulMod mulMod_plain k
  have hn : 1 < w * N := by have := T.large; omega
  have hl : ∀ i, toNat (s false i) < 2 ^ (w * N) := by
    intro i
    have := toNat_lt (s false i)
    rwa [bits, hs] at this
  obtain ⟨env, e, h1, -⟩ := mulMod_exact hn (fun sg i => value sg (s sg i)) rfl rfl rfl hx (hl 3) (hl 1) hk
  rw [e] at h
  obtain ⟨s', es, hd⟩ := h
  refine ⟨s', ?_, Int.ofNat.inj ((hd false 2).2.trans h1)⟩
  cases oc
  · exact ((C106_debug_release T hs mulMod k).1 s' es).1
  · exact es

/-- C114: with overflow checks, a first factor above the modulus is a panic unless the second is zero. -/
theorem C114_product_panics (T : IsType w N) (hs : ∀ sg i, (s sg i).length = N) {k : Nat} (hk : w * N ≤ k)
    (hx : toNat (s false 3) < toNat (s false 0)) (hy : toNat (s false 1) ≠ 0) : mulMod.run true N k s = .panic := by
  have h := C106_plain T hs mulMod mulMod_plain k
  have hn : 1 < w * N := by have := T.large; omega
  have hl : toNat (s false 1) < 2 ^ (w * N) := by
    have := toNat_lt (s false 1)
    rwa [bits, hs] at this
  have hf := mulMod_fails hn (fun sg i => value sg (s sg i)) rfl hy hl
    (show (toNat (s false 3) : Int) < (toNat (s false 0) : Int) by omega) hk
  rw [show mulMod.exact (w * N) k (fun sg i => value sg (s sg i)) = .panic from hf] at h
  exact h

example := C114_product_panics (s := fun _ i => if i = 3 then ([4, 0, 0, 0] : Limbs 64) else [5, 0, 0, 0]) (N := 4)
  (by decide) (by intro sg i; split <;> rfl) (k := 256) (by decide) (by decide +kernel) (by decide +kernel)

/-- C114: the power modulo `u3` is exact in both builds, for a base below the modulus, a modulus above one and any
exponent; the exponent is as wide as the type, unlike that of `pow`.  Each loop takes at most as many rounds as the type
has bits. -/
theorem C114_power (T : IsType w N) (hs : ∀ sg i, (s sg i).length = N) {k : Nat} (hk : w * N ≤ k)
    (hb : toNat (s false 8) < toNat (s false 3)) (h1 : 1 < toNat (s false 3)) (oc : Bool) :
    ∃ s', powMod.run oc N k s = .ends s' ∧
      toNat (s' false 10) = toNat (s false 8) ^ toNat (s false 9) % toNat (s false 3) := by
  have h := C106_plain T hs powMod powMod_plain k
  have hn : 1 < w * N := by have := T.large; omega
  have hl : ∀ i, toNat (s false i) < 2 ^ (w * N) := by
    intro i
    have := toNat_lt (s false i)
    rwa [bits, hs] at this
  obtain ⟨env, e, h1⟩ := powMod_exact hn (fun sg i => value sg (s sg i)) rfl rfl rfl hb h1 (hl 3) (hl 9) hk
  rw [e] at h
  obtain ⟨s', es, hd⟩ := h
  refine ⟨s', ?_, Int.ofNat.inj ((hd false 10).2.trans h1)⟩
  cases oc
  · exact ((C106_debug_release T hs powMod k).1 s' es).1
  · exact es

/-- Operands next to the largest value: both factors and the modulus take all 256 bits. -/
def Sample.wideMod : Bool → Nat → Limbs 64 := fun _ i =>
  if i = 3 then ones else if i = 9 then [3, 0, 0, 0]
  else [0xfffffffffffffffd, 0xffffffffffffffff, 0xffffffffffffffff, 0xffffffffffffffff]

example := C114_product (s := wideMod) (N := 4) (by decide) (by intro sg i; unfold wideMod; split <;> [rfl; split <;> rfl])
  (k := 256) (by decide) (by decide +kernel)
example := C114_power (s := wideMod) (N := 4) (by decide) (by intro sg i; unfold wideMod; split <;> [rfl; split <;> rfl])
  (k := 256) (by decide) (by decide +kernel) (by decide +kernel)
example : final2 false 2 (mulMod.run true 4 256 wideMod) = some [4, 0, 0, 0] ∧
    (final2 false 10 (powMod.run true 4 256 wideMod)).map toNat = some (2 ^ 256 - 9) := by decide +kernel

end I256
