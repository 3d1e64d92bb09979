import Verif.Lemmas.Pow

/-! Contracts of the multiplication methods. -/

namespace I256

variable {w N : Nat} {z : Int}

theorem WrapU.unique {z' : Int} {v v' : Limbs w} (h : WrapU N z v) (h' : WrapU N z' v')
    (hz : z ≡ z' [ZMOD 2 ^ (w * N)]) : v = v' :=
  toNat_inj (h.1.trans h'.1.symm) (by exact_mod_cast h.2.trans (Eq.trans hz h'.2.symm))

theorem WrapU.modEq {v : Limbs w} (h : WrapU N z v) : (toNat v : Int) ≡ z [ZMOD 2 ^ (w * N)] := by
  rw [h.2]; exact Int.mod_modEq _ _

/-! ### unsigned `checked_mul` and its logarithm shortcut -/

theorem checkedMulU (hw : 0 < w) {x y : Limbs w} (hl : x.length = y.length)
    (h2 : x.length % 2 = 0) (h4 : 4 ≤ x.length) :
    CheckU x.length ((toNat x : Int) * toNat y) (U.checkedMul x y) := by
  have hx := checkedIlog2_spec hw false h2 h4
  have hy := checkedIlog2_spec hw false (x := y) (by omega) (by omega)
  simp only [Ord.val, Bool.false_eq_true, if_false] at hx hy
  have ho := (Mul.overU x y (by omega)).check
  have hP : (0 : Int) < 2 ^ (w * x.length) := by positivity
  have hzero : CheckU x.length 0 (some (ofU8 x.length 0 : Limbs w)) := by
    have h1 := ofU8U (w := w) (N := x.length) (v := 0) (by omega) (Nat.two_pow_pos w)
    exact ⟨fun _ => ⟨_, rfl, h1⟩, fun hc => absurd h1.inU hc⟩
  unfold U.checkedMul
  by_cases hx0 : toNat x = 0
  · rw [hx, if_pos (by omega), hx0]
    simpa using hzero
  · rw [hx, if_neg (by omega)]
    by_cases hy0 : toNat y = 0
    · rw [hy, if_pos (by omega), hy0]
      simpa using hzero
    · rw [hy, if_neg (by omega)]
      simp only
      split
      · next hc =>
        have h1 : ¬ InU (w * x.length) ((toNat x : Int) * toNat y) := by
          have e1 := (Nat.le_log2 hx0).1 (le_refl _)
          have e2 := (Nat.le_log2 hy0).1 (le_refl _)
          have e3 : 2 ^ (w * x.length) ≤ toNat x * toNat y := by
            calc 2 ^ (w * x.length) ≤ 2 ^ ((toNat x).log2 + (toNat y).log2) := by
                  apply Nat.pow_le_pow_right (by omega)
                  rw [bits] at hc
                  omega
              _ = 2 ^ (toNat x).log2 * 2 ^ (toNat y).log2 := Nat.pow_add _ _ _
              _ ≤ _ := Nat.mul_le_mul e1 e2
          unfold InU
          rw [← natCast_two_pow, ← Int.natCast_mul]
          omega
        exact ⟨fun h => absurd h h1, fun _ => rfl⟩
      · exact ho

/-! ### widening forms -/

theorem U.carryingMul_spec (hw : 0 < w) {x y c : Limbs w} (hx : x ≠ []) (hl : x.length = y.length)
    (hc : x.length = c.length) (oc : Bool) :
    ∃ lo hi, U.carryingMul oc x y c = .ok (lo, hi) ∧ lo.length = x.length ∧ hi.length = x.length ∧
      toNat lo + 2 ^ bits x * toNat hi = toNat x * toNat y + toNat c := by
  have hN := List.length_pos_iff.2 hx
  obtain ⟨h1, h2, h3⟩ := Mul.widening_spec x y hl hN
  have ho := Add.overU hw (x := (Mul.widening x y).1) (y := c) (by omega)
  rw [h1] at ho
  set r := Add.overflowingFull (Mul.widening x y).1 c with hr
  obtain ⟨⟨l1, l2⟩, l3⟩ := ho
  have b1 := toNat_lt (Mul.widening x y).1
  have b2 := toNat_lt c
  have b3 := toNat_lt x
  have b4 := toNat_lt y
  have e1 : bits (Mul.widening x y).1 = w * x.length := by rw [bits, h1]
  have e2 : bits c = w * x.length := by rw [bits, hc]
  have e4 : bits y = w * x.length := by rw [bits, hl]
  have e3 : bits x = w * x.length := rfl
  rw [e1] at b1; rw [e2] at b2; rw [e3] at b3; rw [e4] at b4
  rw [e3] at h3 ⊢
  set lo := (Mul.widening x y).1
  set hi := (Mul.widening x y).2
  have hP := Nat.two_pow_pos (w * x.length)
  have hpz : ((2 ^ (w * x.length) : Nat) : Int) = (2 : Int) ^ (w * x.length) := natCast_two_pow _
  -- the carry of the addition
  have hcarry : toNat r.1 + 2 ^ (w * x.length) * r.2.toNat = toNat lo + toNat c := by
    unfold InU at l3
    rw [← hpz] at l2 l3
    cases hb : r.2
    · have hin : ¬ ¬ _ := fun h => by simpa [hb] using l3.2 h
      rw [not_not] at hin
      rw [Int.emod_eq_of_lt hin.1 hin.2] at l2
      simp; omega
    · have hin := l3.1 hb
      have : ((toNat lo : Int) + toNat c) % ((2 ^ (w * x.length) : Nat) : Int)
          = (toNat lo : Int) + toNat c - (2 ^ (w * x.length) : Nat) := by
        rw [← Int.sub_emod_right]
        apply Int.emod_eq_of_lt <;> omega
      rw [this] at l2
      simp; omega
  -- the high half does not overflow
  have hprod : toNat x * toNat y + toNat c < 2 ^ (w * x.length) * 2 ^ (w * x.length) := by
    have : toNat x * toNat y ≤ (2 ^ (w * x.length) - 1) * (2 ^ (w * x.length) - 1) :=
      Nat.mul_le_mul (by omega) (by omega)
    have h5 : (2 ^ (w * x.length) - 1) * (2 ^ (w * x.length) - 1) + 2 ^ (w * x.length) ≤
        2 ^ (w * x.length) * 2 ^ (w * x.length) := by
      obtain ⟨k, hk⟩ : ∃ k, 2 ^ (w * x.length) = k + 1 := ⟨_, (Nat.succ_pred_eq_of_pos hP).symm⟩
      rw [hk]
      simp only [Nat.add_sub_cancel]
      nlinarith
    omega
  have hhi : toNat hi + r.2.toNat < 2 ^ (w * x.length) := by
    have : 2 ^ (w * x.length) * (toNat hi + r.2.toNat) < 2 ^ (w * x.length) * 2 ^ (w * x.length) := by
      rw [Nat.mul_add]; omega
    exact Nat.lt_of_mul_lt_mul_left this
  have hhx : hi ≠ [] := List.length_pos_iff.1 (by omega)
  have hadd : OpU oc hi.length (toNat hi + (boolLimb w r.2).toNat)
      (U.addULimb oc hi (boolLimb w r.2)) :=
    (Add.limbOverU hw hhx _).check.op (Add.limbWrapU hw hhx _) oc
  rw [boolLimb_toNat hw, h2] at hadd
  have hin : InU (w * x.length) ((toNat hi : Int) + r.2.toNat) := by
    unfold InU
    rw [← hpz]
    omega
  have hex : ∃ v, U.addULimb oc hi (boolLimb w r.2) = .ok v ∧
      ExactU x.length ((toNat hi : Int) + r.2.toNat) v := by
    cases oc
    · obtain ⟨v, hv1, hv2⟩ := hadd
      exact ⟨v, hv1, hv2.exact hin⟩
    · exact hadd.1 hin
  obtain ⟨v, hv1, hv2, hv3⟩ := hex
  refine ⟨r.1, v, ?_, l1, hv2, ?_⟩
  · unfold U.carryingMul
    simp only [U.overflowingAdd]
    rw [← hr, hv1]
    rfl
  · have hv4 : toNat v = toNat hi + r.2.toNat := by exact_mod_cast hv3
    rw [hv4, Nat.mul_add]
    omega

/-! ### halves -/

theorem low_spec (x : Limbs w) : (U.low x).length = x.length ∧
    toNat (U.low x) = toNat x % 2 ^ (w * (x.length / 2)) := by
  constructor
  · simp [U.low]; omega
  · have h := toNat_append (x.take (x.length / 2)) (x.drop (x.length / 2))
    rw [List.take_append_drop] at h
    have hb : bits (x.take (x.length / 2)) = w * (x.length / 2) := by
      rw [bits, List.length_take, Nat.min_eq_left (by omega)]
    have hlt := toNat_lt (x.take (x.length / 2))
    rw [hb] at h hlt
    rw [U.low, toNat_append, toNat_replicate_zero, Nat.mul_zero, Nat.add_zero, h,
      Nat.add_mul_mod_self_left, Nat.mod_eq_of_lt hlt]

theorem high_spec {x : Limbs w} (h2 : x.length % 2 = 0) : (U.high x).length = x.length ∧
    toNat (U.high x) = toNat x / 2 ^ (w * (x.length / 2)) := by
  constructor
  · simp [U.high]; omega
  · have h := toNat_append (x.take (x.length / 2)) (x.drop (x.length / 2))
    rw [List.take_append_drop] at h
    have hb : bits (x.take (x.length / 2)) = w * (x.length / 2) := by
      rw [bits, List.length_take, Nat.min_eq_left (by omega)]
    have hlt := toNat_lt (x.take (x.length / 2))
    rw [hb] at h hlt
    have ht : (x.drop (x.length / 2)).take (x.length / 2) = x.drop (x.length / 2) :=
      List.take_of_length_le (by rw [List.length_drop]; omega)
    rw [U.high, toNat_append, toNat_replicate_zero, Nat.mul_zero, Nat.add_zero, ht, h,
      Nat.add_mul_div_left _ _ (Nat.two_pow_pos _), Nat.div_eq_of_lt hlt, Nat.zero_add]

theorem WrapU.nat {v : Limbs w} {n : Nat} (h : WrapU N (n : Int) v) (hn : n < 2 ^ (w * N)) :
    v.length = N ∧ toNat v = n := by
  have hi : InU (w * N) (n : Int) := by
    unfold InU
    rw [← natCast_two_pow]
    omega
  have := h.exact hi
  exact ⟨this.1, by exact_mod_cast this.2⟩

theorem highMul_spec (hw : 0 < w) {x y : Limbs w} (hx : x ≠ []) (hl : x.length = y.length)
    (h2 : x.length % 2 = 0) : (U.highMul x y).length = x.length ∧
    toNat (U.highMul x y) = toNat x * toNat y / 2 ^ bits x := by
  have hN := List.length_pos_iff.2 hx
  set n := x.length with hn
  set B := 2 ^ (w * (n / 2)) with hB
  have hBpos : 0 < B := Nat.two_pow_pos _
  have hBB : 2 ^ (w * n) = B * B := by
    rw [hB, ← Nat.pow_add, ← Nat.mul_add, show n / 2 + n / 2 = n by omega]
  have bx : toNat x < B * B := by have := toNat_lt x; rwa [bits, ← hn, hBB] at this
  have by' : toNat y < B * B := by have := toNat_lt y; rwa [bits, ← hl, hBB] at this
  -- every intermediate result is below `2^BITS`
  have mulx : ∀ u v : Limbs w, u.length = n → v.length = n → toNat u * toNat v < B * B →
      (U.wrappingMul u v).length = n ∧ toNat (U.wrappingMul u v) = toNat u * toNat v := by
    intro u v hu hv h
    have := Mul.wrapU u v (by omega)
    rw [hu, ← Int.natCast_mul] at this
    exact this.nat (by rwa [hBB])
  have addx : ∀ u v : Limbs w, u.length = n → v.length = n → toNat u + toNat v < B * B →
      (U.wrappingAdd u v).length = n ∧ toNat (U.wrappingAdd u v) = toNat u + toNat v := by
    intro u v hu hv h
    have := Add.wrapU hw (x := u) (y := v) (by omega)
    rw [hu, ← Int.natCast_add] at this
    exact this.nat (by rwa [hBB])
  have lowx : ∀ u : Limbs w, u.length = n → (U.low u).length = n ∧ toNat (U.low u) = toNat u % B := by
    intro u hu
    have := low_spec u
    rwa [hu] at this
  have highx : ∀ u : Limbs w, u.length = n →
      (U.high u).length = n ∧ toNat (U.high u) = toNat u / B := by
    intro u hu
    have := high_spec (x := u) (by omega)
    rwa [hu] at this
  have hd : ∀ a, a < B * B → a / B < B := fun a h => Nat.div_lt_of_lt_mul h
  have hm : ∀ a, a % B < B := fun a => Nat.mod_lt _ hBpos
  have hlt : ∀ a b, a < B → b < B → a * b + B ≤ B * B := by
    intro a b ha hb
    have h1 : a * b ≤ (B - 1) * B := Nat.mul_le_mul (by omega) (by omega)
    have h2 : (B - 1) * B + B = B * B := by
      rw [← Nat.add_one_mul, Nat.sub_add_cancel hBpos]
    omega
  obtain ⟨lx0, x0⟩ := lowx x rfl
  obtain ⟨lx1, x1⟩ := highx x rfl
  obtain ⟨ly0, y0⟩ := lowx y hl.symm
  obtain ⟨ly1, y1⟩ := highx y hl.symm
  have bx0 := hm (toNat x)
  have bx1 := hd _ bx
  have by0 := hm (toNat y)
  have by1 := hd _ by'
  have ex := Nat.mod_add_div (toNat x) B
  have ey := Nat.mod_add_div (toNat y) B
  unfold U.highMul
  simp only
  rw [← x0] at bx0 ex; rw [← x1] at bx1 ex; rw [← y0] at by0 ey; rw [← y1] at by1 ey
  clear x0 x1 y0 y1
  set x0 := U.low x
  set x1 := U.high x
  set y0 := U.low y
  set y1 := U.high y
  have p1 := hlt _ _ bx0 by0
  obtain ⟨lw0, w0⟩ := mulx x0 y0 lx0 ly0 (by omega)
  set W0 := U.wrappingMul x0 y0
  obtain ⟨lw0h, w0h⟩ := highx W0 lw0
  have p2 := hlt _ _ bx0 by1
  obtain ⟨lm1, m1⟩ := mulx x0 y1 lx0 ly1 (by omega)
  have bw0 : toNat (U.high W0) < B := by rw [w0h]; exact hd _ (by omega)
  obtain ⟨lm, m⟩ := addx _ _ lm1 lw0h (by omega)
  set M := U.wrappingAdd (U.wrappingMul x0 y1) (U.high W0)
  obtain ⟨lw1, w1⟩ := lowx M lm
  obtain ⟨lw2, w2⟩ := highx M lm
  have bw1 : toNat (U.low M) < B := by rw [w1]; exact hm _
  have p3 := hlt _ _ bx1 by0
  obtain ⟨lk1, k1⟩ := mulx x1 y0 lx1 ly0 (by omega)
  obtain ⟨lk, k⟩ := addx _ _ lk1 lw1 (by omega)
  set K := U.wrappingAdd (U.wrappingMul x1 y0) (U.low M)
  obtain ⟨lw3, w3⟩ := highx K lk
  have p4 := hlt _ _ bx1 by1
  obtain ⟨lp1, q1⟩ := mulx x1 y1 lx1 ly1 (by omega)
  -- the sum of the high parts is the quotient
  have eW := Nat.mod_add_div (toNat W0) B
  have eM := Nat.mod_add_div (toNat M) B
  have eK := Nat.mod_add_div (toNat K) B
  rw [← w0h] at eW; rw [← w1, ← w2] at eM; rw [← w3] at eK
  have hid : toNat x * toNat y = B * B * (toNat x1 * toNat y1 + toNat (U.high M) + toNat (U.high K))
      + (B * (toNat K % B) + toNat W0 % B) := by
    have e1 : toNat x * toNat y = toNat x0 * toNat y0 + B * (toNat x0 * toNat y1)
        + B * (toNat x1 * toNat y0) + B * B * (toNat x1 * toNat y1) := by
      rw [← ex, ← ey]; ring
    rw [e1, ← w0]
    rw [m1] at m
    rw [k1] at k
    calc _ = (toNat W0 % B + B * toNat (U.high W0)) + B * (toNat x0 * toNat y1)
          + B * (toNat x1 * toNat y0) + B * B * (toNat x1 * toNat y1) := by rw [eW]
      _ = toNat W0 % B + B * toNat M + B * (toNat x1 * toNat y0)
          + B * B * (toNat x1 * toNat y1) := by rw [m]; ring
      _ = toNat W0 % B + B * (toNat (U.low M) + B * toNat (U.high M)) + B * (toNat x1 * toNat y0)
          + B * B * (toNat x1 * toNat y1) := by rw [eM]
      _ = toNat W0 % B + B * toNat K + B * B * toNat (U.high M)
          + B * B * (toNat x1 * toNat y1) := by rw [k]; ring
      _ = toNat W0 % B + B * (toNat K % B + B * toNat (U.high K)) + B * B * toNat (U.high M)
          + B * B * (toNat x1 * toNat y1) := by rw [eK]
      _ = _ := by ring
  have hrem : B * (toNat K % B) + toNat W0 % B < B * B := by
    have h3 := hm (toNat W0)
    have h4 : toNat K % B + 1 ≤ B := hm (toNat K)
    calc _ < B * (toNat K % B) + B := by omega
      _ = B * (toNat K % B + 1) := by ring
      _ ≤ _ := Nat.mul_le_mul_left _ h4
  have hq : toNat x * toNat y / (B * B)
      = toNat x1 * toNat y1 + toNat (U.high M) + toNat (U.high K) := by
    rw [hid, Nat.mul_add_div (by positivity), Nat.div_eq_of_lt hrem, Nat.add_zero]
  have hqlt : toNat x1 * toNat y1 + toNat (U.high M) + toNat (U.high K) < B * B := by
    rw [← hq]
    exact Nat.div_lt_of_lt_mul (Nat.mul_lt_mul'' bx by')
  obtain ⟨ls1, s1⟩ := addx (U.wrappingMul x1 y1) (U.high M) lp1 lw2 (by omega)
  obtain ⟨ls, s⟩ := addx _ (U.high K) ls1 lw3 (by omega)
  refine ⟨ls, ?_⟩
  rw [s, s1, q1, bits, ← hn, hBB, hq]

theorem OverS.of_gap {N : Nat} {z : Int} {r : Limbs w × Bool}
    (h : WrapS N z r.1 ∧ (r.2 = true ↔ ¬ InS (w * N) z ∧ ¬ Mul.Gap w N z))
    (hg : ¬ Mul.Gap w N z) : OverS N z r :=
  ⟨h.1, h.2.trans ⟨fun h => h.1, fun h => ⟨h, hg⟩⟩⟩

end I256
