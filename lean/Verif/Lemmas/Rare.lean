import Verif.Lemmas.DivClean
import Mathlib.Data.Finset.Card
import Mathlib.Data.Finset.Prod
import Mathlib.Algebra.BigOperators.Ring.Finset
import Mathlib.Algebra.Order.BigOperators.Group.Finset
import Mathlib.Data.Set.Card
import Mathlib.Order.Interval.Finset.Nat

/-!
# How many operands need a corrected estimate
-/

namespace I256

variable {w : Nat}

/-- A wrong estimate: the quotient digit is `B - 2`, or the remainder is close to the divisor. -/
theorem est_wrong {B P U v : Nat} (hB : 2 ≤ B) (hP : 0 < P) (hv : B * B * P ≤ 2 * v) (hU : U < v * B)
    (h : (if U / (B * B * P) < v / (B * P) then U / P / (v / P) else B - 1) ≠ U / v) :
    U / v = B - 2 ∨ v < U % v + B * P := by
  have hb := DivNat.est_bounds hB hP hv hU
  simp only at hb
  obtain ⟨h1, h2, h3⟩ := hb
  have hv0 : 0 < v := by
    have : 0 < B * B * P := by positivity
    omega
  split at h
  · right
    rename_i hc
    rw [if_pos hc] at h1 h2 h3
    have hd0 : 0 < v / P := by
      apply Nat.pos_of_ne_zero
      intro h0
      have : v < P := by
        rcases Nat.div_eq_zero_iff.1 h0 with h | h
        · omega
        · exact h
      have : P ≤ B * P := Nat.le_mul_of_pos_left _ (by omega)
      have : 2 * (B * P) ≤ B * (B * P) := Nat.mul_le_mul_right _ hB
      rw [Nat.mul_assoc] at hv
      omega
    have h4 : U / v + 1 ≤ U / P / (v / P) := by omega
    have h5 : (U / v + 1) * (v / P) ≤ U / P := (Nat.le_div_iff_mul_le hd0).1 h4
    have h6 : (U / v + 1) * (v / P) * P ≤ U := (Nat.le_div_iff_mul_le hP).1 h5
    have d1 := Nat.div_add_mod v P
    have d2 := Nat.mod_lt v hP
    have d3 := Nat.div_add_mod U v
    have hq : U / v + 1 ≤ B := Nat.div_lt_of_lt_mul hU
    have h7 : (U / v + 1) * v = (U / v + 1) * (v / P) * P + (U / v + 1) * (v % P) := by
      rw [Nat.mul_assoc, Nat.mul_comm (v / P), ← Nat.mul_add, d1]
    have h8 : (U / v + 1) * (v % P) < B * P :=
      lt_of_le_of_lt (Nat.mul_le_mul_right _ hq) (Nat.mul_lt_mul_of_pos_left d2 (by omega))
    have h9 : (U / v + 1) * v = v * (U / v) + v := by ring
    omega
  · left
    rename_i hc
    rw [if_neg hc] at h1 h2 h3
    omega

/-- A corrected digit of a long division: with `t` the leading limbs of `x`, the last digit of the quotient of `t` is
`2 ^ w - 2`, or its remainder misses the divisor by at most the part `2 / 2 ^ w`. -/
theorem addBack_near (hw : 0 < w) {x y j : Nat} (h : addBack w x y j = true) :
    x / 2 ^ (w * j) / y % 2 ^ w = 2 ^ w - 2 ∨ 2 ^ w * (y - x / 2 ^ (w * j) % y) ≤ 2 * y := by
  simp only [addBack, Bool.and_eq_true, decide_eq_true_eq] at h
  obtain ⟨⟨⟨h2, hlt⟩, hjn⟩, ho⟩ := h
  have hy0 : y ≠ 0 := by intro h; rw [h, nLimbs_zero hw] at h2; omega
  obtain ⟨b1, b2, b3⟩ := bitLen_spec hy0
  obtain ⟨n1, n2⟩ := nLimbs_bound hw y
  have hs : normShift w y = w * nLimbs w y - bitLen y := rfl
  generalize normShift w y = s at *
  generalize nLimbs w y = n at *
  have hB2 : 2 ≤ 2 ^ w := one_lt_two_pow' hw
  have hsw : s < w := by omega
  have hwn : w ≤ w * (n - 1) := Nat.le_mul_of_pos_right _ (by omega)
  have pn : 2 ^ (w * n) = 2 ^ w * 2 ^ w * (2 ^ w) ^ (n - 2) := by
    rw [Nat.pow_mul, ← pow_two, ← Nat.pow_add]; congr 1; omega
  have pn1 : 2 ^ (w * (n - 1)) = 2 ^ w * (2 ^ w) ^ (n - 2) := by
    rw [Nat.pow_mul, ← pow_succ']; congr 1; omega
  have hv : 2 ^ w * 2 ^ w * (2 ^ w) ^ (n - 2) ≤ 2 * (y * 2 ^ s) := by
    rw [← pn]
    calc 2 ^ (w * n) = 2 * (2 ^ (bitLen y - 1) * 2 ^ s) := by
          rw [← Nat.pow_add, ← pow_succ']; congr 1; omega
      _ ≤ 2 * (y * 2 ^ s) := by
          have := Nat.mul_le_mul_right (2 ^ s) b2
          omega
  have hU : partRem (2 ^ w) (x * 2 ^ s) (y * 2 ^ s) j < y * 2 ^ s * 2 ^ w :=
    Nat.mod_lt _ (by have := Nat.pos_of_ne_zero hy0; positivity)
  simp only [overEst, bne_iff_ne, ne_eq, digitEst] at ho
  rw [← Nat.pow_mul, ← Nat.pow_mul, pn, pn1] at ho
  have key := est_wrong hB2 (by positivity) hv hU ho
  -- back to the operands
  have hj : (2 ^ w) ^ j = 2 ^ (w * j) := by rw [Nat.pow_mul]
  obtain ⟨e, he, ht⟩ : ∃ e, e < 2 ^ s ∧ x * 2 ^ s / 2 ^ (w * j) = 2 ^ s * (x / 2 ^ (w * j)) + e := by
    have hp : 0 < 2 ^ (w * j) := by positivity
    refine ⟨x % 2 ^ (w * j) * 2 ^ s / 2 ^ (w * j), ?_, ?_⟩
    · apply Nat.div_lt_of_lt_mul
      exact Nat.mul_lt_mul_of_pos_right (Nat.mod_lt _ hp) (by positivity)
    · conv_lhs => rw [← Nat.div_add_mod x (2 ^ (w * j)), Nat.add_mul, Nat.mul_assoc,
        Nat.mul_add_div hp, Nat.mul_comm _ (2 ^ s)]
  have hpr : partRem (2 ^ w) (x * 2 ^ s) (y * 2 ^ s) j = (2 ^ s * (x / 2 ^ (w * j)) + e) % (y * 2 ^ s * 2 ^ w) := by
    rw [partRem, hj, ht]
  rw [hpr] at key
  generalize x / 2 ^ (w * j) = t at *
  have hs0 : 0 < 2 ^ s := by positivity
  have hq : (2 ^ s * t + e) % (y * 2 ^ s * 2 ^ w) / (y * 2 ^ s) = t / y % 2 ^ w := by
    rw [Nat.mod_mul_right_div_self, Nat.mul_comm y, ← Nat.div_div_eq_div_mul, Nat.mul_add_div hs0,
      Nat.div_eq_of_lt he, Nat.add_zero]
  have hr : (2 ^ s * t + e) % (y * 2 ^ s * 2 ^ w) % (y * 2 ^ s) = 2 ^ s * (t % y) + e := by
    rw [Nat.mod_mul_right_mod]
    have h3 : 2 ^ s * t + e = 2 ^ s * (t % y) + e + y * 2 ^ s * (t / y) := by
      conv_lhs => rw [← Nat.div_add_mod t y]
      ring
    rw [h3, Nat.add_mul_mod_self_left]
    apply Nat.mod_eq_of_lt
    have h4 : t % y + 1 ≤ y := Nat.mod_lt _ (by omega)
    have h5 := Nat.mul_le_mul_left (2 ^ s) h4
    rw [Nat.mul_add, Nat.mul_one, Nat.mul_comm _ y] at h5
    omega
  rw [hq, hr] at key
  rcases key with key | key
  · exact .inl key
  · right
    obtain ⟨K, hK⟩ : ∃ K, 2 ^ w * (2 ^ w) ^ (n - 2) = 2 ^ s * K :=
      ⟨2 ^ (w * (n - 1) - s), by rw [← pn1, ← Nat.pow_add]; congr 1; omega⟩
    rw [hK] at key
    have h5 : y < t % y + 1 + K := by
      have : 2 ^ s * y < 2 ^ s * (t % y + 1 + K) := by
        rw [Nat.mul_add, Nat.mul_add]
        rw [Nat.mul_comm y] at key
        omega
      exact Nat.lt_of_mul_lt_mul_left this
    have h6 : 2 ^ w * K ≤ 2 * y := by
      have : 2 ^ s * (2 ^ w * K) ≤ 2 ^ s * (2 * y) := by
        calc 2 ^ s * (2 ^ w * K) = 2 ^ w * (2 ^ s * K) := by ring
          _ = 2 ^ w * 2 ^ w * (2 ^ w) ^ (n - 2) := by rw [← hK]; ring
          _ ≤ 2 * (y * 2 ^ s) := hv
          _ = 2 ^ s * (2 * y) := by ring
      exact Nat.le_of_mul_le_mul_left this hs0
    exact (Nat.mul_le_mul_left _ (by omega)).trans h6

/-! ### Counting -/

open Finset

/-- Numbers with a remainder close to the divisor. -/
theorem card_near {B T y : Nat} (hy : 0 < y) (hT : y ≤ T) (hB : 0 < B) :
    #{t ∈ range T | B * (y - t % y) ≤ 2 * y} * B ≤ 4 * T := by
  have h : #{t ∈ range T | B * (y - t % y) ≤ 2 * y} ≤ #(range (T / y + 1) ×ˢ Ico (y - 2 * y / B) y) := by
    apply Finset.card_le_card_of_injOn fun t => (t / y, t % y)
    · intro t ht
      simp only [coe_filter, Set.mem_ofPred_eq, mem_range] at ht
      have h1 := Nat.mod_lt t hy
      have h2 : y - t % y ≤ 2 * y / B := (Nat.le_div_iff_mul_le hB).2 (by rw [Nat.mul_comm]; exact ht.2)
      have h3 : t / y ≤ T / y := Nat.div_le_div_right (by omega)
      simp only [coe_product, Set.mem_prod, coe_range, coe_Ico, Set.mem_Iio, Set.mem_Ico]
      omega
    · intro a _ b _ e
      simp only [Prod.mk.injEq] at e
      rw [← Nat.div_add_mod a y, ← Nat.div_add_mod b y, e.1, e.2]
  rw [card_product, card_range, Nat.card_Ico] at h
  have h1 : 2 * y / B * B ≤ 2 * y := Nat.div_mul_le_self _ _
  have h2 : T / y * y ≤ T := Nat.div_mul_le_self _ _
  calc _ ≤ (T / y + 1) * (y - (y - 2 * y / B)) * B := Nat.mul_le_mul_right _ h
    _ ≤ (T / y + 1) * (2 * y / B) * B :=
        Nat.mul_le_mul_right _ (Nat.mul_le_mul_left _ (by generalize 2 * y / B = g; omega))
    _ = (T / y + 1) * (2 * y / B * B) := by ring
    _ ≤ (T / y + 1) * (2 * y) := Nat.mul_le_mul_left _ h1
    _ = 2 * (T / y * y) + 2 * y := by ring
    _ ≤ 4 * T := by omega

/-- Numbers with a given last digit of the quotient. -/
theorem card_digit {B T y : Nat} (hy : 0 < y) (hT : y ≤ T) (hB : 2 ≤ B) :
    #{t ∈ range T | t / y % B = B - 2} * B ≤ 3 * T := by
  have h : #{t ∈ range T | t / y % B = B - 2} ≤ #(range ((T / y + 2) / B) ×ˢ range y) := by
    apply Finset.card_le_card_of_injOn fun t => (t / y / B, t % y)
    · intro t ht
      simp only [coe_filter, Set.mem_ofPred_eq, mem_range] at ht
      have h1 := Nat.mod_lt t hy
      have h3 : t / y ≤ T / y := Nat.div_le_div_right (by omega)
      have h4 := Nat.div_add_mod (t / y) B
      simp only [coe_product, Set.mem_prod, coe_range, Set.mem_Iio]
      refine ⟨?_, h1⟩
      rw [Nat.lt_iff_add_one_le, Nat.le_div_iff_mul_le (by omega), Nat.add_mul, Nat.mul_comm _ B]
      omega
    · intro a ha b hb e
      simp only [coe_filter, Set.mem_ofPred_eq] at ha hb
      simp only [Prod.mk.injEq] at e
      rw [← Nat.div_add_mod a y, ← Nat.div_add_mod b y, e.2, ← Nat.div_add_mod (a / y) B, ← Nat.div_add_mod (b / y) B,
        e.1, ha.2, hb.2]
  rw [card_product, card_range, card_range] at h
  have h1 : (T / y + 2) / B * B ≤ T / y + 2 := Nat.div_mul_le_self _ _
  have h2 : T / y * y ≤ T := Nat.div_mul_le_self _ _
  calc _ ≤ (T / y + 2) / B * y * B := Nat.mul_le_mul_right _ h
    _ = (T / y + 2) / B * B * y := by ring
    _ ≤ (T / y + 2) * y := Nat.mul_le_mul_right _ h1
    _ = T / y * y + 2 * y := by ring
    _ ≤ 3 * T := by omega

/-- A condition on the leading part of a number. -/
theorem card_prefix (p : Nat → Prop) [DecidablePred p] (D T : Nat) (hD : 0 < D) :
    #{x ∈ range (D * T) | p (x / D)} ≤ D * #{t ∈ range T | p t} := by
  have h : #{x ∈ range (D * T) | p (x / D)} ≤ #(range D ×ˢ {t ∈ range T | p t}) := by
    apply Finset.card_le_card_of_injOn fun x => (x % D, x / D)
    · intro x hx
      simp only [coe_filter, Set.mem_ofPred_eq, mem_range] at hx
      simp only [coe_product, Set.mem_prod, coe_range, coe_filter, Set.mem_Iio, mem_range, Set.mem_ofPred_eq]
      exact ⟨Nat.mod_lt _ hD, Nat.div_lt_of_lt_mul hx.1, hx.2⟩
    · intro a _ b _ e
      simp only [Prod.mk.injEq] at e
      rw [← Nat.div_add_mod a D, ← Nat.div_add_mod b D, e.1, e.2]
  rwa [card_product, card_range] at h

theorem card_addBack (hw : 0 < w) {N y j : Nat} (hy : 0 < y) (hj : j ≤ N) (hn : y ≤ 2 ^ (w * (N - j))) :
    #{x ∈ range (2 ^ (w * N)) | addBack w x y j = true} * 2 ^ w ≤ 7 * 2 ^ (w * N) := by
  have hB2 : 2 ≤ 2 ^ w := one_lt_two_pow' hw
  have e : 2 ^ (w * N) = 2 ^ (w * j) * 2 ^ (w * (N - j)) := by
    rw [← Nat.pow_add, ← Nat.mul_add]; congr 2; omega
  have hsub : #{x ∈ range (2 ^ (w * N)) | addBack w x y j = true} ≤
      #({x ∈ range (2 ^ (w * j) * 2 ^ (w * (N - j))) | x / 2 ^ (w * j) / y % 2 ^ w = 2 ^ w - 2} ∪
        {x ∈ range (2 ^ (w * j) * 2 ^ (w * (N - j))) | 2 ^ w * (y - x / 2 ^ (w * j) % y) ≤ 2 * y}) := by
    apply Finset.card_le_card
    intro x hx
    rw [mem_filter] at hx
    rw [← e, mem_union, mem_filter, mem_filter]
    exact (addBack_near hw hx.2).imp (⟨hx.1, ·⟩) (⟨hx.1, ·⟩)
  have h1 := card_prefix (fun t => t / y % 2 ^ w = 2 ^ w - 2) (2 ^ (w * j)) (2 ^ (w * (N - j))) (by positivity)
  have h2 := card_prefix (fun t => 2 ^ w * (y - t % y) ≤ 2 * y) (2 ^ (w * j)) (2 ^ (w * (N - j))) (by positivity)
  have h3 := card_digit hy hn hB2
  have h4 := card_near (B := 2 ^ w) hy hn (by omega)
  have h5 := hsub.trans (card_union_le _ _)
  rw [e]
  calc _ ≤ (2 ^ (w * j) * #{t ∈ range (2 ^ (w * (N - j))) | t / y % 2 ^ w = 2 ^ w - 2} +
        2 ^ (w * j) * #{t ∈ range (2 ^ (w * (N - j))) | 2 ^ w * (y - t % y) ≤ 2 * y}) * 2 ^ w :=
        Nat.mul_le_mul_right _ (by rw [← e] at *; omega)
    _ = 2 ^ (w * j) * (#{t ∈ range (2 ^ (w * (N - j))) | t / y % 2 ^ w = 2 ^ w - 2} * 2 ^ w +
        #{t ∈ range (2 ^ (w * (N - j))) | 2 ^ w * (y - t % y) ≤ 2 * y} * 2 ^ w) := by ring
    _ ≤ 2 ^ (w * j) * (7 * 2 ^ (w * (N - j))) := Nat.mul_le_mul_left _ (by omega)
    _ = _ := by ring

theorem addBack_bounds (hw : 0 < w) {N x y j : Nat} (hx : x < 2 ^ (w * N)) (h : addBack w x y j = true) :
    0 < y ∧ 2 ≤ nLimbs w y ∧ j + nLimbs w y ≤ N ∧ y ≤ 2 ^ (w * (N - j)) := by
  simp only [addBack, Bool.and_eq_true, decide_eq_true_eq] at h
  obtain ⟨⟨⟨h2, hlt⟩, hjn⟩, -⟩ := h
  have hy0 : y ≠ 0 := by intro h; rw [h, nLimbs_zero hw] at h2; omega
  have hn : nLimbs w x ≤ N := by
    have b := bitLen_le_of_lt hx
    rw [nLimbs, ← Nat.lt_succ_iff, Nat.div_lt_iff_lt_mul hw, Nat.succ_mul, Nat.mul_comm N w]
    omega
  refine ⟨Nat.pos_of_ne_zero hy0, h2, by omega, ?_⟩
  exact (nLimbs_spec hw hy0).2.2.le.trans (Nat.pow_le_pow_right (by omega) (Nat.mul_le_mul_left _ (by omega)))

theorem not_exact {N x y : Nat} (h : ¬ DivExact w N x y) : ∃ j, addBack w x y j = true := by
  by_contra hc
  exact h (DivExact.of_clean fun j => by simpa using fun e => hc ⟨j, e⟩)

theorem card_not_exact (hw : 0 < w) (N y : Nat) :
    #{x ∈ range (2 ^ (w * N)) | ¬ DivExact w N x y} * 2 ^ w ≤ 7 * (N - 1) * 2 ^ (w * N) := by
  have h : #{x ∈ range (2 ^ (w * N)) | ¬ DivExact w N x y} ≤
      #((range (N - 1)).biUnion fun j => {x ∈ range (2 ^ (w * N)) | addBack w x y j = true}) := by
    apply Finset.card_le_card
    intro x hx
    rw [mem_filter, mem_range] at hx
    obtain ⟨j, hj⟩ := not_exact hx.2
    have := addBack_bounds hw hx.1 hj
    simp only [mem_biUnion, mem_filter, mem_range]
    exact ⟨j, by omega, hx.1, hj⟩
  have h2 : ∀ j ∈ range (N - 1), #{x ∈ range (2 ^ (w * N)) | addBack w x y j = true} * 2 ^ w ≤ 7 * 2 ^ (w * N) := by
    intro j _
    by_cases he : ({x ∈ range (2 ^ (w * N)) | addBack w x y j = true} : Finset Nat).Nonempty
    · obtain ⟨x, hx⟩ := he
      rw [mem_filter, mem_range] at hx
      obtain ⟨h0, -, h2, h3⟩ := addBack_bounds hw hx.1 hx.2
      exact card_addBack hw h0 (by omega) h3
    · rw [not_nonempty_iff_eq_empty] at he
      rw [he]
      simp
  calc _ ≤ (∑ j ∈ range (N - 1), #{x ∈ range (2 ^ (w * N)) | addBack w x y j = true}) * 2 ^ w :=
        Nat.mul_le_mul_right _ (h.trans card_biUnion_le)
    _ = ∑ j ∈ range (N - 1), #{x ∈ range (2 ^ (w * N)) | addBack w x y j = true} * 2 ^ w := Finset.sum_mul ..
    _ ≤ ∑ _j ∈ range (N - 1), 7 * 2 ^ (w * N) := Finset.sum_le_sum h2
    _ = _ := by rw [sum_const, card_range, smul_eq_mul]; ring

theorem card_panics (hw : 0 < w) (N y : Nat) :
    #{x ∈ range (2 ^ (w * N)) | DivPanics w N x y} * 2 ^ w ≤ 7 * 2 ^ (w * N) := by
  by_cases he : ({x ∈ range (2 ^ (w * N)) | DivPanics w N x y} : Finset Nat).Nonempty
  · obtain ⟨x, hx⟩ := he
    rw [mem_filter, mem_range] at hx
    obtain ⟨hn, j, hj⟩ := hx.2
    obtain ⟨h0, -, h2, h3⟩ := addBack_bounds hw hx.1 hj
    obtain rfl : j = 0 := by omega
    refine (Nat.mul_le_mul_right _ (card_le_card ?_)).trans (card_addBack hw h0 (by omega) h3)
    intro z hz
    rw [mem_filter, mem_range] at hz ⊢
    obtain ⟨-, i, hi⟩ := hz.2
    have := addBack_bounds hw hz.1 hi
    obtain rfl : i = 0 := by omega
    exact ⟨hz.1, hi⟩
  · rw [not_nonempty_iff_eq_empty] at he
    rw [he]
    simp

/-- Limbs with a property of their number are at most as many as the numbers. -/
theorem ncard_limbs (N : Nat) {S : Set (Limbs w)} {p : Nat → Prop} [DecidablePred p]
    (h : ∀ x ∈ S, x.length = N ∧ p (toNat x)) : S.ncard ≤ #{x ∈ range (2 ^ (w * N)) | p x} := by
  rw [← Set.ncard_coe_finset]
  refine Set.ncard_le_ncard_of_injOn toNat (fun x hx => ?_) (fun x hx y hy e => ?_) (Finset.finite_toSet _)
  · obtain ⟨hl, hp⟩ := h x hx
    have := toNat_lt x
    rw [bits, hl] at this
    simpa using ⟨this, hp⟩
  · exact toNat_inj (by rw [(h x hx).1, (h y hy).1]) e

end I256
