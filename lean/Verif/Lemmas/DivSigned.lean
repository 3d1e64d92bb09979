import Verif.Lemmas.DivApi
import Verif.Lemmas.Scalar
import Verif.Lemmas.MulApi
import Verif.Lemmas.ShiftApi
import Mathlib.Data.Int.Lemmas

/-!
# Signed division: exact form of the remainder, Euclidean and rounding variants
-/

namespace I256

variable {w : Nat}

theorem flagNum_lt (hw : 0 < w) (f : Nat → Bool) (k : Nat) : flagNum w f (k + 1) < 2 * 2 ^ (w * k) := by
  induction k with
  | zero => simp only [flagNum]; split <;> simp
  | succ k ih =>
    rw [flagNum]
    have h : 2 * 2 ^ (w * k) ≤ 2 ^ (w * (k + 1)) := by
      rw [Nat.mul_succ, pow_add, Nat.mul_comm]
      exact Nat.mul_le_mul_left _ (one_lt_two_pow' hw)
    split <;> omega

theorem bitLen_le {w y : Nat} (hw : 0 < w) : bitLen y ≤ w * nLimbs w y := by
  unfold nLimbs
  have h := Nat.div_add_mod (bitLen y + w - 1) w
  have h2 := Nat.mod_lt (bitLen y + w - 1) hw
  omega

theorem lt_two_pow_bitLen (y : Nat) : y < 2 ^ bitLen y := by
  unfold bitLen
  split
  · omega
  · exact Nat.lt_log2_self

/-- What is left in the remainder always stays below the sign bit. -/
theorem stray_bound (hw : 1 < w) {N x y : Nat} (hy : y ≠ 0) (hN : nLimbs w y < N) :
    2 * (x % y + strayRem w N x y) < 2 ^ (w * N) := by
  obtain ⟨k, hk⟩ : ∃ k, N = nLimbs w y + (k + 1) := ⟨N - nLimbs w y - 1, by omega⟩
  have h1 := Nat.mod_lt x (Nat.pos_of_ne_zero hy)
  have h2 := lt_two_pow_bitLen y
  have h3 := bitLen_le (y := y) (by omega : 0 < w)
  have h4 := flagNum_lt (by omega : 0 < w) (addBack w x y) k
  rw [strayRem, show N - nLimbs w y = k + 1 by omega, hk]
  generalize nLimbs w y = n at *
  generalize bitLen y = b at *
  generalize flagNum w (addBack w x y) (k + 1) = F at *
  have h5 : 2 ^ b * (F + 1) ≤ 2 ^ b * (2 * 2 ^ (w * k)) := Nat.mul_le_mul_left _ h4
  have h6 : 2 ^ b ≤ 2 ^ (w * n) := Nat.pow_le_pow_right (by norm_num) h3
  have h7 : 2 ^ b * (2 * 2 ^ (w * k)) ≤ 2 ^ (w * n) * (2 * 2 ^ (w * k)) :=
    Nat.mul_le_mul_right _ h6
  have h8 : 2 ^ (w * (n + (k + 1))) = 2 ^ (w * n) * 2 ^ (w * k) * 2 ^ w := by
    rw [← pow_add, ← pow_add]; congr 1; ring
  have h9 : 4 ≤ 2 ^ w := by
    calc 4 = 2 ^ 2 := by norm_num
      _ ≤ 2 ^ w := Nat.pow_le_pow_right (by norm_num) (by omega)
  have h10 : 2 ^ (w * n) * 2 ^ (w * k) * 4 ≤ 2 ^ (w * n) * 2 ^ (w * k) * 2 ^ w :=
    Nat.mul_le_mul_left _ h9
  have h11 : 2 ^ (w * n) * (2 * 2 ^ (w * k)) = 2 * (2 ^ (w * n) * 2 ^ (w * k)) := by ring
  have h12 : 2 ^ b * (F + 1) = 2 ^ b * F + 2 ^ b := by ring
  omega

theorem tmod_stray_InS (hw : 1 < w) {N : Nat} {X Y : Int} (hY : InS (w * N) Y) (hy : Y ≠ 0) :
    InS (w * N) (X.tmod Y + X.sign * strayRem w N X.natAbs Y.natAbs) := by
  rw [← tmod_natAbs X Y _ (fun h => by rw [h]; exact stray_zero_num)]
  have hb : 2 * (X.natAbs % Y.natAbs + strayRem w N X.natAbs Y.natAbs) < 2 ^ (w * N) := by
    rcases Nat.lt_or_ge (nLimbs w Y.natAbs) N with h | h
    · exact stray_bound hw (by omega) h
    · rw [strayRem, Nat.sub_eq_zero_of_le h, flagNum, Nat.mul_zero, Nat.add_zero]
      have h1 := Nat.mod_lt X.natAbs (y := Y.natAbs) (by omega)
      have h2 : 2 * Y.natAbs ≤ 2 ^ (w * N) := by
        unfold InS at hY
        zify
        rcases abs_cases Y with ⟨e, _⟩ | ⟨e, _⟩ <;> rw [e] <;> omega
      omega
  generalize X.natAbs % Y.natAbs + strayRem w N X.natAbs Y.natAbs = R at *
  have hb' : 2 * (R : Int) < 2 ^ (w * N) := by exact_mod_cast hb
  unfold InS
  split <;> omega

/-- `wrapping_div_rem`, signed; the remainder never wraps. -/
theorem wrappingDivRemS' (hw : 1 < w) {x y : Limbs w} (hl : x.length = y.length) (h2 : 2 ≤ x.length)
    (he : x.length % 2 = 0) (hy : toInt y ≠ 0) :
    Yields (DivPanics w x.length (toInt x).natAbs (toInt y).natAbs)
      (fun r => WrapS x.length ((toInt x).tdiv (toInt y)) r.1 ∧
        ExactS x.length ((toInt x).tmod (toInt y) + (toInt x).sign *
          strayRem w x.length (toInt x).natAbs (toInt y).natAbs) r.2)
      (I.wrappingDivRem x y) :=
  (wrappingDivRemS (by omega) hl h2 he hy).mono fun _ h => ⟨h.1, h.2.exact
    (tmod_stray_InS hw (by rw [hl]; exact toInt_InS y) hy)⟩

theorem wrappingDivS (hw : 1 < w) {x y : Limbs w} (hl : x.length = y.length) (h2 : 2 ≤ x.length)
    (he : x.length % 2 = 0) (hy : toInt y ≠ 0) :
    Yields (DivPanics w x.length (toInt x).natAbs (toInt y).natAbs)
      (WrapS x.length ((toInt x).tdiv (toInt y))) (I.wrappingDiv x y) :=
  (wrappingDivRemS' hw hl h2 he hy).map fun _ h => h.1

theorem wrappingRemS (hw : 1 < w) {x y : Limbs w} (hl : x.length = y.length) (h2 : 2 ≤ x.length)
    (he : x.length % 2 = 0) (hy : toInt y ≠ 0) :
    Yields (DivPanics w x.length (toInt x).natAbs (toInt y).natAbs)
      (ExactS x.length ((toInt x).tmod (toInt y) + (toInt x).sign *
          strayRem w x.length (toInt x).natAbs (toInt y).natAbs)) (I.wrappingRem x y) :=
  (wrappingDivRemS' hw hl h2 he hy).map fun _ h => h.2

/-! ### Sign facts about truncated division -/

theorem tmod_eq_zero_iff' {x y : Int} : x.tmod y = 0 ↔ y ∣ x := (Int.dvd_iff_tmod_eq_zero).symm

theorem tmod_bounds (x y : Int) (hy : y ≠ 0) :
    (0 ≤ x → 0 ≤ x.tmod y) ∧ (x ≤ 0 → x.tmod y ≤ 0) ∧ (x.tmod y).natAbs < y.natAbs := by
  refine ⟨fun h => Int.tmod_nonneg _ h, fun h => ?_, ?_⟩
  · have := Int.tmod_nonneg (a := -x) y (by omega)
    rw [Int.neg_tmod] at this
    omega
  · rw [Int.natAbs_tmod]
    exact Nat.mod_lt _ (by omega)

/-- Euclidean quotient and remainder from the truncated ones. -/
theorem ediv_of_tdiv (x y : Int) (hy : y ≠ 0) :
    x / y = (if x.tmod y < 0 then (if 0 < y then x.tdiv y - 1 else x.tdiv y + 1) else x.tdiv y) ∧
    x % y = (if x.tmod y < 0 then x.tmod y + |y| else x.tmod y) := by
  have h := Int.mul_tdiv_add_tmod x y
  obtain ⟨h1, h2, h3⟩ := tmod_bounds x y hy
  generalize x.tmod y = r at *
  generalize x.tdiv y = q at *
  apply (Int.ediv_emod_unique'' hy).2
  by_cases hr : r < 0
  · rw [if_pos hr, if_pos hr]
    by_cases hp : 0 < y
    · rw [if_pos hp, abs_of_pos hp]
      refine ⟨?_, by omega, by omega⟩
      rw [← h]; ring
    · rw [if_neg hp, abs_of_neg (by omega)]
      refine ⟨?_, by omega, by omega⟩
      rw [← h]; ring
  · rw [if_neg hr, if_neg hr]
    rcases abs_cases y with ⟨e, _⟩ | ⟨e, _⟩ <;> rw [e] <;> exact ⟨by rw [← h]; ring, by omega, by omega⟩

theorem fdiv_of_tdiv (x y : Int) (hy : y ≠ 0) :
    x.fdiv y = if x.tmod y ≠ 0 ∧ ¬ (x < 0 ↔ y < 0) then x.tdiv y - 1 else x.tdiv y := by
  rw [Int.fdiv_eq_ediv, (ediv_of_tdiv x y hy).1]
  simp only [← tmod_eq_zero_iff']
  obtain ⟨h1, h2, h3⟩ := tmod_bounds x y hy
  generalize x.tmod y = r at *
  generalize x.tdiv y = q at *
  split <;> split <;> split <;> first | omega | (split <;> omega)

/-- The ceiling of `x / y`. -/
theorem ceil_of_tdiv (x y : Int) (hy : y ≠ 0) :
    -((-x).fdiv y) = if x.tmod y ≠ 0 ∧ (x < 0 ↔ y < 0) then x.tdiv y + 1 else x.tdiv y := by
  rw [fdiv_of_tdiv _ _ hy, Int.neg_tmod, Int.neg_tdiv]
  obtain ⟨h1, h2, h3⟩ := tmod_bounds x y hy
  by_cases d : x.tmod y = 0
  · simp [d]
  · have hx : x ≠ 0 := by rintro rfl; simp at d
    have e : (¬ (-x < 0 ↔ y < 0)) ↔ (x < 0 ↔ y < 0) := by
      rcases Int.lt_trichotomy x 0 with h | h | h
      · simp [h]; omega
      · exact absurd h hx
      · simp [h]; omega
    simp only [e, ne_eq, neg_eq_zero]
    split <;> omega

/-! ### Euclidean and rounding variants -/

/-- The sign of the returned remainder. -/
theorem rem_sign {X Y : Int} (hY : Y ≠ 0) (k : Nat) (R : Int) (hR : R = X.tmod Y + X.sign * k) :
    (R < 0 ↔ X < 0 ∧ (¬ Y ∣ X ∨ k ≠ 0)) ∧ (X ≠ 0 → (R = 0 ↔ Y ∣ X ∧ k = 0)) := by
  rw [← tmod_eq_zero_iff']
  obtain ⟨h1, h2, h3⟩ := tmod_bounds X Y hY
  generalize X.tmod Y = t at *
  rcases Int.lt_trichotomy X 0 with h | h | h
  · rw [Int.sign_eq_neg_one_of_neg h] at hR
    omega
  · rw [h, Int.sign_zero] at hR
    omega
  · rw [Int.sign_eq_one_of_pos h] at hR
    omega

theorem isPositive_eq (hw : 0 < w) {x : Limbs w} (h : x ≠ []) :
    I.isPositive x = decide (0 < toInt x) := by
  rw [Bool.eq_iff_iff, isPositive_iff hw h]
  simp

theorem WrapS.modEq {N : Nat} {z : Int} {v : Limbs w} (h : WrapS N z v) :
    toInt v ≡ z [ZMOD 2 ^ (w * N)] := by
  have h1 := toInt_modEq v
  have h2 := h.wrapU.modEq
  rw [h.1] at h1
  exact h1.trans h2

theorem WrapS.congr {N : Nat} {z z' : Int} {v : Limbs w} (h : WrapS N z v)
    (hz : z ≡ z' [ZMOD 2 ^ (w * N)]) : WrapS N z' v := (h.wrapU.congr hz).wrapS

theorem toNat_one (hw : 0 < w) : ((1 : BitVec w).toNat : Int) = 1 := by
  have := one_lt_two_pow' hw
  simp [BitVec.toNat_ofNat, Nat.mod_eq_of_lt this]

theorem wrapS_add_one (hw : 0 < w) {N : Nat} (hN : 0 < N) {z : Int} {q : Limbs w} (h : WrapS N z q) :
    WrapS N (z + 1) (I.wrappingAddULimb q 1) := by
  have h1 := Add.limbWrapS hw (length_ne (n := 0) (by rw [h.1]; exact hN)) (x := q) 1
  rw [h.1, toNat_one hw] at h1
  exact h1.congr (h.modEq.add_right _)

theorem wrapS_sub_one (hw : 0 < w) {N : Nat} (hN : 0 < N) {z : Int} {q : Limbs w} (h : WrapS N z q) :
    WrapS N (z - 1) (I.wrappingSubULimb q 1) := by
  have h1 := Sub.limbWrapS hw (length_ne (n := 0) (by rw [h.1]; exact hN)) (x := q) 1
  rw [h.1, toNat_one hw] at h1
  exact h1.congr (h.modEq.sub_right _)

theorem ExactS.congr' {N : Nat} {z z' : Int} {v : Limbs w} (h : ExactS N z v) (hz : z = z') :
    ExactS N z' v := hz ▸ h

/-- The value `wrapping_div_euclid` returns. -/
theorem wrappingDivEuclidS (hw : 1 < w) {x y : Limbs w} (hl : x.length = y.length)
    (h2 : 2 ≤ x.length) (he : x.length % 2 = 0) (hy : toInt y ≠ 0) :
    Yields (DivPanics w x.length (toInt x).natAbs (toInt y).natAbs)
      (WrapS x.length (if toInt x < 0 ∧ toInt y ∣ toInt x ∧
          strayRem w x.length (toInt x).natAbs (toInt y).natAbs ≠ 0
        then toInt x / toInt y - (toInt y).sign else toInt x / toInt y))
      (I.wrappingDivEuclid x y) := by
  refine (wrappingDivRemS' hw hl h2 he hy).map ?_
  rintro ⟨q, r⟩ ⟨hq, rl, rv⟩
  simp only at hq rl rv ⊢
  obtain ⟨hs, -⟩ := rem_sign hy _ _ rv
  rw [isNegative_eq (by omega) (length_ne (n := 1) (by omega)), isPositive_eq (by omega)
    (length_ne (n := 1) (by omega))]
  simp only [decide_eq_true_eq, hs]
  have hsub := wrapS_sub_one (by omega) (by omega) hq
  have hadd := wrapS_add_one (by omega) (by omega) hq
  rw [(ediv_of_tdiv _ _ hy).1]
  obtain ⟨b1, b2, -⟩ := tmod_bounds (toInt x) (toInt y) hy
  have hd := tmod_eq_zero_iff' (x := toInt x) (y := toInt y)
  simp only [← hd]
  have sg : (toInt y).sign = if 0 < toInt y then 1 else -1 := by
    split
    · exact Int.sign_eq_one_of_pos (by assumption)
    · exact Int.sign_eq_neg_one_of_neg (by omega)
  rw [sg]
  generalize strayRem w x.length (toInt x).natAbs (toInt y).natAbs = k at *
  generalize (toInt x).tmod (toInt y) = t at *
  generalize (toInt x).tdiv (toInt y) = d at *
  by_cases hx : toInt x < 0 <;> by_cases ht : t = 0 <;> by_cases hk : k = 0 <;>
    by_cases hp : 0 < toInt y <;>
    simp only [hx, ht, hk, hp, ne_eq, not_true_eq_false, not_false_eq_true, true_and, and_true, and_false, false_and,
      or_true, true_or, or_false, if_true, if_false, lt_irrefl] <;>
    first | exact hq | exact hsub | exact hadd |
      (rw [if_pos (by omega)]; first | exact hq | exact hsub | exact hadd) |
      (rw [if_neg (by omega)]; first | exact hq | exact hsub | exact hadd) | skip

/-- The value `wrapping_rem_euclid` returns. -/
theorem wrappingRemEuclidS (hw : 1 < w) {x y : Limbs w} (hl : x.length = y.length)
    (h2 : 2 ≤ x.length) (he : x.length % 2 = 0) (hy : toInt y ≠ 0) :
    Yields (DivPanics w x.length (toInt x).natAbs (toInt y).natAbs)
      (ExactS x.length (toInt x % toInt y +
        (toInt x).sign * strayRem w x.length (toInt x).natAbs (toInt y).natAbs +
        if toInt x < 0 ∧ toInt y ∣ toInt x ∧
          strayRem w x.length (toInt x).natAbs (toInt y).natAbs ≠ 0 then |toInt y| else 0))
      (I.wrappingRemEuclid x y) := by
  refine (wrappingRemS hw hl h2 he hy).map ?_
  rintro r ⟨rl, rv⟩
  obtain ⟨hs, -⟩ := rem_sign hy _ _ rv
  have hys := toInt_InS y
  have hrs := toInt_InS r
  rw [show bits y = w * x.length by rw [bits, hl]] at hys
  rw [show bits r = w * x.length by rw [bits, rl]] at hrs
  have ha := (overflowingAbsS (by omega : 0 < w) (x := y) (by omega) (by omega)).1
  rw [← hl] at ha
  have hadd := Add.wrapS (by omega : 0 < w) (x := r) (y := I.wrappingAbs y) (rl.trans ha.1.symm)
  rw [rl] at hadd
  replace hadd := hadd.congr (ha.modEq.add_left _)
  have hp : |toInt y| = if 0 < toInt y then toInt y else - toInt y := by
    split
    · exact abs_of_pos (by assumption)
    · exact abs_of_nonpos (by omega)
  rw [isNegative_eq (by omega) (length_ne (n := 1) (by omega))]
  simp only [decide_eq_true_eq]
  rw [(ediv_of_tdiv _ _ hy).2]
  obtain ⟨b1, b2, -⟩ := tmod_bounds (toInt x) (toInt y) hy
  simp only [← tmod_eq_zero_iff' (x := toInt x) (y := toInt y)] at hs ⊢
  generalize strayRem w x.length (toInt x).natAbs (toInt y).natAbs = k at *
  generalize (toInt x).tmod (toInt y) = t at *
  by_cases hr : toInt r < 0
  · rw [if_pos hr]
    refine (hadd.exact ?_).congr' ?_
    · unfold InS at hys hrs ⊢
      rw [hp]; split <;> omega
    · obtain ⟨h1, h2⟩ := hs.1 hr
      rw [rv, Int.sign_eq_neg_one_of_neg h1]
      by_cases ht : t = 0
      · rw [if_neg (by omega), if_pos ⟨h1, ht, by omega⟩]
      · rw [if_pos (by omega), if_neg (by tauto)]; ring
  · rw [if_neg hr]
    refine ⟨rl, ?_⟩
    have h1 : ¬ (toInt x < 0 ∧ t = 0 ∧ k ≠ 0) := fun h => hr (hs.2 ⟨h.1, .inr h.2.2⟩)
    have h2 : ¬ t < 0 := by
      intro h
      exact hr (hs.2 ⟨by omega, .inl (by omega)⟩)
    rw [if_neg h1, if_neg h2, rv]; ring

/-- `r != 0` in `div_floor`, `div_ceil`. -/
theorem eqZeroS {r : Limbs w} (h2 : 2 ≤ r.length) (he : r.length % 2 = 0) :
    Ord.eqConst r (ofU8 r.length 0) = decide (toInt r = 0) := by
  rw [Bool.eq_iff_iff, eqZero_iff he h2, ← toInt_eq_zero_iff]; simp

/-- The value `wrapping_div_rem` returns, with the test `r == 0`. -/
theorem wrappingDivRemS0 (hw : 1 < w) {x y : Limbs w} (hl : x.length = y.length) (h2 : 2 ≤ x.length)
    (he : x.length % 2 = 0) (hy : toInt y ≠ 0) :
    Yields (DivPanics w x.length (toInt x).natAbs (toInt y).natAbs)
      (fun r => WrapS x.length ((toInt x).tdiv (toInt y)) r.1 ∧
        Ord.eqConst r.2 (ofU8 r.2.length 0) = decide ((toInt x).tmod (toInt y) = 0 ∧
          strayRem w x.length (toInt x).natAbs (toInt y).natAbs = 0))
      (I.wrappingDivRem x y) := by
  refine (wrappingDivRemS' hw hl h2 he hy).mono ?_
  rintro ⟨q, r⟩ ⟨hq, rl, rv⟩
  simp only at hq rl rv ⊢
  refine ⟨hq, ?_⟩
  obtain ⟨-, hz⟩ := rem_sign hy _ _ rv
  rw [eqZeroS (by omega) (by omega), decide_eq_decide, tmod_eq_zero_iff']
  by_cases hx : toInt x = 0
  · rw [rv, hx]
    simp [stray_zero_num]
  · exact hz hx

theorem floor_val (t d : Int) (k : Nat) (s : Prop) [Decidable s] :
    (if t ≠ 0 ∧ ¬ s then d - 1 else d) - (if t = 0 ∧ k ≠ 0 ∧ ¬ s then 1 else 0) =
      if t = 0 ∧ k = 0 then d else if s then d else d - 1 := by
  by_cases ht : t = 0 <;> by_cases hk : k = 0 <;> by_cases hs : s <;> simp [ht, hk, hs]

theorem ceil_val (t d : Int) (k : Nat) (s : Prop) [Decidable s] :
    (if t ≠ 0 ∧ s then d + 1 else d) + (if t = 0 ∧ k ≠ 0 ∧ s then 1 else 0) =
      if t = 0 ∧ k = 0 then d else if s then d + 1 else d := by
  by_cases ht : t = 0 <;> by_cases hk : k = 0 <;> by_cases hs : s <;> simp [ht, hk, hs]

/-- The value `div_floor` returns. -/
theorem divFloorS (hw : 1 < w) {x y : Limbs w} (hl : x.length = y.length)
    (h2 : 2 ≤ x.length) (he : x.length % 2 = 0) (hy : toInt y ≠ 0) :
    Yields (DivPanics w x.length (toInt x).natAbs (toInt y).natAbs)
      (WrapS x.length ((toInt x).fdiv (toInt y) - if toInt y ∣ toInt x ∧
          strayRem w x.length (toInt x).natAbs (toInt y).natAbs ≠ 0 ∧ ¬ (toInt x < 0 ↔ toInt y < 0)
        then 1 else 0))
      (I.divFloor x y) := by
  refine (wrappingDivRemS0 hw hl h2 he hy).map ?_
  rintro ⟨q, r⟩ ⟨hq, hr⟩
  simp only at hq hr ⊢
  rw [hr, isNegative_eq (by omega) (length_ne (n := 1) (by omega)),
    isNegative_eq (by omega) (length_ne (n := 1) (by omega))]
  have hsub := wrapS_sub_one (by omega) (by omega) hq
  have hsub0 : WrapS x.length ((toInt x).tdiv (toInt y)) (I.wrappingSubULimb q 0) := by
    have h1 := Sub.limbWrapS (by omega : 0 < w) (length_ne (n := 0) (by rw [hq.1]; omega)) (x := q) 0
    rw [hq.1] at h1
    refine h1.congr ?_
    simpa using hq.modEq
  rw [fdiv_of_tdiv _ _ hy]
  simp only [← tmod_eq_zero_iff' (x := toInt x) (y := toInt y)]
  generalize strayRem w x.length (toInt x).natAbs (toInt y).natAbs = k at *
  generalize (toInt x).tmod (toInt y) = t at *
  generalize (toInt x).tdiv (toInt y) = d at *
  rw [floor_val]
  by_cases c : t = 0 ∧ k = 0
  · rw [if_pos c, if_neg (by simp [c])]
    exact hq
  · rw [if_neg c, if_pos (show (!decide (t = 0 ∧ k = 0)) = true by rw [decide_eq_false c]; rfl)]
    by_cases s : toInt x < 0 ↔ toInt y < 0
    · rw [if_pos s, show (decide (toInt x < 0) ^^ decide (toInt y < 0)) = false by simp [s]]
      exact hsub0
    · rw [if_neg s, show (decide (toInt x < 0) ^^ decide (toInt y < 0)) = true by
        by_cases hx : toInt x < 0 <;> by_cases hy : toInt y < 0 <;> simp_all]
      exact hsub

theorem addOpS (hw : 1 < w) {x y : Limbs w} (hx : x ≠ []) (hl : x.length = y.length) (oc : Bool) :
    OpS oc x.length (toInt x + toInt y) (I.add oc x y) :=
  (Add.overS hw hx hl).check.op (Add.wrapS (by omega) hl) oc

theorem subOpS (hw : 1 < w) {x y : Limbs w} (hx : x ≠ []) (hl : x.length = y.length) (oc : Bool) :
    OpS oc x.length (toInt x - toInt y) (I.sub oc x y) :=
  (Sub.overS hw hx hl).check.op (Sub.wrapS (by omega) hl) oc

theorem OpS.exact {oc : Bool} {N : Nat} {z : Int} {r : Res (Limbs w)} (h : OpS oc N z r)
    (hz : InS (w * N) z) : ∃ v, r = .ok v ∧ ExactS N z v := by
  cases oc
  · obtain ⟨v, e, hv⟩ := h
    exact ⟨v, e, hv.exact hz⟩
  · exact h.1 hz

theorem OpU.exact {oc : Bool} {N : Nat} {z : Int} {r : Res (Limbs w)} (h : OpU oc N z r)
    (hz : InU (w * N) z) : ∃ v, r = .ok v ∧ ExactU N z v := by
  cases oc
  · obtain ⟨v, e, hv⟩ := h
    exact ⟨v, e, hv.exact hz⟩
  · exact h.1 hz

/-- The sign of `x ^ y`. -/
theorem xor_sign (hw : 0 < w) {x y : Limbs w} (hl : x.length = y.length) (hx : x ≠ []) :
    toInt (Bits.xor x y) < 0 ↔ ¬ (toInt x < 0 ↔ toInt y < 0) := by
  have hy : y ≠ [] := by rintro rfl; exact hx (List.length_eq_zero_iff.1 hl)
  have xl : (Bits.xor x y).length = x.length := by simp [Bits.xor, ← hl]
  have hxy : Bits.xor x y ≠ [] := by
    intro h; rw [h] at xl; exact hx (List.length_eq_zero_iff.1 xl.symm)
  rw [← msLimb_msb hw _ hxy, ← msLimb_msb hw _ hx, ← msLimb_msb hw _ hy]
  obtain ⟨l, a, rfl⟩ := exists_concat hx
  obtain ⟨l', b, rfl⟩ := exists_concat hy
  have e : Bits.xor (l ++ [a]) (l' ++ [b]) = Bits.xor l l' ++ [a ^^^ b] := by
    unfold Bits.xor
    rw [List.zipWith_append (by simpa using hl)]; rfl
  rw [e, msLimb_concat, msLimb_concat, msLimb_concat, BitVec.msb_xor]
  cases a.msb <;> cases b.msb <;> simp

/-- The correction of `div_ceil`: 1 if the signs agree, 0 otherwise. -/
theorem ceilCorrection {k : Nat} (hk : w = 2 ^ k) (hw : 1 < w) {x y : Limbs w} (hl : x.length = y.length)
    (h2 : 2 ≤ x.length) (he : x.length % 2 = 0) (h32 : w * x.length < 2 ^ 32) (oc : Bool) :
    ∃ s c, shrPrim oc false true (Bits.xor x y) (BitVec.ofNat 32 (bits x - 1)) = .ok s ∧
      I.add oc (ofU8 x.length 1) s = .ok c ∧
      ExactS x.length (if toInt x < 0 ↔ toInt y < 0 then 1 else 0) c := by
  have xl : (Bits.xor x y).length = x.length := by simp [Bits.xor, ← hl]
  have hb : bits (Bits.xor x y) = bits x := by rw [bits, xl, bits]
  have hbx : bits x = w * x.length := rfl
  have hpos : 2 < w * x.length := by
    have := Nat.mul_le_mul hw h2; omega
  have hn : (BitVec.ofNat 32 (bits x - 1)).toNat = bits x - 1 := by
    rw [BitVec.toNat_ofNat, Nat.mod_eq_of_lt]; omega
  have hr : primInRange false (bits (Bits.xor x y)) (BitVec.ofNat 32 (bits x - 1)) = true := by
    rw [primInRange_iff false _ (by rw [hb, hbx]; simpa using h32)]
    simp only [primVal, Bool.false_eq_true, if_false, hn, hb]
    omega
  have e : shrPrim oc false true (Bits.xor x y) (BitVec.ofNat 32 (bits x - 1)) =
      .ok (wrappingShr true (Bits.xor x y) (bits x - 1)) := by
    rw [shrPrim, hr, primAsU32_eq false _ (v := bits x - 1) (by simp only [primVal, Bool.false_eq_true, if_false, hn])
      (by omega)]
    simp
  have hs := wrappingShrS hk (x := Bits.xor x y) (by omega) (length_ne (n := 1) (by omega)) (bits x - 1)
  rw [xl, hb, Nat.mod_eq_of_lt (by omega)] at hs
  have hsv : toInt (Bits.xor x y) / 2 ^ (bits x - 1) = if toInt x < 0 ↔ toInt y < 0 then 0 else -1 := by
    have hi := toInt_InS (Bits.xor x y)
    have hsg := xor_sign (by omega : 0 < w) hl (length_ne (n := 1) (by omega))
    rw [hb] at hi
    have hp : (2:Int) ^ bits x = 2 * 2 ^ (bits x - 1) := by rw [← pow_succ']; congr 1; omega
    unfold InS at hi
    rw [hp] at hi
    split
    · rw [Int.ediv_eq_zero_of_lt] <;> [skip; omega]
      by_contra h
      exact absurd (hsg.1 (by omega)) (by tauto)
    · have : toInt (Bits.xor x y) < 0 := hsg.2 (by assumption)
      apply Int.ediv_eq_neg_one_of_neg_of_le this
      omega
  rw [hsv] at hs
  have h1 := ofU8S (w := w) (N := x.length) (v := 1) (by omega) h2 (one_lt_two_pow' (by omega))
  have ho := addOpS hw (x := ofU8 x.length 1) (y := wrappingShr true (Bits.xor x y) (bits x - 1))
    (length_ne (n := 1) (by rw [h1.1]; omega)) (h1.1.trans hs.1.symm) oc
  rw [h1.1, h1.2, hs.2] at ho
  have h4 : (4:Int) < 2 ^ (w * x.length) := by
    calc (4:Int) = 2 ^ 2 := by norm_num
      _ < 2 ^ (w * x.length) := pow_lt_pow_right₀ (by norm_num) (by omega)
  obtain ⟨c, ec, hc⟩ := ho.exact (by unfold InS; split <;> constructor <;> push_cast <;> omega)
  refine ⟨_, c, e, ec, hc.congr' ?_⟩
  split <;> simp

/-- The value `div_ceil` returns. -/
theorem divCeilS {k : Nat} (hk : w = 2 ^ k) (hw : 1 < w) {x y : Limbs w} (hl : x.length = y.length)
    (h2 : 2 ≤ x.length) (he : x.length % 2 = 0) (h32 : w * x.length < 2 ^ 32) (hy : toInt y ≠ 0)
    (oc : Bool) :
    Yields (DivPanics w x.length (toInt x).natAbs (toInt y).natAbs)
      (WrapS x.length (-((-toInt x).fdiv (toInt y)) + if toInt y ∣ toInt x ∧
          strayRem w x.length (toInt x).natAbs (toInt y).natAbs ≠ 0 ∧ (toInt x < 0 ↔ toInt y < 0)
        then 1 else 0))
      (I.divCeil oc x y) := by
  refine (wrappingDivRemS0 hw hl h2 he hy).bind ?_
  rintro ⟨q, r⟩ ⟨hq, hr⟩
  simp only at hq hr ⊢
  obtain ⟨s, c, es, ec, hc⟩ := ceilCorrection hk hw hl h2 he h32 oc
  rw [hr, es, Res.bind_ok, ec, Res.map_ok]
  refine ⟨_, rfl, ?_⟩
  have hadd := Add.wrapS (by omega : 0 < w) (x := q) (y := c) (hq.1.trans hc.1.symm)
  rw [hq.1] at hadd
  replace hadd := hadd.congr (hq.modEq.add_right _)
  rw [hc.2] at hadd
  rw [ceil_of_tdiv _ _ hy]
  simp only [← tmod_eq_zero_iff' (x := toInt x) (y := toInt y)]
  generalize strayRem w x.length (toInt x).natAbs (toInt y).natAbs = k at *
  generalize (toInt x).tmod (toInt y) = t at *
  generalize (toInt x).tdiv (toInt y) = d at *
  rw [ceil_val]
  by_cases c : t = 0 ∧ k = 0
  · rw [if_pos c, if_neg (by simp [c])]
    exact hq
  · rw [if_neg c, if_pos (show (!decide (t = 0 ∧ k = 0)) = true by rw [decide_eq_false c]; rfl)]
    by_cases s : toInt x < 0 ↔ toInt y < 0
    · rw [if_pos s] at hadd ⊢
      exact hadd
    · rw [if_neg s] at hadd ⊢
      rw [add_zero] at hadd
      exact hadd

end I256
