import Verif.Lemmas.DivStep

/-! # The division loop -/

namespace I256

variable {w : Nat}

theorem partRem_succ {B u v : Nat} (hB : 0 < B) (j : Nat) :
    partRem B u v j = u / B ^ j % B + B * (u / B ^ (j + 1) % v) := by
  unfold partRem
  rw [pow_succ, ← Nat.div_div_eq_div_mul, Nat.mul_comm v, Nat.mod_mul]

theorem partRem_mod {B u v : Nat} (j : Nat) : partRem B u v j % v = u / B ^ j % v := by
  unfold partRem
  exact Nat.mod_mod_of_dvd _ (Nat.dvd_mul_right v B)

theorem partRem_lt {B u v : Nat} (hB : 0 < B) (hv : 0 < v) (j : Nat) :
    partRem B u v j < v * B := Nat.mod_lt _ (Nat.mul_pos hv hB)

/-- The limbs above the remainder that the loop leaves behind. -/
def strayLimbs (w : Nat) (f : Nat → Bool) (k : Nat) : Limbs w :=
  (List.range k).map fun i => boolLimb w (f i)

theorem strayLimbs_succ (f : Nat → Bool) (k : Nat) :
    strayLimbs w f (k + 1) = strayLimbs w f k ++ [boolLimb w (f k)] := by
  simp [strayLimbs, List.range_succ]

theorem strayLimbs_length (f : Nat → Bool) (k : Nat) : (strayLimbs w f k).length = k := by
  simp [strayLimbs]

theorem strayLimbs_toNat (hw : 0 < w) (f : Nat → Bool) (k : Nat) :
    toNat (strayLimbs w f k) = flagNum w f k := by
  induction k with
  | zero => rfl
  | succ k ih =>
    rw [strayLimbs_succ, toNat_append, ih, flagNum, bits, strayLimbs_length, toNat_cons, toNat_nil,
      boolLimb_toNat hw]
    cases f k <;> simp

theorem strayLimbs_take (f : Nat → Bool) (k i : Nat) :
    (strayLimbs w f k).take i = strayLimbs w f (min i k) := by
  simp [strayLimbs, ← List.map_take, List.take_range]

theorem flagNum_eq_zero {f : Nat → Bool} {k : Nat} (h : ∀ i < k, f i = false) :
    flagNum w f k = 0 := by
  induction k with
  | zero => rfl
  | succ k ih =>
    rw [flagNum, ih (fun i hi => h i (by omega)), h k (by omega)]; rfl

theorem flagNum_pos {f : Nat → Bool} {k i : Nat} (hi : i < k) (h : f i = true) :
    0 < flagNum w f k := by
  induction k with
  | zero => omega
  | succ k ih =>
    rw [flagNum]
    rcases Nat.lt_succ_iff_lt_or_eq.1 hi with h1 | h1
    · have := ih h1; omega
    · subst h1
      rw [h]
      have : 0 < 2 ^ (w * i) := by positivity
      simp only [if_true]; omega

theorem flagNum_congr {f g : Nat → Bool} {k : Nat} (h : ∀ i < k, f i = g i) :
    flagNum w f k = flagNum w g k := by
  induction k with
  | zero => rfl
  | succ k ih => rw [flagNum, flagNum, ih (fun i hi => h i (by omega)), h k (by omega)]

namespace Div

theorem knuthLoop_spec (hw : 0 < w) {d : Limbs w} {n : Nat} (hn : 2 ≤ n)
    (hd : n ≤ d.length) (hv : toNat d < 2 ^ (w * n)) (hv2 : 2 ^ (w * n) ≤ 2 * toNat d) (u : Nat)
    (j : Nat) : ∀ (lo hr ht acc : Limbs w), lo.length = j → toNat lo = u % (2 ^ w) ^ j →
    hr.length = n → toNat hr = u / (2 ^ w) ^ j % toNat d →
    (d.length = n ∧ (∃ i, i < j ∧ overEst (2 ^ w) n u (toNat d) i = true) ∧
      knuthLoop d n j (lo ++ hr ++ ht) acc = .panic) ∨
    (¬ (d.length = n ∧ ∃ i, i < j ∧ overEst (2 ^ w) n u (toNat d) i = true) ∧
      ∃ q r, knuthLoop d n j (lo ++ hr ++ ht) acc =
        .ok (q ++ acc, r ++ (strayLimbs w (overEst (2 ^ w) n u (toNat d)) j ++ ht)) ∧
        q.length = j ∧
        toNat q = (u / (2 ^ w) ^ j % toNat d * (2 ^ w) ^ j + u % (2 ^ w) ^ j) / toNat d ∧
        r.length = n ∧ toNat r = u % toNat d) := by
  have hB0 : 0 < 2 ^ w := by positivity
  have hv0 : 0 < toNat d := by
    have : 0 < 2 ^ (w * n) := by positivity
    omega
  induction j with
  | zero =>
    intro lo hr ht acc hlo _ hrl hrv
    right
    refine ⟨by rintro ⟨_, i, hi, _⟩; omega, [], hr, ?_, rfl, ?_, hrl, ?_⟩
    · have : lo = [] := List.length_eq_zero_iff.1 hlo
      simp [knuthLoop, strayLimbs, this]
    · simp only [pow_zero, Nat.mod_one, Nat.mul_one, Nat.add_zero, Nat.div_one, toNat_nil]
      exact (Nat.div_eq_of_lt (Nat.mod_lt _ hv0)).symm
    · rw [hrv]; simp
  | succ j ih =>
    intro lo hr ht acc hlo hlov hrl hrv
    obtain ⟨lo', a, rfl⟩ := exists_concat (x := lo) (by intro h; rw [h] at hlo; simp at hlo)
    have hlo' : lo'.length = j := by simpa using hlo
    have hap := toNat_append lo' [a]
    have hlt := toNat_lt lo'
    rw [bits, hlo', Nat.pow_mul] at hap hlt
    have hloj : toNat lo' = u % (2 ^ w) ^ j := by
      have : toNat (lo' ++ [a]) % (2 ^ w) ^ j = u % (2 ^ w) ^ j := by
        rw [hlov, pow_succ]; exact Nat.mod_mod_of_dvd _ (Nat.dvd_mul_right _ _)
      rw [hap, Nat.add_mul_mod_self_left, Nat.mod_eq_of_lt hlt] at this
      exact this
    have ha : a.toNat = u / (2 ^ w) ^ j % 2 ^ w := by
      have h1 : toNat (lo' ++ [a]) / (2 ^ w) ^ j = u / (2 ^ w) ^ j % 2 ^ w := by
        rw [hlov, pow_succ, Nat.mod_mul_right_div_self]
      rw [hap, Nat.add_mul_div_left _ _ (by positivity), Nat.div_eq_of_lt hlt] at h1
      simpa using h1
    have hwin : toNat (a :: hr) = partRem (2 ^ w) u (toNat d) j := by
      rw [toNat_cons, ha, hrv, partRem_succ hB0]
    have hU := partRem_lt (B := 2 ^ w) (u := u) hB0 hv0 j
    have hstep := knuthStep_spec hw (d := d) (lo := lo') (win := a :: hr) (rest := ht) hn hd hv hv2
      (by simp [hrl]) (by rw [hwin]; exact hU)
    rw [hwin] at hstep
    set U := partRem (2 ^ w) u (toNat d) j with hUdef
    have hUm : U % toNat d = u / (2 ^ w) ^ j % toNat d := partRem_mod j
    have hml := Nat.mod_lt U hv0
    have hov : overEst (2 ^ w) n u (toNat d) j = true ↔
        digitEst (2 ^ w) n U (toNat d) ≠ U / toNat d := by
      unfold overEst; simp [hUdef]
    have hnum : lo' ++ [a] ++ hr ++ ht = lo' ++ (a :: hr) ++ ht := by simp
    -- the case in which the round succeeds
    have cont : ∀ (q0 : BitVec w) (win' : Limbs w),
        knuthStep d n lo'.length (lo' ++ (a :: hr) ++ ht) = .ok (q0, lo' ++ win' ++ ht) →
        q0.toNat = U / toNat d → win'.length = n + 1 →
        toNat win' = U % toNat d + 2 ^ (w * n) * (overEst (2 ^ w) n u (toNat d) j).toNat →
        ¬ (d.length = n ∧ overEst (2 ^ w) n u (toNat d) j = true) →
        (d.length = n ∧ (∃ i, i < j + 1 ∧ overEst (2 ^ w) n u (toNat d) i = true) ∧
          knuthLoop d n (j + 1) (lo' ++ [a] ++ hr ++ ht) acc = .panic) ∨
        (¬ (d.length = n ∧ ∃ i, i < j + 1 ∧ overEst (2 ^ w) n u (toNat d) i = true) ∧
          ∃ q r, knuthLoop d n (j + 1) (lo' ++ [a] ++ hr ++ ht) acc =
            .ok (q ++ acc, r ++ (strayLimbs w (overEst (2 ^ w) n u (toNat d)) (j + 1) ++ ht)) ∧
            q.length = j + 1 ∧
            toNat q = (u / (2 ^ w) ^ (j + 1) % toNat d * (2 ^ w) ^ (j + 1) +
              u % (2 ^ w) ^ (j + 1)) / toNat d ∧
            r.length = n ∧ toNat r = u % toNat d) := by
      intro q0 win' hs hq0 hwl hwv hno
      obtain ⟨hr', t, rfl⟩ := exists_concat (x := win') (by intro h; rw [h] at hwl; simp at hwl)
      have hrl' : hr'.length = n := by simpa using hwl
      have hap' := toNat_append hr' [t]
      have hlt' := toNat_lt hr'
      rw [bits, hrl'] at hap' hlt'
      rw [hwv] at hap'
      have hrv' : toNat hr' = U % toNat d := by
        have := congrArg (· % 2 ^ (w * n)) hap'
        simp only [Nat.add_mul_mod_self_left] at this
        rw [Nat.mod_eq_of_lt hlt', Nat.mod_eq_of_lt (by omega)] at this
        exact this.symm
      have htv : t = boolLimb w (overEst (2 ^ w) n u (toNat d) j) := by
        apply BitVec.eq_of_toNat_eq
        rw [boolLimb_toNat hw]
        rw [hrv'] at hap'
        have h1 := Nat.add_left_cancel hap'
        have h2 := Nat.eq_of_mul_eq_mul_left (by positivity) h1
        simpa using h2.symm
      have hlooped : knuthLoop d n (j + 1) (lo' ++ [a] ++ hr ++ ht) acc =
          knuthLoop d n j (lo' ++ hr' ++ (t :: ht)) (q0 :: acc) := by
        rw [hnum, knuthLoop]
        rw [hlo'] at hs
        rw [hs, Res.bind_ok]
        simp
      rw [hlooped]
      rcases ih lo' hr' (t :: ht) (q0 :: acc) hlo' hloj hrl' (by rw [hrv', hUm]) with
        ⟨h1, ⟨i, hi, ho⟩, h3⟩ | ⟨h1, q, r, h3, h4, h5, h6, h7⟩
      · exact .inl ⟨h1, ⟨i, by omega, ho⟩, h3⟩
      · refine .inr ⟨?_, q ++ [q0], r, ?_, by simp [h4], ?_, h6, h7⟩
        · rintro ⟨h8, i, hi, ho⟩
          rcases Nat.lt_succ_iff_lt_or_eq.1 hi with h9 | h9
          · exact h1 ⟨h8, i, h9, ho⟩
          · subst h9; exact hno ⟨h8, ho⟩
        · rw [h3, strayLimbs_succ, htv]; simp
        · rw [toNat_append, bits, h4, h5, Nat.pow_mul, toNat_cons, toNat_nil, hq0, Nat.mul_zero,
            Nat.add_zero]
          have e : u / (2 ^ w) ^ (j + 1) % toNat d * (2 ^ w) ^ (j + 1) + u % (2 ^ w) ^ (j + 1) =
              (u / (2 ^ w) ^ j % toNat d * (2 ^ w) ^ j + u % (2 ^ w) ^ j) +
                toNat d * ((2 ^ w) ^ j * (U / toNat d)) := by
            have e1 : u % (2 ^ w) ^ (j + 1) =
                u % (2 ^ w) ^ j + (2 ^ w) ^ j * (u / (2 ^ w) ^ j % 2 ^ w) := by
              rw [pow_succ, Nat.mod_mul]
            have e2 := partRem_succ (B := 2 ^ w) (u := u) (v := toNat d) hB0 j
            have e3 := Nat.div_add_mod U (toNat d)
            rw [← hUdef] at e2
            rw [hUm] at e3
            rw [e1]
            generalize u / (2 ^ w) ^ (j + 1) % toNat d = X at *
            generalize u / (2 ^ w) ^ j % 2 ^ w = Y at *
            generalize u / (2 ^ w) ^ j % toNat d = Z at *
            generalize U / toNat d = D at *
            rw [pow_succ]
            zify at e2 e3 ⊢
            linear_combination -(2 ^ w) ^ j * e2 - (2 ^ w) ^ j * e3
          rw [e, Nat.add_mul_div_left _ _ hv0]
    by_cases hc : digitEst (2 ^ w) n U (toNat d) = U / toNat d
    · rw [if_pos hc] at hstep
      have hof : overEst (2 ^ w) n u (toNat d) j = false := by
        rw [← Bool.not_eq_true, hov]; simpa using hc
      obtain ⟨q0, win', hs, hq0, hwl, hwv⟩ := hstep
      exact cont q0 win' hs hq0 hwl (by rw [hof, hwv]; simp) (by rw [hof]; simp)
    · rw [if_neg hc] at hstep
      have hot : overEst (2 ^ w) n u (toNat d) j = true := hov.2 hc
      by_cases hN : d.length = n
      · rw [if_pos hN] at hstep
        refine .inl ⟨hN, ⟨j, by omega, hot⟩, ?_⟩
        rw [hnum, knuthLoop]
        rw [hlo'] at hstep
        rw [hstep, Res.bind_panic]
      · rw [if_neg hN] at hstep
        obtain ⟨q0, win', hs, hq0, hwl, hwv⟩ := hstep
        exact cont q0 win' hs hq0 hwl (by rw [hot, hwv]; simp) (fun h => hN h.1)

end Div

end I256
