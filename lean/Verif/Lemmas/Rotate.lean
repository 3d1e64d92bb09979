import Verif.Lemmas.Shift

/-! Bits produced by the rotation kernels. -/

namespace I256

variable {w W : Nat}

theorem copyLoop_length (l N : Nat) (ys : Limbs W) (idx : Nat) (res : Limbs W) :
    (Rot.copyLoop l N ys idx res).length = res.length := by
  induction ys generalizing idx res with
  | nil => rfl
  | cons y ys ih => rw [Rot.copyLoop, ih, List.length_set]

theorem copyLoop_get_ne (l N : Nat) (ys : Limbs W) (idx : Nat) (res : Limbs W) (p : Nat)
    (h : ∀ j < ys.length, (idx + j + l) % N ≠ p) :
    (Rot.copyLoop l N ys idx res).getD p 0 = res.getD p 0 := by
  induction ys generalizing idx res with
  | nil => rfl
  | cons y ys ih =>
    rw [Rot.copyLoop, ih]
    · have := h 0 (by simp)
      simp only [Nat.add_zero] at this
      simp only [List.getD_eq_getElem?_getD, List.getElem?_set_ne this]
    · intro j hj
      have := h (j + 1) (by simpa using hj)
      rwa [show idx + (j + 1) + l = idx + 1 + j + l by omega] at this

theorem add_mod_ne {a j N : Nat} (h0 : 0 < j) (hj : j < N) : (a + j) % N ≠ a % N := by
  intro h
  have := (Nat.ModEq.symm h : a ≡ a + j [MOD N])
  have := (Nat.modEq_iff_dvd' (by omega)).1 this
  rw [Nat.add_sub_cancel_left] at this
  exact absurd (Nat.le_of_dvd h0 this) (by omega)

theorem copyLoop_get (l N : Nat) (ys : Limbs W) (idx : Nat) (res : Limbs W)
    (hN : res.length = N) (hy : ys.length ≤ N) {j : Nat} (hj : j < ys.length) :
    (Rot.copyLoop l N ys idx res).getD ((idx + j + l) % N) 0 = ys.getD j 0 := by
  induction ys generalizing idx res j with
  | nil => simp at hj
  | cons y ys ih =>
    simp only [List.length_cons] at hy hj
    rw [Rot.copyLoop]
    cases j with
    | zero =>
      rw [copyLoop_get_ne]
      · have : (idx + l) % N < res.length := by rw [hN]; exact Nat.mod_lt _ (by omega)
        simp [List.getD_eq_getElem?_getD, List.getElem?_set_self this]
      · intro j hj
        have := add_mod_ne (a := idx + l) (j := j + 1) (N := N) (by omega) (by omega)
        rwa [show idx + 1 + j + l = idx + l + (j + 1) by omega]
    | succ j =>
      have := ih (idx + 1) (res.set ((idx + l) % N) y) (by simpa using hN) (by omega)
        (j := j) (by omega)
      rw [show idx + (j + 1) + l = idx + 1 + j + l by omega, this]
      simp

theorem rotLoop_eq (b inv l N : Nat) (xs : Limbs W) (idx : Nat) (res : Limbs W) (c : BitVec W) :
    (Rot.loop b inv l N xs idx res c).1 = Rot.copyLoop l N (Shift.leftLoop b inv xs c) idx res ∧
    (Rot.loop b inv l N xs idx res c).2 =
      if xs = [] then c else shrN (xs.getD (xs.length - 1) 0) inv := by
  induction xs generalizing idx res c with
  | nil => simp [Rot.loop, Shift.leftLoop, Rot.copyLoop]
  | cons x xs ih =>
    obtain ⟨h1, h2⟩ := ih (idx + 1) (res.set ((idx + l) % N) (shlN x b ||| c)) (shrN x inv)
    refine ⟨by rw [Rot.loop, h1, Shift.leftLoop, Rot.copyLoop], ?_⟩
    rw [Rot.loop, h2]
    cases xs <;> simp

theorem leftLoop_get (b inv : Nat) (xs : Limbs W) (c : BitVec W) {j : Nat} (hj : j < xs.length) :
    (Shift.leftLoop b inv xs c).getD j 0 =
      shlN (xs.getD j 0) b ||| if j = 0 then c else shrN (xs.getD (j - 1) 0) inv := by
  induction xs generalizing c j with
  | nil => simp at hj
  | cons x xs ih =>
    cases j with
    | zero => simp [Shift.leftLoop]
    | succ j =>
      simp only [List.length_cons] at hj
      have := ih (shrN x inv) (j := j) (by omega)
      rw [Shift.leftLoop, List.getD_cons_succ, this]
      cases j <;> simp

theorem rotLeft_length (x : Limbs W) (n : Nat) : (Rot.left x n).length = x.length := by
  unfold Rot.left
  dsimp only
  split
  · split <;> rfl
  · split
    · rw [List.length_set, (rotLoop_eq ..).1, copyLoop_length, List.length_replicate]
    · rw [copyLoop_length, List.length_replicate]

/-- Every element of the rotated array, by its source index. -/
theorem rotLeft_get {k : Nat} (hk : W = 2 ^ k) {x : Limbs W} (hx : 2 ≤ x.length) (n : Nat)
    {l b : Nat} (hl : l = n % (x.length * W) / W) (hb : b = n % (x.length * W) % W)
    {j : Nat} (hj : j < x.length) :
    (Rot.left x n).getD ((j + l) % x.length) 0 =
      if b = 0 then x.getD j 0
      else shlN (x.getD j 0) b ||| shrN (x.getD ((j + x.length - 1) % x.length) 0) (W - b) := by
  have hW : 0 < W := by rw [hk]; positivity
  have hlN : l < x.length := by
    rw [hl, Nat.div_lt_iff_lt_mul hW]; exact Nat.mod_lt _ (by positivity)
  unfold Rot.left
  dsimp only
  rw [limbN_eq hk, bitsN_eq hk, ← hl, ← hb]
  split
  · rename_i y0 y1
    simp only [List.length_cons, List.length_nil, Nat.zero_add, Nat.reduceAdd] at hlN hj ⊢
    have h1 : l = 0 ∨ l = 1 := by omega
    have h2 : j = 0 ∨ j = 1 := by omega
    rcases h1 with rfl | rfl <;> rcases h2 with rfl | rfl <;> by_cases h : b = 0 <;> simp [h]
  · split
    · rename_i hb0
      obtain ⟨h1, h2⟩ := rotLoop_eq b (W - b) l x.length x 0 (List.replicate x.length 0) 0
      rw [h1, h2, if_neg (by rintro rfl; simp at hj)]
      have hg : ∀ j < x.length, (Rot.copyLoop l x.length (Shift.leftLoop b (W - b) x 0) 0
          (List.replicate x.length 0)).getD ((j + l) % x.length) 0 =
          shlN (x.getD j 0) b ||| if j = 0 then 0 else shrN (x.getD (j - 1) 0) (W - b) := by
        intro j hj
        have := copyLoop_get l x.length (Shift.leftLoop b (W - b) x 0) 0
          (List.replicate x.length 0) (by simp) (by rw [leftLoop_length]) (j := j)
          (by rw [leftLoop_length]; exact hj)
        rw [Nat.zero_add] at this
        rw [this, leftLoop_get _ _ _ _ hj]
      by_cases hj0 : j = 0
      · subst hj0
        rw [Nat.zero_add, Nat.mod_eq_of_lt hlN, List.getD_eq_getElem?_getD,
          List.getElem?_set_self (by rw [copyLoop_length]; simpa using hlN)]
        have := hg 0 (by omega)
        rw [Nat.zero_add, Nat.mod_eq_of_lt hlN] at this
        rw [Option.getD_some, this, if_pos rfl, Nat.zero_add, Nat.mod_eq_of_lt (by omega)]
        simp
      · have hne : l ≠ (j + l) % x.length := by
          have := add_mod_ne (a := l) (j := j) (N := x.length) (by omega) hj
          rw [Nat.mod_eq_of_lt hlN, Nat.add_comm] at this
          exact this.symm
        rw [List.getD_eq_getElem?_getD, List.getElem?_set_ne hne, ← List.getD_eq_getElem?_getD,
          hg j hj, if_neg hj0, show j + x.length - 1 = j - 1 + x.length by omega,
          Nat.add_mod_right, Nat.mod_eq_of_lt (by omega)]
    · rename_i hb0
      push Not at hb0
      have := copyLoop_get l x.length x 0 (List.replicate x.length 0) (by simp) (le_refl _) hj
      rw [Nat.zero_add] at this
      rw [this, if_pos hb0]

theorem rotLeft_spec {k : Nat} (hk : W = 2 ^ k) {x : Limbs W} (hx : 2 ≤ x.length) (n : Nat)
    {i : Nat} (hi : i < bits x) :
    (toNat (Rot.left x n)).testBit ((i + n) % bits x) = (toNat x).testBit i := by
  have hW : 0 < W := by rw [hk]; positivity
  rw [bits] at hi ⊢
  have hget := fun j hj => rotLeft_get hk hx n rfl rfl (j := j) hj
  rw [Nat.mul_comm x.length W] at hget
  have hmod : (i + n) % (W * x.length) = (i + n % (W * x.length)) % (W * x.length) := by
    simp
  rw [hmod]
  have hn : n % (W * x.length) < W * x.length := Nat.mod_lt _ (by positivity)
  generalize n % (W * x.length) = m at *
  rw [testBit_limb hW, testBit_limb hW, Nat.mod_mul_right_mod]
  have hd : (i + m) % (W * x.length) / W = (i + m) / W % x.length := by
    rw [Nat.mod_mul_right_div_self]
  rw [hd]
  have hiN : i / W < x.length := by
    rw [Nat.div_lt_iff_lt_mul hW, Nat.mul_comm]; exact hi
  have hi1 : W * (i / W) + i % W = i := Nat.div_add_mod i W
  have hm1 : W * (m / W) + m % W = m := Nat.div_add_mod m W
  have hiW := Nat.mod_lt i hW
  have hmW := Nat.mod_lt m hW
  generalize hj : i / W = j at *
  generalize ht : i % W = t at *
  generalize hl : m / W = l at *
  generalize hb : m % W = b at *
  have hsum : i + m = (t + b) + W * (j + l) := by rw [← hi1, ← hm1]; ring
  rw [hsum, Nat.add_mul_mod_self_left, Nat.add_mul_div_left _ _ hW]
  by_cases hc : t + b < W
  · rw [Nat.mod_eq_of_lt hc, Nat.div_eq_of_lt hc, Nat.zero_add, hget j hiN]
    split
    · rename_i hb0; rw [hb0, Nat.add_zero]
    · rename_i hb0
      rw [BitVec.getLsbD_or, shlN, Nat.mod_eq_of_lt hmW, BitVec.getLsbD_shiftLeft, shrN,
        Nat.mod_eq_of_lt (show W - b < W by omega), BitVec.getLsbD_ushiftRight,
        BitVec.getLsbD_of_ge _ (W - b + (t + b)) (by omega)]
      simp [hc]
  · have h1 : (t + b) / W = 1 := by
      rw [Nat.div_eq_iff hW]; omega
    have h2 : (t + b) % W = t + b - W := by
      rw [Nat.mod_eq_sub_mod (by omega), Nat.mod_eq_of_lt (by omega)]
    have hb0 : b ≠ 0 := by omega
    have hmm : (1 + (j + l)) % x.length = ((j + 1) % x.length + l) % x.length := by
      rw [Nat.mod_add_mod]; congr 1; omega
    rw [h1, h2, hmm, hget _ (Nat.mod_lt _ (by omega)), if_neg hb0]
    have hjj : ((j + 1) % x.length + x.length - 1) % x.length = j := by
      by_cases he : j + 1 = x.length
      · rw [he, Nat.mod_self, Nat.zero_add, Nat.mod_eq_of_lt (by omega)]; omega
      · rw [Nat.mod_eq_of_lt (show j + 1 < x.length by omega),
          show j + 1 + x.length - 1 = j + x.length by omega, Nat.add_mod_right,
          Nat.mod_eq_of_lt hiN]
    rw [hjj, BitVec.getLsbD_or, shlN, Nat.mod_eq_of_lt hmW, BitVec.getLsbD_shiftLeft, shrN,
        Nat.mod_eq_of_lt (show W - b < W by omega), BitVec.getLsbD_ushiftRight]
    have : W - b + (t + b - W) = t := by omega
    rw [this]
    have h3 : t + b - W < b := by omega
    simp [h3]

theorem rotRight_spec {k : Nat} (hk : W = 2 ^ k) {x : Limbs W} (hx : 2 ≤ x.length) (n : Nat)
    {i : Nat} (hi : i < bits x) :
    (toNat (Rot.right x n)).testBit i = (toNat x).testBit ((i + n) % bits x) := by
  have hW : 0 < W := by rw [hk]; positivity
  have hB : 0 < bits x := by omega
  have := rotLeft_spec hk hx (bits x - n % bits x) (i := (i + n) % bits x) (Nat.mod_lt _ hB)
  rw [Rot.right, ← this, show W * x.length = bits x from rfl]
  congr 1
  have hn := Nat.mod_lt n hB
  rw [Nat.mod_add_mod, Nat.add_assoc]
  have h1 : n + (bits x - n % bits x) = bits x * (n / bits x + 1) := by
    have := Nat.mod_add_div n (bits x)
    rw [Nat.mul_add, Nat.mul_one]; omega
  rw [h1, Nat.add_mul_mod_self_left, Nat.mod_eq_of_lt hi]

end I256
