import Verif.Model.Work
import Verif.Lemmas.DivFull
import Verif.Lemmas.Mul
import Mathlib.Tactic.Ring

/-! Lemmas about the counters of `Verif.Model.Work`. -/

namespace I256.Count

variable {w : Nat}

theorem row_fst (xi : BitVec w) (ys rs : Limbs w) (c : BitVec w) : (row xi ys rs c).1 = Mul.row xi ys rs c := by
  induction ys generalizing rs c with
  | nil => cases rs <;> simp [row, Mul.row]
  | cons y ys ih => cases rs <;> simp [row, Mul.row, ih]

theorem row_snd (xi : BitVec w) (ys rs : Limbs w) (c : BitVec w) :
    (row xi ys rs c).2 = min ys.length rs.length := by
  induction ys generalizing rs c with
  | nil => cases rs <;> simp [row]
  | cons y ys ih => cases rs <;> simp [row, ih]

theorem row_length (xi : BitVec w) (ys rs : Limbs w) (c : BitVec w) : (row xi ys rs c).1.length = rs.length := by
  induction ys generalizing rs c with
  | nil => cases rs <;> simp [row]
  | cons y ys ih => cases rs <;> simp [row, ih]

theorem rows_fst (xs ys rs : Limbs w) : (rows xs ys rs).1 = Mul.rows xs ys rs := by
  induction xs generalizing rs with
  | nil => simp [rows, Mul.rows]
  | cons xi xs ih =>
    have h := row_fst xi ys rs 0
    simp only [rows, Mul.rows, ← h]
    rcases row xi ys rs 0 with ⟨_ | ⟨r, rs⟩, n⟩ <;> simp [ih]

theorem rows_snd (xs ys rs : Limbs w) (h : xs.length ≤ rs.length) :
    (rows xs ys rs).2 = ((List.range xs.length).map fun i => min ys.length (rs.length - i)).sum := by
  induction xs generalizing rs with
  | nil => simp [rows]
  | cons xi xs ih =>
    have h1 := row_snd xi ys rs 0
    have h2 := row_length xi ys rs 0
    simp only [rows]
    rcases hr : row xi ys rs 0 with ⟨_ | ⟨r, rs'⟩, n⟩ <;> simp only [hr] at h1 h2 ⊢
    · simp only [List.length_cons, List.length_nil] at h h2; omega
    · simp only [List.length_cons] at h h2
      rw [ih rs' (by omega), h1, List.length_cons, List.range_succ_eq_map]
      simp only [List.map_cons, List.sum_cons, List.map_map, Nat.sub_zero]
      congr 2
      refine List.map_congr_left fun i _ => ?_
      simp only [Function.comp, Nat.succ_eq_add_one]
      omega

theorem wrappingFull_snd (x y : Limbs w) : (wrappingFull x y).2 = products x.length y.length := by
  rw [wrappingFull, rows_snd _ _ _ (by simp)]
  simp [products]

theorem rowO_fst (xi : BitVec w) (ys rs : Limbs w) (c : BitVec w) : (rowO xi ys rs c).1 = Mul.rowO xi ys rs c := by
  induction ys generalizing rs c with
  | nil => cases rs <;> simp [rowO, Mul.rowO]
  | cons y ys ih => cases rs <;> simp [rowO, Mul.rowO, ih]

theorem rowO_snd (xi : BitVec w) (ys rs : Limbs w) (c : BitVec w) :
    (rowO xi ys rs c).2 = min ys.length rs.length := by
  induction ys generalizing rs c with
  | nil => cases rs <;> simp [rowO]
  | cons y ys ih => cases rs <;> simp [rowO, ih]

theorem rowO_length (xi : BitVec w) (ys rs : Limbs w) (c : BitVec w) :
    (rowO xi ys rs c).1.1.length = rs.length := by
  induction ys generalizing rs c with
  | nil => cases rs <;> simp [rowO]
  | cons y ys ih => cases rs <;> simp [rowO, ih]

theorem rowsO_fst (xs ys rs : Limbs w) : (rowsO xs ys rs).1 = Mul.rowsO xs ys rs := by
  induction xs generalizing rs with
  | nil => simp [rowsO, Mul.rowsO]
  | cons xi xs ih =>
    have h := rowO_fst xi ys rs 0
    simp only [rowsO, Mul.rowsO, ← h]
    rcases rowO xi ys rs 0 with ⟨⟨_ | ⟨r, rs⟩, o⟩, n⟩ <;> simp [← ih]

theorem rowsO_snd (xs ys rs : Limbs w) (h : xs.length ≤ rs.length) :
    (rowsO xs ys rs).2 = ((List.range xs.length).map fun i => min ys.length (rs.length - i)).sum := by
  induction xs generalizing rs with
  | nil => simp [rowsO]
  | cons xi xs ih =>
    have h1 := rowO_snd xi ys rs 0
    have h2 := rowO_length xi ys rs 0
    simp only [rowsO]
    rcases hr : rowO xi ys rs 0 with ⟨⟨_ | ⟨r, rs'⟩, o⟩, n⟩ <;> simp only [hr] at h1 h2 ⊢
    · simp only [List.length_cons, List.length_nil] at h h2; omega
    · simp only [List.length_cons] at h h2
      rw [ih rs' (by omega), h1, List.length_cons, List.range_succ_eq_map]
      simp only [List.map_cons, List.sum_cons, List.map_map, Nat.sub_zero]
      congr 2
      refine List.map_congr_left fun i _ => ?_
      simp only [Function.comp, Nat.succ_eq_add_one]
      omega

theorem overflowingFull_fst (x y : Limbs w) : (overflowingFull x y).1 = Mul.overflowingFull x y := rowsO_fst ..

theorem overflowingFull_snd (x y : Limbs w) : (overflowingFull x y).2 = products x.length y.length := by
  rw [overflowingFull, rowsO_snd _ _ _ (by simp)]
  simp [products]

theorem overflowingFullS_fst (x y : Limbs w) : (overflowingFullS x y).1 = Mul.overflowingFullS x y := by
  simp only [overflowingFullS, Mul.overflowingFullS, ← overflowingFull_fst]
  split <;> rfl

theorem negateLoop_length (x : Limbs w) (c : Bool) : (negateLoop x c).length = x.length := by
  induction x generalizing c with
  | nil => rfl
  | cons a x ih => cases x <;> simp [negateLoop, ih]

theorem negate_length (x : Limbs w) : (negate x).length = x.length := by
  cases x <;> simp [negate, negateLoop_length]

theorem overflowingFullS_snd (x y : Limbs w) : (overflowingFullS x y).2 = products x.length y.length := by
  simp only [overflowingFullS]
  split <;> simp only [overflowingFull_snd] <;> split <;> split <;> simp [negate_length]

theorem widening_fst (x y : Limbs w) : (widening x y).1 = Mul.widening x y := by
  simp only [widening, Mul.widening, ← rows_fst]

theorem widening_snd (x y : Limbs w) (h : y.length = x.length) : (widening x y).2 = x.length * x.length := by
  simp only [widening]
  rw [rows_snd _ _ _ (by simp), h]
  have e : ((List.range x.length).map fun i => min x.length ((List.replicate (x.length + x.length) (0 : BitVec w)).length
      - i)) = (List.range x.length).map fun _ => x.length :=
    List.map_congr_left fun i hi => by
      have := List.mem_range.1 hi
      rw [List.length_replicate]; omega
  rw [e, List.map_const', List.length_range, List.sum_replicate_nat]

theorem wrappingPowLoop_fst {mul : Limbs w → Limbs w → Limbs w × Nat} (fuel e : Nat) (b a : Limbs w) :
    (wrappingPowLoop mul fuel e b a).1 = I256.wrappingPowLoop (fun x y => (mul x y).1) fuel e b a := by
  induction fuel generalizing e b a with
  | zero => rfl
  | succ f ih =>
    simp only [wrappingPowLoop, I256.wrappingPowLoop]
    split
    · split
      · rfl
      · simp only [ih]
    · simp only [ih]

theorem overflowingPowLoop_fst {mul : Limbs w → Limbs w → (Limbs w × Bool) × Nat} (fuel e : Nat) (b a : Limbs w)
    (o : Bool) :
    (overflowingPowLoop mul fuel e b a o).1 = I256.overflowingPowLoop (fun x y => (mul x y).1) fuel e b a o := by
  induction fuel generalizing e b a o with
  | zero => rfl
  | succ f ih =>
    simp only [overflowingPowLoop, I256.overflowingPowLoop]
    split
    · split
      · rfl
      · simp only [ih]
    · simp only [ih]

theorem powProducts_two {e : Nat} (h : 2 ≤ e) : powProducts e = powProducts (e / 2) + 1 + e % 2 := by
  rw [powProducts, if_neg (by omega)]

theorem wrappingPowLoop_snd {N c : Nat} {mul : Limbs w → Limbs w → Limbs w × Nat}
    (hm : ∀ x y : Limbs w, x.length = N → y.length = N → (mul x y).1.length = N ∧ (mul x y).2 = c) {fuel e : Nat}
    {b a : Limbs w} (hb : b.length = N) (ha : a.length = N) (h0 : 0 < e) (he : e < 2 ^ fuel) :
    (wrappingPowLoop mul fuel e b a).2 = powProducts e * c := by
  induction fuel generalizing e b a with
  | zero => omega
  | succ f ih =>
    rw [pow_succ] at he
    have e1 : (e &&& 1 == 1) = decide (e % 2 = 1) := by
      rw [Nat.and_one_is_mod]; rfl
    simp only [wrappingPowLoop, e1]
    obtain ⟨l1, c1⟩ := hm b b hb hb
    obtain ⟨l2, c2⟩ := hm a b ha hb
    by_cases ho : e % 2 = 1
    · rw [if_pos (by simpa using ho)]
      by_cases h1 : e = 1
      · subst h1; simp [c2, powProducts]
      · rw [if_neg (by simpa using h1)]
        simp only [ih l1 l2 (show 0 < e / 2 by omega) (by omega), c1, c2]
        rw [powProducts_two (e := e) (by omega), ho, Nat.add_mul, Nat.add_mul]; omega
    · rw [if_neg (by simpa using ho)]
      simp only [ih l1 ha (show 0 < e / 2 by omega) (by omega), c1]
      rw [powProducts_two (e := e) (by omega), show e % 2 = 0 by omega, Nat.add_zero, Nat.add_mul]; omega

theorem overflowingPowLoop_snd {N c : Nat} {mul : Limbs w → Limbs w → (Limbs w × Bool) × Nat}
    (hm : ∀ x y : Limbs w, x.length = N → y.length = N → (mul x y).1.1.length = N ∧ (mul x y).2 = c) {fuel e : Nat}
    {b a : Limbs w} (o : Bool) (hb : b.length = N) (ha : a.length = N) (h0 : 0 < e) (he : e < 2 ^ fuel) :
    (overflowingPowLoop mul fuel e b a o).2 = powProducts e * c := by
  induction fuel generalizing e b a o with
  | zero => omega
  | succ f ih =>
    rw [pow_succ] at he
    have e1 : (e &&& 1 == 1) = decide (e % 2 = 1) := by
      rw [Nat.and_one_is_mod]; rfl
    simp only [overflowingPowLoop, e1]
    obtain ⟨l1, c1⟩ := hm b b hb hb
    obtain ⟨l2, c2⟩ := hm a b ha hb
    by_cases ho : e % 2 = 1
    · rw [if_pos (by simpa using ho)]
      by_cases h1 : e = 1
      · subst h1; simp [c2, powProducts]
      · rw [if_neg (by simpa using h1)]
        simp only [ih _ l1 l2 (show 0 < e / 2 by omega) (by omega), c1, c2]
        rw [powProducts_two (e := e) (by omega), ho, Nat.add_mul, Nat.add_mul]; omega
    · rw [if_neg (by simpa using ho)]
      simp only [ih _ l1 ha (show 0 < e / 2 by omega) (by omega), c1]
      rw [powProducts_two (e := e) (by omega), show e % 2 = 0 by omega, Nat.add_zero, Nat.add_mul]; omega

theorem powProducts_le (k : Nat) {e : Nat} (he : e < 2 ^ k) : powProducts e + 1 ≤ 2 * k ∨ e = 0 := by
  induction k generalizing e with
  | zero => right; simpa using he
  | succ k ih =>
    rw [pow_succ] at he
    by_cases h : e < 2
    · rw [powProducts, if_pos h]; omega
    · rw [powProducts_two (by omega)]
      rcases ih (e := e / 2) (by omega) with h | h <;> omega

theorem products_mono {M N K : Nat} (h : M ≤ N) (h' : M ≤ K) : products M N = products M K := by
  unfold products
  congr 1
  apply List.map_congr_left
  intro i _
  omega

theorem products_succ (M N : Nat) : products (M + 1) N = min N (M + 1) + products M N := by
  unfold products
  rw [List.range_succ_eq_map, List.map_cons, List.sum_cons, List.map_map, Nat.sub_zero]
  refine congrArg₂ _ rfl (congrArg List.sum (List.map_congr_left fun i _ => ?_))
  simp only [Function.comp]
  omega

theorem products_triangle (M : Nat) : 2 * products M M = M * (M + 1) := by
  induction M with
  | zero => rfl
  | succ M ih =>
    rw [products_succ, products_mono (K := M) (Nat.le_succ M) (Nat.le_refl M), Nat.min_self, Nat.mul_add, ih]
    ring

theorem products_one (M : Nat) : products M 1 = M := by
  induction M with
  | zero => rfl
  | succ M ih => rw [products_succ, ih]; omega

theorem products_two (M : Nat) : products (M + 1) 2 = 2 * M + 1 := by
  induction M with
  | zero => rfl
  | succ M ih => rw [products_succ, ih]; omega

theorem wrappingFull_length (x y : Limbs w) : (wrappingFull x y).1.length = x.length := by
  rw [wrappingFull, rows_fst, Mul.rows_length _ _ _ (by simp)]; simp

theorem overflowingFull_length (x y : Limbs w) : (overflowingFull x y).1.1.length = x.length := by
  suffices h : ∀ xs rs : Limbs w, (rowsO xs y rs).1.1.length = rs.length by
    rw [overflowingFull, h]; simp
  intro xs
  induction xs with
  | nil => intro rs; rfl
  | cons a xs ih =>
    intro rs
    have hl := rowO_length a y rs 0
    unfold rowsO
    split
    next r rs' o n h =>
      rw [h] at hl
      simp only [List.length_cons, ih] at hl ⊢
      exact hl
    next o n h => rw [h] at hl; exact hl

theorem overflowingFullS_length (x y : Limbs w) : (overflowingFullS x y).1.1.length = x.length := by
  unfold overflowingFullS
  dsimp only
  split
  · rw [overflowingFull_length]; split <;> simp [negate_length]
  · rw [negate_length, overflowingFull_length]; split <;> simp [negate_length]

theorem wrappingPow_costs {c : Nat} {mul : Limbs w → Limbs w → Limbs w × Nat} (x : Limbs w) (hx : 1 ≤ x.length)
    (hm : ∀ a b : Limbs w, a.length = x.length → b.length = x.length →
      (mul a b).1.length = x.length ∧ (mul a b).2 = c) {e : Nat} (he : e < 2 ^ 32) :
    Costs (wrappingPow mul x e) (I256.wrappingPow (fun a b => (mul a b).1) x e) (powProducts e * c) := by
  unfold wrappingPow I256.wrappingPow
  by_cases h0 : e = 0
  · subst h0
    rw [powProducts]
    exact ⟨rfl, by simp⟩
  · rw [if_neg (by simpa using h0), if_neg (by simpa using h0)]
    exact ⟨wrappingPowLoop_fst .., wrappingPowLoop_snd hm rfl (extU_length hx _) (Nat.pos_of_ne_zero h0) he⟩

theorem overflowingPow_costs {c : Nat} {mul : Limbs w → Limbs w → (Limbs w × Bool) × Nat} (x : Limbs w)
    (hx : 1 ≤ x.length)
    (hm : ∀ a b : Limbs w, a.length = x.length → b.length = x.length →
      (mul a b).1.1.length = x.length ∧ (mul a b).2 = c) {e : Nat} (he : e < 2 ^ 32) :
    Costs (overflowingPow mul x e) (I256.overflowingPow (fun a b => (mul a b).1) x e) (powProducts e * c) := by
  unfold overflowingPow I256.overflowingPow
  by_cases h0 : e = 0
  · subst h0
    rw [powProducts]
    exact ⟨rfl, by simp⟩
  · rw [if_neg (by simpa using h0), if_neg (by simpa using h0)]
    exact ⟨overflowingPowLoop_fst ..,
      overflowingPowLoop_snd hm _ rfl (extU_length hx _) (Nat.pos_of_ne_zero h0) he⟩

/-! ### Division -/

theorem fullMulLoop_fst (b : BitVec w) (v : Limbs w) (c : BitVec w) :
    (fullMulLoop b v c).1 = Div.fullMulLoop b v c := by
  induction v generalizing c with
  | nil => rfl
  | cons a v ih => simp [fullMulLoop, Div.fullMulLoop, ih]

theorem fullMulLoop_snd (b : BitVec w) (v : Limbs w) (c : BitVec w) : (fullMulLoop b v c).2 = v.length := by
  induction v generalizing c with
  | nil => rfl
  | cons a v ih => simp [fullMulLoop, ih]

theorem estimate_fst (a0 a1 a2 b0 b1 : BitVec w) :
    (estimate a0 a1 a2 b0 b1).map (·.1) = Div.estimate a0 a1 a2 b0 b1 := by
  unfold estimate Div.estimate
  split
  · cases Div.divRemWord a0 a1 b0 with
    | panic => rfl
    | ok p =>
      simp only [Res.bind]
      split
      · split
        · split <;> rfl
        · rfl
      · rfl
  · rfl

/-- The work of `r` is within the bounds. -/
def Within {α : Type} (m d : Nat) (r : Res (α × Work)) : Prop := ∀ a k, r = .ok (a, k) → k.mul ≤ m ∧ k.div ≤ d

theorem Within.mono {α : Type} {m d m' d' : Nat} {r : Res (α × Work)} (h : Within m d r) (hm : m ≤ m') (hd : d ≤ d') :
    Within m' d' r := fun a k e => ⟨(h a k e).1.trans hm, (h a k e).2.trans hd⟩

theorem Within.ok {α : Type} {m d : Nat} {a : α} {k : Work} (hm : k.mul ≤ m) (hd : k.div ≤ d) :
    Within m d (.ok (a, k)) := fun _ _ e => by cases e; exact ⟨hm, hd⟩

theorem estimate_within (a0 a1 a2 b0 b1 : BitVec w) : Within 2 1 (estimate a0 a1 a2 b0 b1) := by
  unfold estimate
  split
  · cases Div.divRemWord a0 a1 b0 with
    | panic => intro _ _ e; cases e
    | ok p =>
      simp only [Res.bind]
      split
      · split
        · split <;> exact Within.ok (by simp) (by simp)
        · exact Within.ok (by simp) (by simp)
      · exact Within.ok (by simp) (by simp)
  · exact Within.ok (by simp) (by simp)

theorem knuthStep_fst (y : Limbs w) (n j : Nat) (num : Limbs w) :
    (knuthStep y n j num).map (·.1) = Div.knuthStep y n j num := by
  unfold knuthStep Div.knuthStep
  rw [← estimate_fst]
  cases estimate (getLimb num (j + n)) (getLimb num (j + n - 1)) (getLimb num (j + n - 2))
      (getLimb y (n - 1)) (getLimb y (n - 2)) with
  | panic => rfl
  | ok p =>
    simp only [Res.bind, Res.map, fullMul, fullMulLoop_fst, Div.fullMul]
    by_cases hc : (Div.subLoop (n + 1) (num.drop j) (Div.fullMulLoop p.1 y 0) false).2 = true
    · simp only [hc, if_true]
      cases Div.addLoop (n + 1) (Div.subLoop (n + 1) (num.drop j) (Div.fullMulLoop p.1 y 0) false).1 y false <;> rfl
    · simp only [if_neg hc]
      exact (if_neg hc).symm

theorem knuthStep_within (y : Limbs w) (n j : Nat) (num : Limbs w) :
    Within (y.length + 2) 1 (knuthStep y n j num) := by
  have h := estimate_within (getLimb num (j + n)) (getLimb num (j + n - 1)) (getLimb num (j + n - 2))
      (getLimb y (n - 1)) (getLimb y (n - 2))
  unfold knuthStep
  revert h
  cases estimate (getLimb num (j + n)) (getLimb num (j + n - 1)) (getLimb num (j + n - 2))
      (getLimb y (n - 1)) (getLimb y (n - 2)) with
  | panic => intro _ _ _ e; cases e
  | ok p =>
    intro h
    obtain ⟨h1, h2⟩ := h p.1 p.2 rfl
    simp only [Res.bind, fullMul, fullMulLoop_snd]
    split
    · cases Div.addLoop (n + 1) _ y false with
      | panic => intro _ _ e; cases e
      | ok q => exact Within.ok (by simp [Work.add]; omega) (by simp [Work.add]; omega)
    · exact Within.ok (by simp [Work.add]; omega) (by simp [Work.add]; omega)

theorem knuthLoop_fst (y : Limbs w) (n j : Nat) (num q : Limbs w) :
    (knuthLoop y n j num q).map (·.1) = Div.knuthLoop y n j num q := by
  induction j generalizing num q with
  | zero => rfl
  | succ j ih =>
    unfold knuthLoop Div.knuthLoop
    rw [← knuthStep_fst]
    cases knuthStep y n j num with
    | panic => rfl
    | ok p =>
      simp only [Res.bind, Res.map, ← ih]
      cases knuthLoop y n j p.1.2 (p.1.1 :: q) <;> rfl

theorem knuthLoop_within (y : Limbs w) (n j : Nat) (num q : Limbs w) :
    Within (j * (y.length + 2)) j (knuthLoop y n j num q) := by
  induction j generalizing num q with
  | zero => exact Within.ok (by simp) (by simp)
  | succ j ih =>
    have h := knuthStep_within y n j num
    unfold knuthLoop
    revert h
    cases knuthStep y n j num with
    | panic => intro _ _ _ e; cases e
    | ok p =>
      intro h
      obtain ⟨h1, h2⟩ := h p.1 p.2 rfl
      have h := ih p.1.2 (p.1.1 :: q)
      simp only [Res.bind]
      revert h
      cases knuthLoop y n j p.1.2 (p.1.1 :: q) with
      | panic => intro _ _ _ e; cases e
      | ok r =>
        intro h
        obtain ⟨h3, h4⟩ := h r.1 r.2 rfl
        exact Within.ok (by simp [Work.add, Nat.add_mul]; omega) (by simp [Work.add]; omega)

theorem divRemKnuth_fst (x y : Limbs w) (n m : Nat) :
    (divRemKnuth x y n m).map (·.1) = Div.divRemKnuth x y n m := by
  unfold divRemKnuth Div.divRemKnuth
  by_cases h : n + m ≤ x.length
  · simp only [if_pos h, ← knuthLoop_fst]
    cases knuthLoop (Div.shlWord y (clz (getLimb y (n - 1)))) n (m + 1)
      (Div.fullShl x (clz (getLimb y (n - 1)))) [] <;> rfl
  · simp only [if_neg h]; rfl

theorem divRemKnuth_within (x y : Limbs w) (n m : Nat) :
    Within ((m + 1) * (y.length + 2)) (m + 1) (divRemKnuth x y n m) := by
  have h := knuthLoop_within (Div.shlWord y (clz (getLimb y (n - 1)))) n (m + 1)
      (Div.fullShl x (clz (getLimb y (n - 1)))) []
  have hl : (Div.shlWord y (clz (getLimb y (n - 1)))).length ≤ y.length := by
    rw [Div.shlWord, List.length_take]; omega
  unfold divRemKnuth
  split
  · dsimp only
    revert h
    cases knuthLoop (Div.shlWord y (clz (getLimb y (n - 1)))) n (m + 1)
      (Div.fullShl x (clz (getLimb y (n - 1)))) [] with
    | panic => intro _ _ _ e; cases e
    | ok p =>
      intro h
      obtain ⟨h1, h2⟩ := h p.1 p.2 rfl
      exact Within.ok (h1.trans (Nat.mul_le_mul_left _ (Nat.add_le_add_right hl 2))) h2
  · intro _ _ e; cases e

theorem limbLoop_fst (d : BitVec w) (x : Limbs w) : (limbLoop d x).map (·.1) = Div.limbLoop d x := by
  induction x with
  | nil => rfl
  | cons a x ih =>
    unfold limbLoop Div.limbLoop
    rw [← ih]
    cases limbLoop d x with
    | panic => rfl
    | ok p =>
      simp only [Res.bind, Res.map]
      cases Div.divRemWord p.1.2 a d <;> rfl

theorem limbLoop_within (d : BitVec w) (x : Limbs w) : Within 0 x.length (limbLoop d x) := by
  induction x with
  | nil => exact Within.ok (by simp) (by simp)
  | cons a x ih =>
    unfold limbLoop
    revert ih
    cases limbLoop d x with
    | panic => intro _ _ _ e; cases e
    | ok p =>
      intro h
      obtain ⟨h1, h2⟩ := h p.1 p.2 rfl
      simp only [Res.bind]
      cases Div.divRemWord p.1.2 a d with
      | panic => intro _ _ e; cases e
      | ok r => exact Within.ok (by simp [Work.add]; omega) (by simp [Work.add]; omega)

theorem limb_fst (x : Limbs w) (d : BitVec w) : (limb x d).map (·.1) = Div.limb x d := by
  unfold limb Div.limb
  by_cases h : 2 ≤ x.length ∧ Div.isZero x 2 = true
  · simp only [if_pos h]
    cases Div.nativeDivRem (Div.low2 x) (wide d) <;> rfl
  · simp only [if_neg h, limbLoop_fst]

theorem limb_within (x : Limbs w) (d : BitVec w) : Within 0 x.length (limb x d) := by
  unfold limb
  split
  next h =>
    cases Div.nativeDivRem (Div.low2 x) (wide d) with
    | panic => intro _ _ e; cases e
    | ok r => exact Within.ok (Nat.le_refl _) (by simp; omega)
  · exact limbLoop_within d x

theorem limbPadded_fst (N : Nat) (x : Limbs w) (d : BitVec w) :
    (limbPadded N x d).map (·.1) = Div.limbPadded N x d := by
  unfold limbPadded Div.limbPadded
  rw [← limb_fst]
  cases limb x d <;> rfl

theorem limbPadded_within (N : Nat) (x : Limbs w) (d : BitVec w) : Within 0 x.length (limbPadded N x d) := by
  have h := limb_within x d
  unfold limbPadded
  revert h
  cases limb x d with
  | panic => intro _ _ _ e; cases e
  | ok p => intro h; obtain ⟨h1, h2⟩ := h p.1 p.2 rfl; exact Within.ok h1 h2

theorem fullGt_fst (x y : Limbs w) : (fullGt x y).map (·.1) = Div.fullGt x y := by
  unfold fullGt Div.fullGt
  by_cases h : Div.lastIndex y = 0
  · simp only [if_pos h, limbPadded_fst]
  · simp only [if_neg h, divRemKnuth_fst]

theorem full_fst (x y : Limbs w) : (full x y).map (·.1) = Div.full x y := by
  unfold full Div.full
  by_cases h : y.length = 1
  · simp only [if_pos h, limbPadded_fst]
  · simp only [if_neg h]
    cases Div.cmp x y with
    | lt => rfl
    | eq => rfl
    | gt =>
      by_cases hz : Div.isZero x 0 = true
      · simp only [if_pos hz]; rfl
      · simp only [if_neg hz, fullGt_fst]

/-- The limbs of the dividend and the limbs of the divisor: the loop takes one round for each limb that the dividend has
more, and one. -/
theorem lastIndex_lt {x : Limbs w} {a : Nat} (ha : 1 ≤ a) (h : toNat x < 2 ^ (w * a)) :
    Div.lastIndex x < a := by
  by_cases hz : toNat x = 0
  · rw [Div.lastIndex_zero hz]; omega
  · have h1 := (Div.lastLoop_spec x x.length (le_refl _)).2
    rw [List.take_length] at h1
    have h2 := (Nat.pow_lt_pow_iff_right (a := 2) (by omega)).1 ((h1 hz).1.trans_lt h)
    exact Nat.lt_of_mul_lt_mul_left h2

theorem le_lastIndex {y : Limbs w} {b : Nat} (h : 2 ^ (w * b) ≤ toNat y) :
    b ≤ Div.lastIndex y := by
  have hz : toNat y ≠ 0 := by have : 0 < 2 ^ (w * b) := by positivity
                              omega
  have h1 := (Div.lastLoop_spec y y.length (le_refl _)).2
  rw [List.take_length] at h1
  have h2 := (Nat.pow_lt_pow_iff_right (a := 2) (by omega)).1 (h.trans_lt (h1 hz).2)
  exact Nat.lt_succ_iff.1 (Nat.lt_of_mul_lt_mul_left h2)

theorem full_one_within (x y : Limbs w) (hy : Div.lastIndex y = 0) : Within 0 x.length (full x y) := by
  unfold full
  split
  · exact limbPadded_within _ _ _
  · cases Div.cmp x y with
    | lt => exact Within.ok (by simp) (by simp)
    | eq => exact Within.ok (by simp) (by simp)
    | gt =>
      simp only
      split
      · exact Within.ok (by simp) (by simp)
      · unfold fullGt
        rw [if_pos hy]
        exact limbPadded_within _ _ _

theorem full_within (x y : Limbs w) (hy : y.length ≠ 1) (h0 : Div.lastIndex y ≠ 0) :
    Within ((Div.lastIndex x - Div.lastIndex y + 1) * (y.length + 2)) (Div.lastIndex x - Div.lastIndex y + 1)
      (full x y) := by
  unfold full
  rw [if_neg hy]
  cases Div.cmp x y with
  | lt => exact Within.ok (by simp) (by simp)
  | eq => exact Within.ok (by simp) (by simp)
  | gt =>
    simp only
    split
    · exact Within.ok (by simp) (by simp)
    · unfold fullGt
      rw [if_neg h0]
      exact divRemKnuth_within _ _ _ _

/-! ### Division, from below -/

theorem knuthStep_least (y : Limbs w) (n j : Nat) (num : Limbs w) (a : BitVec w × Limbs w) (k : Work)
    (h : knuthStep y n j num = .ok (a, k)) : y.length ≤ k.mul := by
  unfold knuthStep at h
  revert h
  cases estimate (getLimb num (j + n)) (getLimb num (j + n - 1)) (getLimb num (j + n - 2))
      (getLimb y (n - 1)) (getLimb y (n - 2)) with
  | panic => intro e; cases e
  | ok p =>
    simp only [Res.bind, fullMul, fullMulLoop_snd]
    intro e
    by_cases hc : (Div.subLoop (n + 1) (num.drop j) (fullMulLoop p.1 y 0).1 false).2 = true
    · simp only [hc, if_true] at e
      revert e
      cases Div.addLoop (n + 1) (Div.subLoop (n + 1) (num.drop j) (fullMulLoop p.1 y 0).1 false).1 y false with
      | panic => intro e; cases e
      | ok q => intro e; cases e; simp only [Work.add]; omega
    · simp only [hc] at e
      cases e; simp only [Work.add]; omega

theorem knuthLoop_least (y : Limbs w) (n j : Nat) (num q : Limbs w) (a : Limbs w × Limbs w) (k : Work)
    (h : knuthLoop y n j num q = .ok (a, k)) : j * y.length ≤ k.mul := by
  induction j generalizing num q a k with
  | zero => simp
  | succ j ih =>
    unfold knuthLoop at h
    have h1 := knuthStep_least y n j num
    revert h h1
    cases knuthStep y n j num with
    | panic => intro e; cases e
    | ok p =>
      simp only [Res.bind]
      have h2 := ih p.1.2 (p.1.1 :: q)
      revert h2
      cases knuthLoop y n j p.1.2 (p.1.1 :: q) with
      | panic => intro _ e; cases e
      | ok r =>
        intro h2 e h1
        cases e
        have h3 := h1 p.1 p.2 rfl
        have h4 := h2 r.1 r.2 rfl
        simp only [Work.add, Nat.add_mul, Nat.one_mul]
        omega

theorem clz_le (a : BitVec w) : clz a ≤ w := by unfold clz; split <;> omega

theorem shlWord_length (v : Limbs w) {s : Nat} (hs : s ≤ w) : (Div.shlWord v s).length = v.length := by
  have h : v.length ≤ (Div.fullShl v s).length := by
    unfold Div.fullShl
    split
    · simp
    · rw [(Div.shlLoop_spec hs v 0).1]; omega
  rw [Div.shlWord, List.length_take]; omega

theorem full_least (x y : Limbs w) (hl : y.length = x.length) (hy : Div.lastIndex y ≠ 0) (h1 : y.length ≠ 1)
    (h : toNat y < toNat x) (a : Limbs w × Limbs w) (k : Work) (e : full x y = .ok (a, k)) :
    (Div.lastIndex x - Div.lastIndex y + 1) * y.length ≤ k.mul := by
  have hz : Div.isZero x 0 ≠ true := fun hz => by
    have := (Div.isZero_iff x 0).1 hz
    rw [List.drop_zero] at this
    omega
  unfold full at e
  rw [if_neg h1, Div.cmp_spec (by omega), Nat.compare_eq_gt.2 h] at e
  simp only [if_neg hz, fullGt, if_neg hy, divRemKnuth] at e
  split at e
  · have h2 := knuthLoop_least (Div.shlWord y (clz (getLimb y (Div.lastIndex y + 1 - 1)))) (Div.lastIndex y + 1)
      (Div.lastIndex x - Div.lastIndex y + 1) (Div.fullShl x (clz (getLimb y (Div.lastIndex y + 1 - 1)))) []
    revert e h2
    rw [shlWord_length y (clz_le _)]
    cases knuthLoop (Div.shlWord y (clz (getLimb y (Div.lastIndex y + 1 - 1)))) (Div.lastIndex y + 1)
      (Div.lastIndex x - Div.lastIndex y + 1) (Div.fullShl x (clz (getLimb y (Div.lastIndex y + 1 - 1)))) [] with
    | panic => intro e; cases e
    | ok p => intro e h2; cases e; exact h2 p.1 p.2 rfl
  · cases e

theorem limbLoop_work {d : BitVec w} {x : Limbs w} {a : Limbs w × BitVec w} {k : Work}
    (e : limbLoop d x = .ok (a, k)) : k = ⟨0, x.length⟩ := by
  induction x generalizing a k with
  | nil => cases e; rfl
  | cons b x ih =>
    unfold limbLoop at e
    revert e ih
    cases limbLoop d x with
    | panic => intro _ e; cases e
    | ok p =>
      intro ih
      simp only [Res.bind]
      cases Div.divRemWord p.1.2 b d with
      | panic => intro e; cases e
      | ok r =>
        intro e
        cases e
        rw [ih (a := p.1) (k := p.2) rfl]
        simp [Work.add]

theorem full_limb_work {x y : Limbs w} (hl : y.length = x.length) (h2 : 2 ≤ x.length)
    (hy : toNat y < 2 ^ w) (hx : 2 ^ (w * 2) ≤ toNat x) {a : Limbs w × Limbs w} {k : Work}
    (e : full x y = .ok (a, k)) : k = ⟨0, x.length⟩ := by
  have h0 : Div.lastIndex y = 0 := by
    have := lastIndex_lt (x := y) (a := 1) (Nat.le_refl 1) (by simpa using hy)
    omega
  have hyx : toNat y < toNat x :=
    hy.trans_le ((Nat.pow_le_pow_right (by omega) (by omega)).trans hx)
  have hz : Div.isZero x 0 ≠ true := fun hz => by
    have := (Div.isZero_iff x 0).1 hz
    rw [List.drop_zero] at this
    omega
  have hz2 : Div.isZero x 2 ≠ true := fun hz => by
    have h3 := (Div.isZero_iff x 2).1 hz
    have h4 := Div.toNat_split x h2
    rw [h3, Nat.mul_zero, Nat.add_zero] at h4
    have h5 := toNat_lt (x.take 2)
    rw [bits, List.length_take, Nat.min_eq_left h2] at h5
    omega
  unfold full at e
  rw [if_neg (by omega), Div.cmp_spec (by omega), Nat.compare_eq_gt.2 hyx] at e
  simp only [if_neg hz, fullGt, if_pos h0, limbPadded, limb] at e
  rw [if_neg (fun h => hz2 h.2)] at e
  revert e
  cases h : limbLoop (getLimb y 0) x with
  | panic => intro e; cases e
  | ok p => intro e; cases e; exact limbLoop_work h

theorem signed_of {x y : Limbs w} {m d : Nat}
    (h : CostsAtMost (full (I.unsignedAbs x) (I.unsignedAbs y)) (Div.full (I.unsignedAbs x) (I.unsignedAbs y)) m d) :
    CostsAtMost (wrappingDivRemS x y) (I.wrappingDivRem x y) m d := by
  obtain ⟨h1, h2⟩ := h
  unfold wrappingDivRemS I.wrappingDivRem
  rw [← h1]
  revert h2
  cases full (I.unsignedAbs x) (I.unsignedAbs y) with
  | panic => exact fun _ => ⟨rfl, fun a k e => by cases e⟩
  | ok p => exact fun h2 => ⟨rfl, fun a k e => by cases e; exact h2 _ _ rfl⟩

end I256.Count
