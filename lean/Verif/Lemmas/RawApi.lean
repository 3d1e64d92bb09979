import Verif.Lemmas.RawShift
import Verif.Lemmas.ShiftApi
import Verif.Lemmas.Endian
import Verif.Lemmas.Glue
import Verif.Model.RawApi
import Verif.Model.MulApi

/-!
# The literal loops of `src/shared` run to the end and agree with the functional model
-/

namespace I256

variable {w W : Nat}

namespace Raw

variable {α σ : Type}

theorem toNeWide_mem (h8 : 8 ∣ w) (be : Bool) {x : Limbs w} (h2 : x.length % 2 = 0) :
    toNeWide be (mem be x) = mem be (toWide x) := by
  obtain ⟨h1, h3⟩ := Endian.toNeArr_spec h8 be (v := w + w) (Nat.dvd_add h8 h8) (n := x.length / 2) x
    (by obtain ⟨k, hk⟩ : ∃ k, x.length = 2 * k := ⟨x.length / 2, by omega⟩
        rw [hk, Nat.mul_div_cancel_left _ (by decide)]; ring)
  have e : toNeWide be (mem be x) = Endian.toNeArr be (w + w) (x.length / 2) x := by
    unfold toNeWide
    rw [mem_length]
    rfl
  rw [e]
  have hm : mem be (Endian.toNeArr be (w + w) (x.length / 2) x) = toWide x := by
    refine toNat_inj (by rw [mem_length, h1, toWide_length]) ?_
    rw [toWide_toNat x h2]
    exact h3
  rw [← hm, mem_mem]

theorem toWide_fromWide (v : Limbs (w + w)) : toWide (fromWide v) = v := by
  have h : (fromWide v).length % 2 = 0 := by rw [fromWide_length]; omega
  refine toNat_inj (by rw [toWide_length, fromWide_length]; omega) ?_
  rw [toWide_toNat _ h, fromWide_toNat]

theorem fromNeWide_mem (h8 : 8 ∣ w) (be : Bool) (v : Limbs (w + w)) {N : Nat} (hN : N = 2 * v.length)
    (h : 128 ∣ w * N) : fromNeWide be N (mem be v) = .ok (mem be (fromWide v)) := by
  have hl := fromWide_length v
  have h2 : (fromWide v).length % 2 = 0 := by rw [hl]; omega
  have e : Endian.memBytes be (mem be v) = Endian.memBytes be (mem be (fromWide v)) := by
    conv_lhs => rw [← toWide_fromWide v]
    rw [← toNeWide_mem h8 be h2, toNeWide, Endian.memBytes_ofMemBytes (Nat.dvd_add h8 h8)]
    rw [Endian.memBytes_length, mem_length]
    obtain ⟨k, rfl⟩ := h8
    rw [← Nat.mul_add, Nat.mul_div_cancel_left _ (by decide), Nat.mul_div_cancel_left _ (by decide), hl,
      Nat.mul_div_cancel_left _ (by decide)]
    ring
  unfold fromNeWide
  rw [e]
  have h3 := Endian.ofMemBytes_memBytes h8 be (mem be (fromWide v))
  rw [mem_length, hl, ← hN] at h3
  rw [h3, fromNeLimbs, assert_ok, Res.mbind_ok]
  rw [mem_length, hl, ← hN]
  exact decide_eq_true (Nat.mod_eq_zero_of_dvd h)

theorem fromNeLimbs_ok {x : Limbs w} (h : 128 ∣ w * x.length) : fromNeLimbs x = .ok x := by
  rw [fromNeLimbs, assert_ok (decide_eq_true (Nat.mod_eq_zero_of_dvd h)), Res.mbind_ok]

theorem fromNeLimbs_panic {x : Limbs w} (h : ¬ 128 ∣ w * x.length) : fromNeLimbs x = .panic := by
  have e : assert (decide (w * x.length % 128 = 0)) = .panic :=
    if_neg (by simpa using fun e => h (Nat.dvd_of_mod_eq_zero e))
  rw [fromNeLimbs, e]
  rfl

/-! ### Shifts and rotations -/

theorem two_pow_width {k : Nat} (hk : w = 2 ^ k) : w + w = 2 ^ (k + 1) := by
  rw [hk]; ring

theorem wrappingShl_ok (be : Bool) {k : Nat} (hk : w = 2 ^ k) (h8 : 8 ∣ w) {x : Limbs w}
    (h2 : x.length % 2 = 0) (h4 : 4 ≤ x.length) (h128 : 128 ∣ w * x.length) (s : Nat) :
    wrappingShl be (mem be x) s = .ok (mem be (I256.wrappingShl x s)) := by
  have hB : 0 < bits x := bits_pos (pow_pos_width hk) (by rintro rfl; simp at h4)
  have hs : s % bits x < (toWide x).length * (w + w) := by
    have := Nat.mod_lt s hB
    rw [← toWide_bits x h2, bits, Nat.mul_comm] at this
    rwa [← toWide_bits x h2, bits, Nat.mul_comm]
  unfold wrappingShl
  rw [show bits (mem be x) = bits x by simp [bits], remBits, if_neg (by omega), Res.mbind_ok,
    toNeWide_mem h8 be h2,
    Shift.left_ok be (two_pow_width hk) _ _ (by rw [toWide_length]; omega) hs, Res.mbind_ok, mem_length]
  refine fromNeWide_mem h8 be _ ?_ h128
  rw [I256.left_spec (two_pow_width hk) (toWide x) (by rwa [Nat.mul_comm] at hs) |>.1,
    toWide_length]
  omega

theorem wrappingShr_ok (be signed : Bool) {k : Nat} (hk : w = 2 ^ k) (h8 : 8 ∣ w) {x : Limbs w}
    (h2 : x.length % 2 = 0) (h4 : 4 ≤ x.length) (h128 : 128 ∣ w * x.length) (s : Nat) :
    wrappingShr be signed (mem be x) s = .ok (mem be (I256.wrappingShr signed x s)) := by
  have hB : 0 < bits x := bits_pos (pow_pos_width hk) (by rintro rfl; simp at h4)
  have hs : s % bits x < (toWide x).length * (w + w) := by
    have := Nat.mod_lt s hB
    rw [← toWide_bits x h2, bits, Nat.mul_comm] at this
    rwa [← toWide_bits x h2, bits, Nat.mul_comm]
  unfold wrappingShr
  rw [show bits (mem be x) = bits x by simp [bits], remBits, if_neg (by omega), Res.mbind_ok,
    toNeWide_mem h8 be h2,
    Shift.right_ok be signed (two_pow_width hk) _ _ (by rw [toWide_length]; omega) hs, Res.mbind_ok,
    mem_length]
  refine fromNeWide_mem h8 be _ ?_ h128
  rw [I256.right_spec (two_pow_width hk) signed (toWide x) (by rwa [Nat.mul_comm] at hs) |>.1,
    toWide_length]
  omega

theorem rotateLeft_ok (be : Bool) {k : Nat} (hk : w = 2 ^ k) (h8 : 8 ∣ w) {x : Limbs w}
    (h2 : x.length % 2 = 0) (h4 : 4 ≤ x.length) (h128 : 128 ∣ w * x.length) (n : Nat) :
    rotateLeft be (mem be x) n = .ok (mem be (I256.rotateLeft x n)) := by
  unfold rotateLeft
  rw [toNeWide_mem h8 be h2, Rot.left_ok be (two_pow_width hk) _ _ (by rw [toWide_length]; omega),
    Res.mbind_ok, mem_length]
  refine fromNeWide_mem h8 be _ ?_ h128
  rw [rotLeft_length, toWide_length]
  omega

theorem rotateRight_ok (be : Bool) {k : Nat} (hk : w = 2 ^ k) (h8 : 8 ∣ w) {x : Limbs w}
    (h2 : x.length % 2 = 0) (h4 : 4 ≤ x.length) (h128 : 128 ∣ w * x.length) (n : Nat) :
    rotateRight be (mem be x) n = .ok (mem be (I256.rotateRight x n)) := by
  unfold rotateRight
  rw [toNeWide_mem h8 be h2, Rot.right_ok be (two_pow_width hk) _ _ (by rw [toWide_length]; omega),
    Res.mbind_ok, mem_length]
  refine fromNeWide_mem h8 be _ ?_ h128
  rw [I256.Rot.right, rotLeft_length, toWide_length]
  omega

/-! ### Comparisons -/

theorem take_succ_reverse {l : List α} {i : Nat} (h : i < l.length) :
    (l.take (i + 1)).reverse = l[i] :: (l.take i).reverse := by
  rw [← List.take_append_getElem h, List.reverse_append]
  rfl

namespace Ord

theorem ordLoop_ok (be : Bool) (op2 : BitVec (w + w) → BitVec (w + w) → Bool) (X Y : Limbs (w + w))
    (hl : X.length = Y.length) (i : Nat) (hi : i ≤ X.length) (o e : Bool) (fuel : Nat) (hf : i ≤ fuel) :
    ∃ s, loop fuel (fun s : Nat × Bool × Bool => decide (s.1 > 0) && !s.2.1 && s.2.2)
      (fun (i, _, _) => do
        let i ← usub i 1
        let a ← rd be (mem be X) i
        let b ← rd be (mem be Y) i
        .ok (i, if i = 0 then op2 a b else a.ult b, a == b)) (i, o, e) = .ok s ∧
      s.2.1 = I256.Ord.ordLoop op2 ((X.zip Y).take i).reverse o e := by
  induction i generalizing o e fuel with
  | zero => exact ⟨_, loop_done (by simp), by simp [I256.Ord.ordLoop]⟩
  | succ i ih =>
    have hz : i < (X.zip Y).length := by simp; omega
    rw [take_succ_reverse hz, List.getElem_zip, I256.Ord.ordLoop]
    by_cases hc : (!o && e) = true
    · obtain ⟨fuel, rfl⟩ : ∃ n, fuel = n + 1 := ⟨fuel - 1, by omega⟩
      obtain ⟨s, h1, h2⟩ := ih (by omega) (if i = 0 then op2 X[i] Y[i] else X[i].ult Y[i])
        (X[i] == Y[i]) fuel (by omega)
      refine ⟨s, ?_, ?_⟩
      · rw [loop_step (t := (i, if i = 0 then op2 X[i] Y[i] else X[i].ult Y[i], X[i] == Y[i]))
          (by simpa using hc)]
        · exact h1
        · simp only
          rw [usub_ok (by omega), Res.mbind_ok, Nat.add_sub_cancel, rd_ok be (by omega), Res.mbind_ok,
            rd_ok be (by omega), Res.mbind_ok]
      · rw [h2, if_pos hc]
        congr 1
        have : ((X.zip Y).take i).reverse.isEmpty = decide (i = 0) := by
          rcases Nat.eq_zero_or_pos i with rfl | h0
          · simp
          · rw [decide_eq_false (by omega), List.isEmpty_eq_false_iff]
            intro h
            have := congrArg List.length h
            rw [List.length_reverse, List.length_take, List.length_nil] at this
            omega
        rw [this]
        simp
    · exact ⟨_, loop_done (by simpa using hc), by rw [if_neg hc]⟩

theorem ordConst_ok (h8 : 8 ∣ w) (be signed : Bool) (op2 : BitVec (w + w) → BitVec (w + w) → Bool)
    {x y : Limbs w} (hl : x.length = y.length) (h2 : x.length % 2 = 0) (hx : x ≠ []) :
    ordConst be signed op2 (mem be x) (mem be y) = .ok (I256.Ord.ordConst signed op2 x y) := by
  have hN : 0 < x.length := List.length_pos_iff.2 hx
  have hX := toWide_length x
  have hY := toWide_length y
  unfold ordConst
  simp only [mem_length, toNeWide_mem h8 be h2, toNeWide_mem h8 be (show y.length % 2 = 0 by omega)]
  rw [usub_ok (by omega), Res.mbind_ok, rd_ok be (by omega), Res.mbind_ok, rd_ok be (by omega), Res.mbind_ok]
  obtain ⟨s, h3, h4⟩ := ordLoop_ok be op2 (toWide x) (toWide y) (by omega) (x.length / 2 - 1) (by omega)
    (if signed then (toWide x)[x.length / 2 - 1].slt (toWide y)[x.length / 2 - 1]
      else (toWide x)[x.length / 2 - 1].ult (toWide y)[x.length / 2 - 1])
    ((toWide x)[x.length / 2 - 1] == (toWide y)[x.length / 2 - 1]) (x.length / 2) (by omega)
  refine (congrArg (fun r => Res.bind r _) h3).trans ?_
  simp only [Res.bind_ok]
  rw [h4]
  have e : ((toWide x).zip (toWide y)).reverse =
      ((toWide x)[x.length / 2 - 1], (toWide y)[x.length / 2 - 1]) ::
        (((toWide x).zip (toWide y)).take (x.length / 2 - 1)).reverse := by
    have hz : ((toWide x).zip (toWide y)).length = x.length / 2 := by simp; omega
    conv_lhs => rw [← List.take_length (l := (toWide x).zip (toWide y)), hz,
      show x.length / 2 = x.length / 2 - 1 + 1 by omega]
    rw [take_succ_reverse (by omega), List.getElem_zip]
  unfold I256.Ord.ordConst
  rw [e]
  rfl

theorem lt_ok (h8 : 8 ∣ w) (be signed : Bool) {x y : Limbs w} (hl : x.length = y.length)
    (h2 : x.length % 2 = 0) (hx : x ≠ []) :
    lt be signed (mem be x) (mem be y) = .ok (I256.Ord.lt signed x y) :=
  ordConst_ok h8 be signed _ hl h2 hx

theorem le_ok (h8 : 8 ∣ w) (be signed : Bool) {x y : Limbs w} (hl : x.length = y.length)
    (h2 : x.length % 2 = 0) (hx : x ≠ []) :
    le be signed (mem be x) (mem be y) = .ok (I256.Ord.le signed x y) :=
  ordConst_ok h8 be signed _ hl h2 hx

theorem cmpLoop_ok (be : Bool) (X Y : Limbs (w + w))
    (hl : X.length = Y.length) (i : Nat) (hi : i ≤ X.length) (e l g : Bool) (fuel : Nat) (hf : i ≤ fuel) :
    ∃ s, loop fuel (fun s : Nat × Bool × Bool × Bool =>
        decide (s.1 > 0) && !s.2.2.1 && !s.2.2.2 && s.2.1)
      (fun (i, _, _, _) => do
        let i ← usub i 1
        let a ← rd be (mem be X) i
        let b ← rd be (mem be Y) i
        .ok (i, a == b, a.ult b, b.ult a)) (i, e, l, g) = .ok s ∧
      s.2.2 = I256.Ord.cmpLoop ((X.zip Y).take i).reverse e l g := by
  induction i generalizing e l g fuel with
  | zero => exact ⟨_, loop_done (by simp), by simp [I256.Ord.cmpLoop]⟩
  | succ i ih =>
    have hz : i < (X.zip Y).length := by simp; omega
    rw [take_succ_reverse hz, List.getElem_zip, I256.Ord.cmpLoop]
    by_cases hc : (!l && !g && e) = true
    · obtain ⟨fuel, rfl⟩ : ∃ n, fuel = n + 1 := ⟨fuel - 1, by omega⟩
      obtain ⟨s, h1, h2⟩ := ih (by omega) (X[i] == Y[i]) (X[i].ult Y[i]) (Y[i].ult X[i]) fuel (by omega)
      refine ⟨s, ?_, ?_⟩
      · rw [loop_step (t := (i, X[i] == Y[i], X[i].ult Y[i], Y[i].ult X[i])) (by simpa using hc)]
        · exact h1
        · simp only
          rw [usub_ok (by omega), Res.mbind_ok, Nat.add_sub_cancel, rd_ok be (by omega), Res.mbind_ok,
            rd_ok be (by omega), Res.mbind_ok]
      · rw [h2, if_pos hc]
    · exact ⟨_, loop_done (by simpa using hc), by rw [if_neg hc]⟩

theorem cmp_ok (h8 : 8 ∣ w) (be signed : Bool) {x y : Limbs w} (hl : x.length = y.length)
    (h2 : x.length % 2 = 0) (hx : x ≠ []) :
    cmp be signed (mem be x) (mem be y) = .ok (I256.Ord.cmp signed x y) := by
  have hN : 0 < x.length := List.length_pos_iff.2 hx
  have hX := toWide_length x
  have hY := toWide_length y
  unfold cmp
  simp only [mem_length, toNeWide_mem h8 be h2, toNeWide_mem h8 be (show y.length % 2 = 0 by omega)]
  rw [usub_ok (by omega), Res.mbind_ok, rd_ok be (by omega), Res.mbind_ok, rd_ok be (by omega), Res.mbind_ok]
  obtain ⟨⟨i, e, l, g⟩, h3, h4⟩ := cmpLoop_ok be (toWide x) (toWide y) (by omega) (x.length / 2 - 1)
    (by omega) ((toWide x)[x.length / 2 - 1] == (toWide y)[x.length / 2 - 1])
    (if signed then (toWide x)[x.length / 2 - 1].slt (toWide y)[x.length / 2 - 1]
      else (toWide x)[x.length / 2 - 1].ult (toWide y)[x.length / 2 - 1])
    (if signed then (toWide y)[x.length / 2 - 1].slt (toWide x)[x.length / 2 - 1]
      else (toWide y)[x.length / 2 - 1].ult (toWide x)[x.length / 2 - 1]) (x.length / 2) (by omega)
  refine (congrArg (fun r => Res.bind r _) h3).trans ?_
  simp only [Res.bind_ok]
  have e : ((toWide x).zip (toWide y)).reverse =
      ((toWide x)[x.length / 2 - 1], (toWide y)[x.length / 2 - 1]) ::
        (((toWide x).zip (toWide y)).take (x.length / 2 - 1)).reverse := by
    have hz : ((toWide x).zip (toWide y)).length = x.length / 2 := by simp; omega
    conv_lhs => rw [← List.take_length (l := (toWide x).zip (toWide y)), hz,
      show x.length / 2 = x.length / 2 - 1 + 1 by omega]
    rw [take_succ_reverse (by omega), List.getElem_zip]
  unfold I256.Ord.cmp
  rw [e]
  exact congrArg (fun p : Bool × Bool =>
    (.ok (if p.1 then Ordering.lt else if p.2 then .gt else .eq) : Res Ordering)) h4

theorem eqLoop_ok {A B : Limbs W} (pa pb : Limbs W) (hp : pa.length = pb.length)
    (hl : A.length = B.length) (e br : Bool) (fuel N : Nat) (hf : A.length ≤ fuel)
    (hN : N = pa.length + A.length) :
    ∃ i, loop fuel (fun s : Nat × Bool => decide (s.1 < N) && (!br || s.2)) (fun (i, isEq) => do
      let a ← at_ (pa ++ A) i
      let b ← at_ (pb ++ B) i
      .ok (i + 1, isEq && a == b)) (pa.length, e) = .ok (i, e && decide (A = B)) := by
  induction A generalizing pa pb B e fuel with
  | nil =>
    have : B = [] := by simpa using hl.symm
    subst this
    exact ⟨pa.length, (loop_done (by simp [hN])).trans (by simp)⟩
  | cons a A ih =>
    obtain ⟨b, B, rfl⟩ : ∃ b r, B = b :: r := by cases B with
      | nil => simp at hl
      | cons b r => exact ⟨b, r, rfl⟩
    by_cases hc : (!br || e) = true
    · obtain ⟨fuel, rfl⟩ : ∃ n, fuel = n + 1 := ⟨fuel - 1, by simp at hf; omega⟩
      obtain ⟨i, h⟩ := ih (pa ++ [a]) (pb ++ [b]) (by simp [hp]) (by simpa using hl) (e && a == b) fuel
        (by simpa using hf) (by simp [hN]; omega)
      refine ⟨i, ?_⟩
      rw [loop_step (t := (pa.length + 1, e && a == b)) (by simp [hN]; simpa using hc)]
      · simp only [List.append_assoc, List.singleton_append, List.length_append, List.length_cons,
          List.length_nil, Nat.zero_add] at h
        refine h.trans ?_
        congr 2
        by_cases hab : a = b <;> simp [hab]
      · simp only
        rw [at_ok (by simp), Res.mbind_ok, at_ok (by simp [hp]), Res.mbind_ok]
        simp [hp]
    · refine ⟨pa.length, (loop_done (by simp at hc; simp [hc])).trans ?_⟩
      have : e = false := by cases e <;> simp_all
      simp [this]

theorem eq_ok (h8 : 8 ∣ w) (be : Bool) {x y : Limbs w} (hl : x.length = y.length)
    (h2 : x.length % 2 = 0) :
    eqBranchless be (mem be x) (mem be y) = .ok (decide (x = y)) ∧
      eqBranched be (mem be x) (mem be y) = .ok (decide (x = y)) := by
  have hX := toWide_length x
  have hY := toWide_length y
  have hd : decide (mem be (toWide x) = mem be (toWide y)) = decide (x = y) :=
    decide_eq_decide.2 ⟨fun h => toWide_inj hl h2 (mem_inj h), fun h => by rw [h]⟩
  obtain ⟨i, h3⟩ := eqLoop_ok (A := mem be (toWide x)) (B := mem be (toWide y)) [] [] rfl (by simp; omega)
    true false (x.length / 2) (x.length / 2) (by simp; omega) (by simp; omega)
  obtain ⟨j, h4⟩ := eqLoop_ok (A := mem be (toWide x)) (B := mem be (toWide y)) [] [] rfl (by simp; omega)
    true true (x.length / 2) (x.length / 2) (by simp; omega) (by simp; omega)
  simp only [Bool.not_false, Bool.not_true, Bool.true_or, Bool.false_or, Bool.and_true, List.nil_append,
    List.length_nil, Bool.true_and] at h3 h4
  constructor
  · unfold eqBranchless
    rw [mem_length, toNeWide_mem h8 be h2, toNeWide_mem h8 be (by omega)]
    refine (congrArg (fun r => Res.bind r _) h3).trans ?_
    simp only [Res.bind_ok, hd]
  · unfold eqBranched
    rw [mem_length, toNeWide_mem h8 be h2, toNeWide_mem h8 be (by omega)]
    refine (congrArg (fun r => Res.bind r _) h4).trans ?_
    simp only [Res.bind_ok, hd]

end Ord

/-! ### Bitwise loops -/

/-- A loop that stores `g i` at every index below `n`. -/
theorem loop_fill (be : Bool) (g : Nat → α) {body : Nat × List α → Res (Nat × List α)} {n L : Nat}
    (hb : ∀ i R, i < n → R.length = L → body (i, mem be R) = .ok (i + 1, mem be (R.set i (g i))))
    (R : List α) (hR : R.length = L) (hn : n ≤ L) :
    loop n (fun s => decide (s.1 < n)) body (0, mem be R) =
      .ok (n, mem be ((List.range n).map g ++ R.drop n)) := by
  have key : ∀ k i, i + k = n →
      loop k (fun s => decide (s.1 < n)) body (i, mem be ((List.range i).map g ++ R.drop i)) =
        .ok (n, mem be ((List.range n).map g ++ R.drop n)) := by
    intro k
    induction k with
    | zero =>
      intro i h
      rw [loop_done (by simp; omega)]
      rw [show i = n by omega]
    | succ k ih =>
      intro i h
      rw [loop_step (t := (i + 1, mem be ((List.range (i + 1)).map g ++ R.drop (i + 1))))
        (by simp; omega)]
      · exact ih (i + 1) (by omega)
      · rw [hb i _ (by omega) (by simp; omega)]
        congr 3
        rw [List.set_append_right _ _ (by simp), List.range_succ, List.map_append]
        have hd : R.drop i = R[i] :: R.drop (i + 1) := List.drop_eq_getElem_cons (by omega)
        simp only [List.length_map, List.length_range, Nat.sub_self, List.map_cons, List.map_nil,
          List.append_assoc, List.singleton_append]
        rw [hd, List.set_cons_zero]
  exact key n 0 (by omega)

namespace Bits

theorem map_range_zipWith (op : BitVec w → BitVec w → BitVec w) (A B : Limbs w)
    (hl : A.length = B.length) :
    (List.range A.length).map (fun i => op (getLimb A i) (getLimb B i)) = List.zipWith op A B := by
  apply List.ext_getElem
  · simp [hl]
  · intro i h1 h2
    simp at h1 h2
    simp [getLimb, h1, ← hl]

theorem at_limb {A : Limbs w} {i : Nat} (h : i < A.length) : at_ A i = .ok (getLimb A i) := by
  rw [at_ok h]; simp [getLimb, h]

theorem zip_ok (be : Bool) (op : BitVec w → BitVec w → BitVec w) {x y : Limbs w}
    (hl : x.length = y.length) (h128 : 128 ∣ w * x.length) :
    zip op (mem be x) (mem be y) = .ok (mem be (List.zipWith op x y)) := by
  unfold zip
  have h := loop_fill false (fun i => op (getLimb (mem be x) i) (getLimb (mem be y) i))
    (n := x.length) (L := x.length)
    (body := fun (i, result) => do
      let a ← at_ (mem be x) i
      let b ← at_ (mem be y) i
      let result ← set_ result i (op a b)
      .ok (i + 1, result))
    (fun i R hi hR => by
      simp only
      rw [at_limb (by simpa using hi), Res.mbind_ok, at_limb (by simp; omega), Res.mbind_ok,
        set_ok (by simp; omega), Res.mbind_ok]
      rfl) (List.replicate x.length 0) (by simp) (le_refl _)
  rw [mem_length]
  refine (congrArg (fun r => Res.bind r _) h).trans ?_
  simp only [Res.bind_ok]
  have e := map_range_zipWith op (mem be x) (mem be y) (by simp [hl])
  rw [mem_length] at e
  rw [e]
  have e2 : mem false (List.zipWith op (mem be x) (mem be y) ++ (List.replicate x.length 0).drop x.length) =
      mem be (List.zipWith op x y) := by
    cases be
    · simp [mem]
    · simp only [mem, if_true, Bool.false_eq_true, if_false]; rw [List.reverse_zipWith hl]; simp
  rw [e2]
  exact fromNeLimbs_ok (by simpa [hl] using h128)

theorem not_ok (be : Bool) {x : Limbs w} (h128 : 128 ∣ w * x.length) :
    not (mem be x) = .ok (mem be (I256.Bits.not x)) := by
  unfold not
  have h := loop_fill false (fun i => ~~~ (getLimb (mem be x) i))
    (n := x.length) (L := x.length)
    (body := fun (i, result) => do
      let a ← at_ (mem be x) i
      let result ← set_ result i (~~~ a)
      .ok (i + 1, result))
    (fun i R hi hR => by
      simp only
      rw [at_limb (by simpa using hi), Res.mbind_ok, set_ok (by simp; omega), Res.mbind_ok]
      rfl) (List.replicate x.length 0) (by simp) (le_refl _)
  rw [mem_length]
  refine (congrArg (fun r => Res.bind r _) h).trans ?_
  simp only [Res.bind_ok]
  have e : (List.range x.length).map (fun i => ~~~ (getLimb (mem be x) i)) =
      mem be (I256.Bits.not x) := by
    have e1 : mem be (I256.Bits.not x) = (mem be x).map (~~~ ·) := by
      cases be <;> simp [mem, I256.Bits.not]
    rw [e1]
    apply List.ext_getElem
    · simp
    · intro i h1 h2
      simp at h1 h2
      simp [getLimb, h1]
  rw [e]
  have e2 : mem false (mem be (I256.Bits.not x) ++ (List.replicate x.length 0).drop x.length) =
      mem be (I256.Bits.not x) := by simp [mem]
  rw [e2]
  exact fromNeLimbs_ok (by simpa [not_length] using h128)

theorem flip_ok (be : Bool) (f : BitVec w → BitVec w) (x : Limbs w) :
    flip f (mem be x) = .ok (mem be (x.reverse.map f)) := by
  unfold flip
  have h := loop_fill false (fun i => f (getLimb (mem be x) (x.length - 1 - i)))
    (n := x.length) (L := x.length)
    (body := fun (i, r) => do
      let k ← usub x.length 1
      let k ← usub k i
      let a ← at_ (mem be x) k
      let r ← set_ r i (f a)
      .ok (i + 1, r))
    (fun i R hi hR => by
      simp only
      rw [usub_ok (by omega), Res.mbind_ok, usub_ok (by omega), Res.mbind_ok,
        at_limb (by simp; omega), Res.mbind_ok, set_ok (by simp; omega), Res.mbind_ok]
      rfl) (List.replicate x.length 0) (by simp) (le_refl _)
  rw [mem_length]
  refine (congrArg (fun r => Res.bind r _) h).trans ?_
  simp only [Res.bind_ok]
  have e : (List.range x.length).map (fun i => f (getLimb (mem be x) (x.length - 1 - i))) =
      mem be (x.reverse.map f) := by
    have e1 : mem be (x.reverse.map f) = (mem be x).reverse.map f := by
      cases be <;> simp [mem]
    rw [e1]
    apply List.ext_getElem
    · simp
    · intro i h1 h2
      simp at h1 h2
      simp [getLimb, show x.length - 1 - i < x.length by omega]
  rw [e]
  simp [mem]

theorem swapArray_ok (x : Limbs w) : swapArray x = .ok x.reverse := by
  unfold swapArray
  have h := loop_fill false (fun i => getLimb x (x.length - i - 1))
    (n := x.length) (L := x.length)
    (body := fun (i, r) => do
      let k ← usub x.length i
      let k ← usub k 1
      let a ← at_ x k
      let r ← set_ r i a
      .ok (i + 1, r))
    (fun i R hi hR => by
      simp only
      rw [usub_ok (by omega), Res.mbind_ok, usub_ok (by omega), Res.mbind_ok,
        at_limb (by omega), Res.mbind_ok, set_ok (by simp; omega), Res.mbind_ok]
      rfl) x (by simp) (le_refl _)
  refine (congrArg (fun r => Res.bind r _) h).trans ?_
  simp only [Res.bind_ok]
  have e : (List.range x.length).map (fun i => getLimb x (x.length - i - 1)) = x.reverse := by
    apply List.ext_getElem
    · simp
    · intro i h1 h2
      simp at h1 h2
      simp [getLimb, show x.length - i - 1 = x.length - 1 - i by omega,
        show x.length - 1 - i < x.length by omega]
  rw [e]
  simp [mem]

theorem half_ok (be : Bool) (off : Nat) {x : Limbs w} (ho : off + x.length / 2 ≤ x.length)
    (h128 : 128 ∣ w * x.length) :
    (do
      let (_, r) ← loop (x.length / 2) (fun s : Nat × Limbs w => decide (s.1 < x.length / 2)) (fun (i, r) => do
        let a ← rd be (mem be x) (i + off)
        let r ← wr be r i a
        .ok (i + 1, r)) (0, List.replicate x.length 0)
      fromNeLimbs r) =
    .ok (mem be ((x.drop off).take (x.length / 2) ++ List.replicate (x.length - x.length / 2) 0)) := by
  have h := loop_fill be (fun i => getLimb x (i + off)) (n := x.length / 2) (L := x.length)
    (body := fun (i, r) => do
      let a ← rd be (mem be x) (i + off)
      let r ← wr be r i a
      .ok (i + 1, r))
    (fun i R hi hR => by
      simp only
      rw [rd_limb be (by omega), Res.mbind_ok, wr_ok be (by omega), Res.mbind_ok])
    (List.replicate x.length 0) (by simp) (by omega)
  rw [mem_replicate] at h
  refine (congrArg (fun r => Res.bind r _) h).trans ?_
  simp only [Res.bind_ok]
  have e : (List.range (x.length / 2)).map (fun i => getLimb x (i + off)) =
      (x.drop off).take (x.length / 2) := by
    apply List.ext_getElem
    · simp; omega
    · intro i h1 h2
      simp at h1 h2
      simp [getLimb, show off + i < x.length by omega, Nat.add_comm]
  rw [e, List.drop_replicate]
  refine fromNeLimbs_ok ?_
  rw [mem_length]
  have : ((x.drop off).take (x.length / 2) ++ List.replicate (x.length - x.length / 2) (0 : BitVec w)).length
      = x.length := by simp; omega
  rwa [this]

theorem low_ok (be : Bool) {x : Limbs w} (h128 : 128 ∣ w * x.length) :
    low be (mem be x) = .ok (mem be (U.low x)) := by
  have h := half_ok be 0 (x := x) (by omega) h128
  unfold low
  rw [mem_length]
  exact h

theorem high_ok (be : Bool) {x : Limbs w} (h128 : 128 ∣ w * x.length) :
    high be (mem be x) = .ok (mem be (U.high x)) := by
  have h := half_ok be (x.length / 2) (x := x) (by omega) h128
  unfold high
  rw [mem_length]
  exact h

/-! ### Scans -/

theorem countOnes_sum (x : Limbs w) (c : Nat) :
    x.foldl (fun count a => count + popcount a) c = c + (x.map popcount).sum := by
  induction x generalizing c with
  | nil => simp
  | cons a x ih => simp [ih, Nat.add_assoc]

theorem countLoop_ok (px xs : Limbs w) (c fuel N : Nat) (hf : xs.length ≤ fuel)
    (hN : N = px.length + xs.length) :
    loop fuel (fun s : Nat × Nat => decide (s.1 < N)) (fun (i, count) => do
      let a ← at_ (px ++ xs) i
      .ok (i + 1, count + popcount a)) (px.length, c) =
      .ok (N, xs.foldl (fun count a => count + popcount a) c) := by
  induction xs generalizing px c fuel with
  | nil => exact (loop_done (by simp [hN])).trans (by simp [hN])
  | cons a xs ih =>
    obtain ⟨fuel, rfl⟩ : ∃ n, fuel = n + 1 := ⟨fuel - 1, by simp at hf; omega⟩
    rw [loop_step (t := (px.length + 1, c + popcount a)) (by simp [hN])]
    · have h := ih (px ++ [a]) (c + popcount a) fuel (by simpa using hf) (by simp [hN]; omega)
      simp only [List.append_assoc, List.singleton_append, List.length_append, List.length_cons,
          List.length_nil, Nat.zero_add] at h
      exact h
    · simp only
      rw [at_ok (by simp), Res.mbind_ok]
      simp

theorem countOnes_ok (be : Bool) (x : Limbs w) :
    countOnes (mem be x) = .ok (I256.Bits.countOnes x) := by
  unfold countOnes
  have h := countLoop_ok [] (mem be x) 0 (mem be x).length (mem be x).length (le_refl _) (by simp)
  refine (congrArg (fun r => Res.bind r _) h).trans ?_
  simp only [Res.bind_ok, I256.Bits.countOnes, countOnes_sum]
  cases be
  · rfl
  · simp [mem, List.map_reverse, List.sum_reverse]

theorem zerosLoop_ok (f : BitVec w → Nat) {body : Nat × Nat → Res (Nat × Nat)} (px xs : Limbs w)
    (N : Nat) (hN : N = px.length + xs.length)
    (hb : ∀ i c, i < N → body (i, c) = .ok (i + 1, c + f (getLimb (px ++ xs) i)))
    (c fuel : Nat) (hf : xs.length ≤ fuel) :
    ∃ i, loop fuel (fun s : Nat × Nat => decide (s.1 < N) && decide (s.2 = s.1 * w)) body (px.length, c) =
      .ok (i, I256.Bits.zerosLoop f xs px.length c) := by
  induction xs generalizing px c fuel with
  | nil => exact ⟨_, loop_done (by simp [hN])⟩
  | cons a xs ih =>
    rw [I256.Bits.zerosLoop]
    by_cases hc : c = px.length * w
    · rw [if_pos hc]
      obtain ⟨fuel, rfl⟩ : ∃ n, fuel = n + 1 := ⟨fuel - 1, by simp at hf; omega⟩
      obtain ⟨i, h⟩ := ih (px ++ [a]) (by simp [hN]; omega) (by simpa using hb) (c + f a) fuel
        (by simpa using hf)
      refine ⟨i, ?_⟩
      rw [loop_step (t := (px.length + 1, c + f a)) (by simp [hN, hc])]
      · simpa using h
      · rw [hb _ _ (by simp [hN])]
        simp [getLimb]
    · rw [if_neg hc]
      exact ⟨_, loop_done (by simp [hc])⟩

theorem leadingZeros_ok (be : Bool) (x : Limbs w) :
    leadingZeros be (mem be x) = .ok (I256.Bits.leadingZeros x) := by
  unfold leadingZeros
  rw [mem_length]
  obtain ⟨i, h⟩ := zerosLoop_ok clz (body := fun (i, count) => do
      let k ← usub x.length i
      let k ← usub k 1
      let a ← rd be (mem be x) k
      .ok (i + 1, count + clz a)) [] x.reverse x.length (by simp) (fun i c hi => by
        simp only
        rw [usub_ok (by omega), Res.mbind_ok, usub_ok (by omega), Res.mbind_ok, rd_ok be (by omega),
          Res.mbind_ok]
        simp [getLimb, hi, show x.length - 1 - i = x.length - i - 1 by omega]) 0 x.length (by simp)
  refine (congrArg (fun r => Res.bind r _) h).trans ?_
  rfl

theorem trailingZeros_ok (be : Bool) (x : Limbs w) :
    trailingZeros be (mem be x) = .ok (I256.Bits.trailingZeros x) := by
  unfold trailingZeros
  rw [mem_length]
  obtain ⟨i, h⟩ := zerosLoop_ok ctz (body := fun (i, count) => do
      let a ← rd be (mem be x) i
      .ok (i + 1, count + ctz a)) [] x x.length (by simp) (fun i c hi => by
        simp only
        rw [rd_ok be (by omega), Res.mbind_ok]
        simp [getLimb, hi]) 0 x.length (by simp)
  refine (congrArg (fun r => Res.bind r _) h).trans ?_
  rfl

theorem positiveLoop_ok (be : Bool) (x : Limbs w) (i : Nat) (hi : i ≤ x.length) (fuel : Nat)
    (hf : i ≤ fuel) :
    ∃ s, loop fuel (fun s : Nat × Option Bool => decide (s.1 > 0) && s.2.isNone) (fun (i, ret) => do
      let i ← usub i 1
      let a ← rd be (mem be x) i
      .ok (i, if (0 : BitVec w).ult a then some true else ret)) (i, none) = .ok s ∧
      s.2.getD false = I.isPositiveLoop (x.take i).reverse := by
  induction i generalizing fuel with
  | zero => exact ⟨_, loop_done (by simp), by simp [I.isPositiveLoop]⟩
  | succ i ih =>
    obtain ⟨fuel, rfl⟩ : ∃ n, fuel = n + 1 := ⟨fuel - 1, by omega⟩
    rw [take_succ_reverse (by omega), I.isPositiveLoop]
    have hstep := loop_step (fuel := fuel)
      (cond := fun s : Nat × Option Bool => decide (s.1 > 0) && s.2.isNone)
      (body := fun (i, ret) => do
        let i ← usub i 1
        let a ← rd be (mem be x) i
        .ok (i, if (0 : BitVec w).ult a then some true else ret))
      (s := (i + 1, none)) (t := (i, if (0 : BitVec w).ult x[i] then some true else none)) (by simp)
      (by
        simp only
        rw [usub_ok (by omega), Res.mbind_ok, Nat.add_sub_cancel, rd_ok be (by omega), Res.mbind_ok])
    by_cases h0 : (0 : BitVec w).ult x[i] = true
    · rw [if_pos h0] at hstep
      refine ⟨_, hstep.trans (loop_done (by simp)), ?_⟩
      rw [if_pos h0]
      rfl
    · obtain ⟨s, h1, h2⟩ := ih (by omega) fuel (by omega)
      refine ⟨s, hstep.trans ?_, ?_⟩
      · rw [if_neg h0]; exact h1
      · rw [if_neg h0]; exact h2

theorem isPositive_ok (be : Bool) {x : Limbs w} (hx : x ≠ []) :
    isPositive be (mem be x) = .ok (I.isPositive x) := by
  have hN : 0 < x.length := List.length_pos_iff.2 hx
  unfold isPositive
  rw [mem_length, usub_ok (by omega), Res.mbind_ok, rd_limb be (by omega), Res.mbind_ok]
  unfold I.isPositive msLimb
  simp only
  split
  · rfl
  · split
    · rfl
    · obtain ⟨s, h1, h2⟩ := positiveLoop_ok be x (x.length - 1) (by omega) x.length (by omega)
      rw [Res.mbind_ok]
      refine (congrArg (fun r => Res.bind r _) h1).trans ?_
      simp only [Res.bind_ok]
      rw [h2, List.dropLast_eq_take]

theorem isNegative_ok (be : Bool) {x : Limbs w} (hx : x ≠ []) :
    isNegative be (mem be x) = .ok (I.isNegative x) := by
  have hN : 0 < x.length := List.length_pos_iff.2 hx
  unfold isNegative
  rw [mem_length, usub_ok (by omega), Res.mbind_ok, rd_limb be (by omega), Res.mbind_ok]
  rfl

end Bits

end Raw

end I256
