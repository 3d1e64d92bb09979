import Verif.Model.Div
import Verif.Lemmas.DivNat
import Verif.Lemmas.Shift
import Verif.Lemmas.Bitops

/-! # Lemmas on the kernels of `src/math/div.rs` -/

namespace I256

variable {w : Nat}

namespace Div

theorem divRemWord_ok {hi lo d : BitVec w} (h : hi.toNat < d.toNat) :
    ∃ q r, divRemWord hi lo d = .ok (q, r) ∧
      q.toNat = (hi.toNat * 2 ^ w + lo.toNat) / d.toNat ∧
      r.toNat = (hi.toNat * 2 ^ w + lo.toNat) % d.toNat := by
  have hlt : hi.ult d = true := by simpa [BitVec.ult] using h
  have hlo := lo.isLt
  have hd := d.isLt
  have hhi := hi.isLt
  have hx : ((wide hi <<< w) + wide lo).toNat = hi.toNat * 2 ^ w + lo.toNat := by
    have hB : hi.toNat * 2 ^ w + lo.toNat < 2 ^ (w + w) := by
      rw [Nat.pow_add]
      calc hi.toNat * 2 ^ w + lo.toNat < (hi.toNat + 1) * 2 ^ w := by
            rw [Nat.add_mul, Nat.one_mul]; omega
        _ ≤ 2 ^ w * 2 ^ w := Nat.mul_le_mul_right _ hhi
    rw [BitVec.toNat_add, BitVec.toNat_shiftLeft, wide_toNat, wide_toNat, Nat.shiftLeft_eq,
      Nat.mod_eq_of_lt (show hi.toNat * 2 ^ w < 2 ^ (w + w) by omega), Nat.mod_eq_of_lt hB]
  refine ⟨_, _, by rw [divRemWord, if_pos hlt], ?_, ?_⟩
  · rw [loLimb_toNat, BitVec.toNat_udiv, hx, wide_toNat]
    apply Nat.mod_eq_of_lt
    apply Nat.div_lt_of_lt_mul
    calc hi.toNat * 2 ^ w + lo.toNat < (hi.toNat + 1) * 2 ^ w := by
          rw [Nat.add_mul, Nat.one_mul]; omega
      _ ≤ d.toNat * 2 ^ w := Nat.mul_le_mul_right _ h
  · rw [loLimb_toNat, BitVec.toNat_umod, hx, wide_toNat]
    apply Nat.mod_eq_of_lt
    have := Nat.mod_lt (hi.toNat * 2 ^ w + lo.toNat) (show 0 < d.toNat by omega)
    omega

theorem divRemWord_zero (hi lo : BitVec w) : divRemWord hi lo 0 = .panic := by
  simp [divRemWord, BitVec.ult]

theorem gtPair_iff {p : BitVec (w + w)} {r a : BitVec w} :
    gtPair (hiLimb p) (loLimb p) r a = true ↔ r.toNat * 2 ^ w + a.toNat < p.toNat := by
  have h := lo_hi p
  have hl := (loLimb p).isLt
  have ha := a.isLt
  have hB : 0 < 2 ^ w := by positivity
  simp only [gtPair, Bool.or_eq_true, Bool.and_eq_true, BitVec.ult, decide_eq_true_iff, beq_iff_eq,
    BitVec.toNat_eq]
  rw [← h]
  generalize (hiLimb p).toNat = hi at *
  generalize (loLimb p).toNat = lo at *
  generalize 2 ^ w = B at *
  generalize r.toNat = r' at *
  generalize a.toNat = a' at *
  constructor
  · rintro (h1 | ⟨h1, h2⟩)
    · have : (r' + 1) * B ≤ hi * B := Nat.mul_le_mul_right _ h1
      rw [Nat.add_mul, Nat.one_mul, Nat.mul_comm hi] at this
      omega
    · subst h1; rw [Nat.mul_comm]; omega
  · intro h1
    rcases Nat.lt_trichotomy r' hi with h2 | h2 | h2
    · exact .inl h2
    · subst h2; rw [Nat.mul_comm] at h1; exact .inr ⟨rfl, by omega⟩
    · have : (hi + 1) * B ≤ r' * B := Nat.mul_le_mul_right _ h2
      rw [Nat.add_mul, Nat.one_mul, Nat.mul_comm hi] at this
      omega

theorem wide_mul_toNat (a b : BitVec w) : (wide a * wide b).toNat = a.toNat * b.toNat := by
  rw [BitVec.toNat_mul, wide_toNat, wide_toNat]
  apply Nat.mod_eq_of_lt
  rw [Nat.pow_add]
  exact Nat.mul_lt_mul'' a.isLt b.isLt

theorem sub_one_toNat (hw : 0 < w) {q : BitVec w} (h : 1 ≤ q.toNat) :
    (q - 1).toNat = q.toNat - 1 := by
  have h1 : (1 : BitVec w).toNat = 1 := by
    have := one_lt_two_pow' hw
    simp; omega
  rw [BitVec.toNat_sub_of_le (by rw [BitVec.le_def, h1]; exact h), h1]

theorem estimate_ok (hw : 0 < w) {a0 a1 a2 b0 b1 : BitVec w} (hb : 2 ^ w ≤ 2 * b0.toNat) :
    ∃ q, estimate a0 a1 a2 b0 b1 = .ok q ∧
      q.toNat = if a0.toNat < b0.toNat then
        (a0.toNat * 2 ^ w * 2 ^ w + a1.toNat * 2 ^ w + a2.toNat) / (b0.toNat * 2 ^ w + b1.toNat)
        else 2 ^ w - 1 := by
  by_cases h : a0.toNat < b0.toNat
  · have hlt : a0.ult b0 = true := by simpa [BitVec.ult] using h
    obtain ⟨q, r, e, hq, hr⟩ := divRemWord_ok (lo := a1) h
    have key := DivNat.refine_eq hb b1.isLt a2.isLt h a1.isLt
    simp only [← hq, ← hr] at key
    rw [if_pos h, key]
    unfold estimate
    rw [if_pos hlt, e]
    simp only [Res.bind_ok]
    have g1 := gtPair_iff (p := wide q * wide b1) (r := r) (a := a2)
    rw [wide_mul_toNat] at g1
    by_cases c1 : r.toNat * 2 ^ w + a2.toNat < q.toNat * b1.toNat
    · rw [if_pos (g1.2 c1), if_pos c1]
      have q1 : 1 ≤ q.toNat := by
        rcases Nat.eq_zero_or_pos q.toNat with h0 | h0
        · rw [h0] at c1; simp at c1
        · exact h0
      have hq1 := sub_one_toNat hw q1
      have ho := uAddO_spec r b0
      have hol := (uAddO r b0).1.isLt
      by_cases c2 : r.toNat + b0.toNat < 2 ^ w
      · rw [if_pos c2]
        have hf : (uAddO r b0).2 = false := by
          cases hh : (uAddO r b0).2
          · rfl
          · rw [hh] at ho; simp at ho; omega
        rw [hf] at ho
        simp only [Bool.toNat_false, Nat.mul_zero, Nat.add_zero] at ho
        have g2 := gtPair_iff (p := wide (q - 1) * wide b1) (r := (uAddO r b0).1) (a := a2)
        rw [wide_mul_toNat, ho, hq1] at g2
        simp only [hf, Bool.not_false, if_true]
        by_cases c3 : (r.toNat + b0.toNat) * 2 ^ w + a2.toNat < (q.toNat - 1) * b1.toNat
        · rw [if_pos (g2.2 c3), if_pos c3]
          have q2 : 1 ≤ (q - 1).toNat := by
            rw [hq1]
            rcases Nat.eq_zero_or_pos (q.toNat - 1) with h0 | h0
            · rw [h0] at c3; simp at c3
            · exact h0
          exact ⟨_, rfl, by rw [sub_one_toNat hw q2, hq1]⟩
        · rw [if_neg (fun h => c3 (g2.1 h)), if_neg c3]
          exact ⟨_, rfl, hq1⟩
      · rw [if_neg c2]
        have hf : (uAddO r b0).2 = true := by
          cases hh : (uAddO r b0).2
          · rw [hh] at ho; simp at ho; omega
          · rfl
        simp only [hf, Bool.not_true, Bool.false_eq_true, if_false]
        exact ⟨_, rfl, hq1⟩
    · rw [if_neg (fun h => c1 (g1.1 h)), if_neg c1]
      exact ⟨_, rfl, rfl⟩
  · have hlt : a0.ult b0 = false := by simpa [BitVec.ult] using h
    rw [if_neg h]
    refine ⟨BitVec.allOnes w, by simp [estimate, hlt], by simp⟩

theorem fullMulLoop_spec (b : BitVec w) (v : Limbs w) (c : BitVec w) :
    (fullMulLoop b v c).length = v.length + 1 ∧
      toNat (fullMulLoop b v c) = toNat v * b.toNat + c.toNat := by
  induction v generalizing c with
  | nil => simp [fullMulLoop]
  | cons a v ih =>
    obtain ⟨h1, h2⟩ := ih (hiLimb (wide a * wide b + wide c))
    refine ⟨by simp [fullMulLoop, h1], ?_⟩
    have h3 := carryingMul_spec a b c
    simp only [carryingMul] at h3
    simp only [fullMulLoop, toNat_cons, h2]
    linear_combination h3

theorem fullMul_spec (v : Limbs w) (b : BitVec w) :
    (fullMul v b).length = v.length + 1 ∧ toNat (fullMul v b) = toNat v * b.toNat := by
  simpa [fullMul] using fullMulLoop_spec b v 0

theorem shift_split {s : Nat} (hs : s ≤ w) (a : BitVec w) :
    (a <<< s).toNat + 2 ^ w * (a >>> (w - s)).toNat = a.toNat * 2 ^ s := by
  rw [BitVec.toNat_shiftLeft, BitVec.toNat_ushiftRight, Nat.shiftLeft_eq, Nat.shiftRight_eq_div_pow]
  have h : 2 ^ w = 2 ^ (w - s) * 2 ^ s := by rw [← Nat.pow_add]; congr 1; omega
  rw [h, Nat.mul_mod_mul_right]
  have := Nat.mod_add_div a.toNat (2 ^ (w - s))
  calc a.toNat % 2 ^ (w - s) * 2 ^ s + 2 ^ (w - s) * 2 ^ s * (a.toNat / 2 ^ (w - s))
      = (a.toNat % 2 ^ (w - s) + 2 ^ (w - s) * (a.toNat / 2 ^ (w - s))) * 2 ^ s := by ring
    _ = a.toNat * 2 ^ s := by rw [this]

theorem or_disj {s : Nat} (hs : s ≤ w) (a b : BitVec w) :
    ((a >>> (w - s)) ||| (b <<< s)).toNat = (a >>> (w - s)).toNat + (b <<< s).toNat := by
  rw [BitVec.toNat_or]
  have h1 : (a >>> (w - s)).toNat < 2 ^ s := by
    rw [BitVec.toNat_ushiftRight, Nat.shiftRight_eq_div_pow]
    apply Nat.div_lt_of_lt_mul
    rw [← Nat.pow_add, show w - s + s = w by omega]
    exact a.isLt
  have h2 : (b <<< s).toNat = (b.toNat % 2 ^ (w - s)) * 2 ^ s := by
    rw [BitVec.toNat_shiftLeft, Nat.shiftLeft_eq,
      show 2 ^ w = 2 ^ (w - s) * 2 ^ s by rw [← Nat.pow_add]; congr 1; omega, Nat.mul_mod_mul_right]
  rw [h2, Nat.or_comm, Nat.mul_comm _ (2 ^ s), ← Nat.two_pow_add_eq_or_of_lt h1, Nat.add_comm]

theorem shlLoop_spec {s : Nat} (hs : s ≤ w) (v : Limbs w) (p : BitVec w) :
    (shlLoop s p v).length = v.length + 1 ∧
      toNat (shlLoop s p v) = toNat v * 2 ^ s + (p >>> (w - s)).toNat := by
  induction v generalizing p with
  | nil => simp [shlLoop]
  | cons a v ih =>
    obtain ⟨h1, h2⟩ := ih a
    refine ⟨by simp [shlLoop, h1], ?_⟩
    simp only [shlLoop, toNat_cons, h2, or_disj hs]
    linear_combination shift_split hs a

theorem fullShl_spec {s : Nat} (hs : s < w) (v : Limbs w) :
    (fullShl v s).length = v.length + 1 ∧ toNat (fullShl v s) = toNat v * 2 ^ s := by
  unfold fullShl
  split
  · subst s; simp [toNat_append]
  · simpa using shlLoop_spec hs.le v 0

theorem shrLoop_spec {s : Nat} (hs : s < w) (v : Limbs w) :
    (shrLoop s v).length = v.length ∧ toNat (shrLoop s v) = toNat v / 2 ^ s := by
  match v with
  | [] => simp [shrLoop]
  | [a] => simp [shrLoop, Nat.shiftRight_eq_div_pow]
  | a :: b :: v =>
    obtain ⟨h1, h2⟩ := shrLoop_spec hs (b :: v)
    refine ⟨by simp [shrLoop, h1], ?_⟩
    rw [shrLoop, toNat_cons, h2, toNat_cons (x := a)]
    have e := or_disj (w := w) (s := w - s) (by omega) a b
    rw [show w - (w - s) = s by omega] at e
    rw [e, BitVec.toNat_shiftLeft, BitVec.toNat_ushiftRight, Nat.shiftLeft_eq,
      Nat.shiftRight_eq_div_pow]
    have hW : 2 ^ w = 2 ^ s * 2 ^ (w - s) := by rw [← Nat.pow_add]; congr 1; omega
    have hb : (toNat (b :: v)) % 2 ^ s = b.toNat % 2 ^ s := by
      rw [toNat_cons, hW, Nat.mul_assoc, Nat.add_mul_mod_self_left]
    have h3 := Nat.div_add_mod (toNat (b :: v)) (2 ^ s)
    rw [hb] at h3
    have h4 : (a.toNat + 2 ^ w * toNat (b :: v)) / 2 ^ s
        = a.toNat / 2 ^ s + 2 ^ (w - s) * toNat (b :: v) := by
      rw [hW, Nat.mul_assoc, Nat.add_mul_div_left _ _ (by positivity)]
    rw [h4]
    have h5 : b.toNat * 2 ^ (w - s) % 2 ^ w = (b.toNat % 2 ^ s) * 2 ^ (w - s) := by
      rw [hW, Nat.mul_mod_mul_right]
    rw [h5]
    have h6 : 2 ^ w * (toNat (b :: v) / 2 ^ s) =
        2 ^ (w - s) * (2 ^ s * (toNat (b :: v) / 2 ^ s)) := by rw [hW]; ring
    rw [h6]
    linear_combination 2 ^ (w - s) * h3

theorem fullShr_spec {s : Nat} (hs : s < w) (a : Limbs w) :
    (fullShr a s).length = a.length - 1 ∧
      toNat (fullShr a s) = toNat (a.take (a.length - 1)) / 2 ^ s := by
  unfold fullShr
  split
  · subst s; simp
  · have := shrLoop_spec hs (a.take (a.length - 1))
    exact ⟨by simpa using this.1, this.2⟩

theorem subLoop_spec (hw : 0 < w) : ∀ (xs ys rest ys' : Limbs w) (c : Bool),
    xs.length = ys.length → ∃ zs c', subLoop xs.length (xs ++ rest) (ys ++ ys') c = (zs ++ rest, c') ∧
      zs.length = xs.length ∧
      toNat zs + toNat ys + c.toNat = toNat xs + 2 ^ (w * xs.length) * c'.toNat
  | [], [], rest, ys', c, _ => by
    refine ⟨[], c, ?_, rfl, by simp⟩
    simp [subLoop]
  | x :: xs, y :: ys, rest, ys', c, h => by
    simp only [List.length_cons, Nat.add_right_cancel_iff] at h
    have h1 := uAddO_spec y (boolLimb w c)
    have h2 := uSubO_spec x (uAddO y (boolLimb w c)).1
    rw [boolLimb_toNat hw] at h1
    obtain ⟨zs, c', e, l, v⟩ := subLoop_spec hw xs ys rest ys'
      ((uAddO y (boolLimb w c)).2 || (uSubO x (uAddO y (boolLimb w c)).1).2) h
    refine ⟨(uSubO x (uAddO y (boolLimb w c)).1).1 :: zs, c', ?_, by simp [l], ?_⟩
    · simp only [List.length_cons, List.cons_append, subLoop, e]
    · simp only [toNat_cons, List.length_cons]
      have hor : ((uAddO y (boolLimb w c)).2 || (uSubO x (uAddO y (boolLimb w c)).1).2).toNat
          = (uAddO y (boolLimb w c)).2.toNat + (uSubO x (uAddO y (boolLimb w c)).1).2.toNat := by
        have hl1 := (uAddO y (boolLimb w c)).1.isLt
        have hl2 := (uSubO x (uAddO y (boolLimb w c)).1).1.isLt
        have hy := y.isLt
        have hx := x.isLt
        have hc : c.toNat ≤ 1 := by cases c <;> simp
        generalize (uAddO y (boolLimb w c)).1.toNat = A at *
        generalize (uSubO x (uAddO y (boolLimb w c)).1).1.toNat = S at *
        generalize (uSubO x (uAddO y (boolLimb w c)).1).2 = f2 at *
        generalize (uAddO y (boolLimb w c)).2 = f1 at *
        generalize 2 ^ w = B at *
        cases f1 <;> cases f2 <;> simp at *
        omega
      rw [hor] at v
      rw [show w * (xs.length + 1) = w + w * xs.length by ring, Nat.pow_add]
      zify at *
      linear_combination -h1 + h2 + 2 ^ w * v

theorem addLoop_spec (hw : 0 < w) : ∀ (xs ys rest ys' : Limbs w) (c : Bool),
    xs.length = ys.length → ∃ zs c',
      addLoop xs.length (xs ++ rest) (ys ++ ys') c = .ok (zs ++ rest, c') ∧
      zs.length = xs.length ∧
      toNat zs + 2 ^ (w * xs.length) * c'.toNat = toNat xs + toNat ys + c.toNat
  | [], [], rest, ys', c, _ => by
    refine ⟨[], c, ?_, rfl, by simp⟩
    simp [addLoop]
  | x :: xs, y :: ys, rest, ys', c, h => by
    simp only [List.length_cons, Nat.add_right_cancel_iff] at h
    have h1 := uAddO_spec y (boolLimb w c)
    have h2 := uAddO_spec x (uAddO y (boolLimb w c)).1
    rw [boolLimb_toNat hw] at h1
    obtain ⟨zs, c', e, l, v⟩ := addLoop_spec hw xs ys rest ys'
      ((uAddO y (boolLimb w c)).2 || (uAddO x (uAddO y (boolLimb w c)).1).2) h
    refine ⟨(uAddO x (uAddO y (boolLimb w c)).1).1 :: zs, c', ?_, by simp [l], ?_⟩
    · simp only [List.length_cons, List.cons_append, addLoop, e, Res.bind_ok]
    · simp only [toNat_cons, List.length_cons]
      have hor : ((uAddO y (boolLimb w c)).2 || (uAddO x (uAddO y (boolLimb w c)).1).2).toNat
          = (uAddO y (boolLimb w c)).2.toNat + (uAddO x (uAddO y (boolLimb w c)).1).2.toNat := by
        have hl1 := (uAddO y (boolLimb w c)).1.isLt
        have hl2 := (uAddO x (uAddO y (boolLimb w c)).1).1.isLt
        have hy := y.isLt
        have hx := x.isLt
        have hc : c.toNat ≤ 1 := by cases c <;> simp
        generalize (uAddO y (boolLimb w c)).1.toNat = A at *
        generalize (uAddO x (uAddO y (boolLimb w c)).1).1.toNat = S at *
        generalize (uAddO x (uAddO y (boolLimb w c)).1).2 = f2 at *
        generalize (uAddO y (boolLimb w c)).2 = f1 at *
        generalize 2 ^ w = B at *
        cases f1 <;> cases f2 <;> simp at *
        omega
      rw [hor] at v
      rw [show w * (xs.length + 1) = w + w * xs.length by ring, Nat.pow_add]
      zify at *
      linear_combination h1 + h2 + 2 ^ w * v

theorem addLoop_panic : ∀ (k : Nat) (xs ys : Limbs w) (c : Bool), ys.length < k →
    addLoop k xs ys c = .panic
  | k + 1, x :: xs, y :: ys, c, h => by
    simp only [List.length_cons, Nat.add_lt_add_iff_right] at h
    simp only [addLoop, addLoop_panic k xs ys _ h, Res.bind_panic]
  | k + 1, [], ys, c, h => by simp [addLoop]
  | k + 1, x :: xs, [], c, h => by simp [addLoop]

end Div

end I256
