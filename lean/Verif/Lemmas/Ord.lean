import Verif.Model.Ord
import Verif.Lemmas.Add

namespace I256

variable {w : Nat}

theorem append_toNat (hi lo : BitVec w) : (hi ++ lo).toNat = lo.toNat + 2 ^ w * hi.toNat := by
  rw [BitVec.toNat_append, Nat.shiftLeft_eq, ← Nat.shiftLeft_eq,
    ← Nat.shiftLeft_add_eq_or_of_lt lo.isLt, Nat.shiftLeft_eq]
  ring

theorem toWide_length (x : Limbs w) : (toWide x).length = x.length / 2 := by
  fun_induction toWide x <;> simp_all
  · omega
  · rename_i x h
    match x with
    | [] => simp
    | [_] => simp
    | a :: b :: xs => exact absurd rfl (h a b xs)

theorem toWide_toNat (x : Limbs w) (h : x.length % 2 = 0) : toNat (toWide x) = toNat x := by
  fun_induction toWide x with
  | case1 lo hi xs ih =>
    rw [toNat_cons, toNat_cons, toNat_cons, ih (by simp at h; omega), append_toNat, pow_add]
    ring
  | case2 x hx =>
    match x with
    | [] => rfl
    | [_] => simp at h
    | a :: b :: xs => exact absurd rfl (hx a b xs)

theorem toWide_bits (x : Limbs w) (h : x.length % 2 = 0) : bits (toWide x) = bits x := by
  unfold bits
  rw [toWide_length]
  obtain ⟨k, hk⟩ : ∃ k, x.length = 2 * k := ⟨x.length / 2, by omega⟩
  rw [hk]; simp; ring

theorem toWide_toInt (x : Limbs w) (h : x.length % 2 = 0) : toInt (toWide x) = toInt x := by
  unfold toInt; rw [toWide_bits x h, toWide_toNat x h]

theorem toWide_inj {x y : Limbs w} (hl : x.length = y.length) (h : x.length % 2 = 0)
    (he : toWide x = toWide y) : x = y := by
  apply toNat_inj hl
  rw [← toWide_toNat x h, ← toWide_toNat y (by omega), he]

/-- The value of the list from the top: `a :: rest` (most significant first). -/
theorem toNat_concat (x : Limbs w) (a : BitVec w) :
    toNat (x ++ [a]) = toNat x + 2 ^ bits x * a.toNat := by
  rw [toNat_append]; simp

theorem toInt_concat (hw : 0 < w) (x : Limbs w) (a : BitVec w) :
    toInt (x ++ [a]) = toNat x + 2 ^ bits x * a.toInt := by
  induction x with
  | nil => simp [toInt_singleton]
  | cons b x ih =>
    rw [List.cons_append, toInt_cons hw b (by simp), ih, bits_cons, toNat_cons, pow_add]
    push_cast; ring

/-- Signed value as unsigned value minus the weight of the sign. -/
theorem toInt_concat_msb (hw : 0 < w) (x : Limbs w) (a : BitVec w) :
    toInt (x ++ [a]) < 0 ↔ a.msb = true := by
  rw [toInt_concat hw]
  have h1 := toNat_lt_int x
  have h2 : (0:Int) < 2 ^ bits x := by positivity
  rw [BitVec.msb_eq_toInt]
  simp only [decide_eq_true_eq]
  constructor
  · intro h
    by_contra hc
    have : 0 ≤ (2:Int) ^ bits x * a.toInt := mul_nonneg h2.le (by omega)
    omega
  · intro h
    have : (2:Int) ^ bits x * a.toInt ≤ 2 ^ bits x * (-1) :=
      mul_le_mul_of_nonneg_left (by omega) h2.le
    omega

theorem exists_concat {α : Type} {x : List α} (h : x ≠ []) : ∃ l a, x = l ++ [a] :=
  ⟨x.dropLast, x.getLast h, (List.dropLast_concat_getLast h).symm⟩

theorem msLimb_concat (x : Limbs w) (a : BitVec w) : msLimb (x ++ [a]) = a := by
  simp [msLimb, getLimb]

theorem msLimb_msb (hw : 0 < w) (x : Limbs w) (h : x ≠ []) :
    (msLimb x).msb = true ↔ toInt x < 0 := by
  obtain ⟨l, a, rfl⟩ := exists_concat h
  rw [msLimb_concat, toInt_concat_msb hw]

namespace Ord

abbrev unz (l : List (BitVec w × BitVec w)) : Limbs w × Limbs w := (l.map (·.1), l.map (·.2))

/-- Comparison from the top is the comparison of the values (below the first pair). -/
theorem lt_digits {a b : BitVec w} {X Y P : Nat} (hX : X < P) (hY : Y < P) :
    X + P * a.toNat < Y + P * b.toNat ↔ a.toNat < b.toNat ∨ (a.toNat = b.toNat ∧ X < Y) := by
  rcases Nat.lt_trichotomy a.toNat b.toNat with h | h | h
  · have := Nat.mul_le_mul_left P (Nat.succ_le_of_lt h)
    simp only [h, true_or, iff_true]; rw [Nat.mul_succ] at this; omega
  · rw [h]; simp
  · have := Nat.mul_le_mul_left P (Nat.succ_le_of_lt h)
    rw [Nat.mul_succ] at this
    constructor
    · intro h'; omega
    · rintro (h' | ⟨h', _⟩) <;> omega

theorem lt_digits_int {a b X Y P : Int} (hX0 : 0 ≤ X) (hY0 : 0 ≤ Y) (hX : X < P) (hY : Y < P) :
    X + P * a < Y + P * b ↔ a < b ∨ (a = b ∧ X < Y) := by
  have hP : 0 < P := by omega
  rcases lt_trichotomy a b with h | h | h
  · have : P * (a + 1) ≤ P * b := mul_le_mul_of_nonneg_left (by omega) hP.le
    simp only [h, true_or, iff_true]; rw [mul_add] at this; omega
  · rw [h]; simp
  · have : P * (b + 1) ≤ P * a := mul_le_mul_of_nonneg_left (by omega) hP.le
    rw [mul_add] at this
    constructor
    · intro h'; omega
    · rintro (h' | ⟨h', _⟩) <;> omega

theorem ordLoop_lt (l : List (BitVec (w + w) × BitVec (w + w))) (o e : Bool) :
    ordLoop (fun a b => a.ult b) l o e = true ↔
      o = true ∨ (e = true ∧ toNat (l.reverse.map (·.1)) < toNat (l.reverse.map (·.2))) := by
  induction l generalizing o e with
  | nil => simp [ordLoop]
  | cons p l ih =>
    obtain ⟨a, b⟩ := p
    simp only [ordLoop]
    cases o
    · cases e
      · simp
      · simp only [Bool.not_false, Bool.and_self, if_true, ite_self, ih]
        simp only [List.reverse_cons, List.map_append, List.map_cons, List.map_nil,
          Bool.false_eq_true, false_or, true_and, toNat_concat]
        have hb : bits (l.reverse.map (·.1)) = bits (l.reverse.map (·.2)) :=
          bits_eq_of_length (by simp)
        rw [hb, lt_digits (by rw [← hb]; exact toNat_lt _) (toNat_lt _)]
        rw [beq_iff_eq, BitVec.toNat_inj.symm]
        simp [BitVec.ult]
    · simp

theorem ordLoop_le (l : List (BitVec (w + w) × BitVec (w + w))) (o e : Bool) (hl : l ≠ []) :
    ordLoop (fun a b => a.ule b) l o e = true ↔
      o = true ∨ (e = true ∧ toNat (l.reverse.map (·.1)) ≤ toNat (l.reverse.map (·.2))) := by
  induction l generalizing o e with
  | nil => contradiction
  | cons p l ih =>
    obtain ⟨a, b⟩ := p
    simp only [ordLoop]
    cases o
    · cases e
      · simp
      · simp only [Bool.not_false, Bool.and_self, if_true]
        cases l with
        | nil => simp [ordLoop, BitVec.ule]
        | cons q l =>
          rw [ih _ _ (by simp)]
          generalize hq : q :: l = ql at *
          simp only [List.reverse_cons, List.map_append, List.map_cons, List.map_nil,
            Bool.false_eq_true, false_or, true_and, toNat_concat]
          have hb : bits (ql.reverse.map (·.1)) = bits (ql.reverse.map (·.2)) :=
            bits_eq_of_length (by simp)
          have := lt_digits (a := b) (b := a) (X := toNat (ql.reverse.map (·.2)))
            (Y := toNat (ql.reverse.map (·.1))) (P := 2 ^ bits (ql.reverse.map (·.2)))
            (toNat_lt _) (by rw [← hb]; exact toNat_lt _)
          rw [hb]
          conv_rhs => rw [← Nat.not_lt, this]
          rw [← hq, if_neg (by simp), beq_iff_eq, BitVec.toNat_inj.symm]
          simp only [BitVec.ult, decide_eq_true_eq]
          omega
    · simp

theorem hiLt_iff (a b : BitVec (w + w)) :
    (hiLt false a b = true ↔ a.toNat < b.toNat) ∧ (hiLt true a b = true ↔ a.toInt < b.toInt) := by
  simp [hiLt, BitVec.ult, BitVec.slt]

theorem zip_split {x y : Limbs w} (hl : x.length = y.length) (h2 : x.length % 2 = 0)
    (h : 2 ≤ x.length) :
    ∃ (a b : BitVec (w + w)) (l : List (BitVec (w + w) × BitVec (w + w))),
      ((toWide x).zip (toWide y)).reverse = (a, b) :: l ∧
      toWide x = l.reverse.map (·.1) ++ [a] ∧ toWide y = l.reverse.map (·.2) ++ [b] ∧
      l.length + 1 = x.length / 2 := by
  have hx := toWide_length x
  have hy := toWide_length y
  obtain ⟨lx, a, ha⟩ := exists_concat (x := toWide x) (by
    intro h0; rw [h0] at hx; simp at hx; omega)
  obtain ⟨ly, b, hb⟩ := exists_concat (x := toWide y) (by
    intro h0; rw [h0] at hy; simp at hy; omega)
  rw [ha] at hx; rw [hb] at hy
  simp at hx hy
  have hll : lx.length = ly.length := by omega
  refine ⟨a, b, (lx.zip ly).reverse, ?_, ?_, ?_, ?_⟩
  · rw [ha, hb, List.zip_append hll]; simp
  · rw [ha, List.reverse_reverse, List.map_fst_zip (by omega)]
  · rw [hb, List.reverse_reverse, List.map_snd_zip (by omega)]
  · simp; omega

/-- The value compared by the unsigned (`false`) or signed (`true`) types. -/
abbrev val (signed : Bool) (x : Limbs w) : Int := if signed then toInt x else toNat x

theorem val_top (hw : 0 < w) (signed : Bool) {x : Limbs w} (h2 : x.length % 2 = 0)
    {l : Limbs (w + w)} {a : BitVec (w + w)} (hx : toWide x = l ++ [a]) :
    val signed x = toNat l + 2 ^ bits l * (if signed then a.toInt else (a.toNat : Int)) := by
  cases signed
  · simp only [val, Bool.false_eq_true, if_false]
    rw [← toWide_toNat x h2, hx, toNat_concat]; push_cast; rfl
  · simp only [val, if_true]
    rw [← toWide_toInt x h2, hx, toInt_concat (by omega)]

theorem lt_iff (hw : 0 < w) (signed : Bool) {x y : Limbs w} (hl : x.length = y.length)
    (h2 : x.length % 2 = 0) (h : 2 ≤ x.length) :
    lt signed x y = true ↔ val signed x < val signed y := by
  obtain ⟨a, b, l, hz, hx, hy, -⟩ := zip_split hl h2 h
  rw [val_top hw signed h2 hx, val_top hw signed (by omega) hy]
  have hb : bits (l.reverse.map (·.1)) = bits (l.reverse.map (·.2)) :=
    bits_eq_of_length (by simp)
  rw [hb, lt_digits_int (by omega) (by omega) (by rw [← hb]; exact toNat_lt_int _)
    (toNat_lt_int _)]
  unfold lt ordConst
  rw [hz]
  simp only
  rw [ordLoop_lt]
  cases signed
  · rw [(hiLt_iff a b).1, beq_iff_eq, BitVec.toNat_inj.symm]; simp
  · rw [(hiLt_iff a b).2, beq_iff_eq, BitVec.toInt_inj.symm]; simp

theorem le_iff (hw : 0 < w) (signed : Bool) {x y : Limbs w} (hl : x.length = y.length)
    (h2 : x.length % 2 = 0) (h : 4 ≤ x.length) :
    le signed x y = true ↔ val signed x ≤ val signed y := by
  obtain ⟨a, b, l, hz, hx, hy, hlen⟩ := zip_split hl h2 (by omega)
  rw [val_top hw signed h2 hx, val_top hw signed (by omega) hy]
  have hb : bits (l.reverse.map (·.1)) = bits (l.reverse.map (·.2)) :=
    bits_eq_of_length (by simp)
  rw [hb, ← not_lt, lt_digits_int (by omega) (by omega) (toNat_lt_int _)
    (by rw [← hb]; exact toNat_lt_int _)]
  unfold le ordConst
  rw [hz]
  simp only
  rw [ordLoop_le _ _ _ (by intro h0; rw [h0] at hlen; simp at hlen; omega)]
  cases signed
  · rw [(hiLt_iff a b).1, beq_iff_eq, BitVec.toNat_inj.symm]; simp; omega
  · rw [(hiLt_iff a b).2, beq_iff_eq, BitVec.toInt_inj.symm]; simp; omega

theorem foldl_and_eq (l : List (BitVec (w + w) × BitVec (w + w))) (e : Bool) :
    l.foldl (fun isEq p => isEq && p.1 == p.2) e = true ↔
      e = true ∧ l.map (·.1) = l.map (·.2) := by
  induction l generalizing e with
  | nil => simp
  | cons p l ih =>
    simp only [List.foldl_cons, ih, Bool.and_eq_true, beq_iff_eq, List.map_cons, List.cons.injEq]
    tauto

theorem eqConst_iff {x y : Limbs w} (hl : x.length = y.length) (h2 : x.length % 2 = 0) :
    eqConst x y = true ↔ x = y := by
  unfold eqConst
  rw [foldl_and_eq]
  have hx := toWide_length x
  have hy := toWide_length y
  rw [List.map_fst_zip (by omega), List.map_snd_zip (by omega)]
  constructor
  · rintro ⟨-, h⟩; exact toWide_inj hl h2 h
  · rintro rfl; simp

theorem cmpLoop_spec (l : List (BitVec (w + w) × BitVec (w + w))) (e lt gt : Bool) :
    cmpLoop l e lt gt =
      if !lt && !gt && e then
        (decide (toNat (l.reverse.map (·.1)) < toNat (l.reverse.map (·.2))),
          decide (toNat (l.reverse.map (·.2)) < toNat (l.reverse.map (·.1))))
      else (lt, gt) := by
  induction l generalizing e lt gt with
  | nil => cases e <;> cases lt <;> cases gt <;> simp [cmpLoop]
  | cons p l ih =>
    obtain ⟨a, b⟩ := p
    simp only [cmpLoop, ih]
    by_cases hc : (!lt && !gt && e) = true
    · rw [if_pos hc, if_pos hc]
      simp only [List.reverse_cons, List.map_append, List.map_cons, List.map_nil, toNat_concat]
      have hb : bits (l.reverse.map (·.1)) = bits (l.reverse.map (·.2)) :=
        bits_eq_of_length (by simp)
      have h1 := lt_digits (a := a) (b := b) (X := toNat (l.reverse.map (·.1)))
        (Y := toNat (l.reverse.map (·.2))) (P := 2 ^ bits (l.reverse.map (·.2)))
        (by rw [← hb]; exact toNat_lt _) (toNat_lt _)
      have h2 := lt_digits (a := b) (b := a) (X := toNat (l.reverse.map (·.2)))
        (Y := toNat (l.reverse.map (·.1))) (P := 2 ^ bits (l.reverse.map (·.2)))
        (toNat_lt _) (by rw [← hb]; exact toNat_lt _)
      rw [hb]
      simp only [h1, h2]
      simp only [BitVec.ult]
      by_cases hab : a = b
      · subst hab; simp
      · have : a.toNat ≠ b.toNat := fun h => hab (BitVec.eq_of_toNat_eq h)
        have h3 : (a == b) = false := by simp [hab]
        rw [h3]
        simp [this, this.symm]
    · rw [if_neg hc, if_neg hc]

theorem cmp_iff (hw : 0 < w) (signed : Bool) {x y : Limbs w} (hl : x.length = y.length)
    (h2 : x.length % 2 = 0) (h : 2 ≤ x.length) :
    cmp signed x y = compare (val signed x) (val signed y) := by
  obtain ⟨a, b, l, hz, hx, hy, -⟩ := zip_split hl h2 h
  rw [val_top hw signed h2 hx, val_top hw signed (by omega) hy]
  have hb : bits (l.reverse.map (·.1)) = bits (l.reverse.map (·.2)) :=
    bits_eq_of_length (by simp)
  rw [hb]
  have hX := toNat_lt_int (l.reverse.map (·.1))
  have hY := toNat_lt_int (l.reverse.map (·.2))
  rw [hb] at hX
  have h1 := fun p q : Int => lt_digits_int (a := p) (b := q) (X := toNat (l.reverse.map (·.1)))
        (Y := toNat (l.reverse.map (·.2))) (P := 2 ^ bits (l.reverse.map (·.2)))
        (by omega) (by omega) hX hY
  have h1' := fun p q : Int => lt_digits_int (a := q) (b := p) (X := toNat (l.reverse.map (·.2)))
        (Y := toNat (l.reverse.map (·.1))) (P := 2 ^ bits (l.reverse.map (·.2)))
        (by omega) (by omega) hY hX
  unfold cmp
  rw [hz]
  simp only [cmpLoop_spec]
  rw [Int.compare_eq_ite_lt]
  simp only [h1, h1']
  have hba : a = b ↔ (if signed then a.toInt else (a.toNat : Int))
      = (if signed then b.toInt else (b.toNat : Int)) := by
    cases signed
    · simp [BitVec.toNat_inj]
    · simp [BitVec.toInt_inj]
  have hA : hiLt signed a b = true ↔ (if signed then a.toInt else (a.toNat : Int))
      < (if signed then b.toInt else (b.toNat : Int)) := by
    cases signed
    · simp [(hiLt_iff a b).1]
    · simp [(hiLt_iff a b).2]
  have hB : hiLt signed b a = true ↔ (if signed then b.toInt else (b.toNat : Int))
      < (if signed then a.toInt else (a.toNat : Int)) := by
    cases signed
    · simp [(hiLt_iff b a).1]
    · simp [(hiLt_iff b a).2]
  generalize (if signed then a.toInt else (a.toNat : Int)) = A at *
  generalize (if signed then b.toInt else (b.toNat : Int)) = B at *
  rcases lt_trichotomy A B with hab | hab | hab
  · have e1 : hiLt signed a b = true := hA.2 hab
    simp [e1, hab]
  · have e1 : hiLt signed a b = false := by rw [← Bool.not_eq_true, hA]; omega
    have e2 : hiLt signed b a = false := by rw [← Bool.not_eq_true, hB]; omega
    have e3 : (a == b) = true := by simpa using hba.2 hab
    rw [e1, e2, e3]
    simp [hab]
  · have e1 : hiLt signed a b = false := by rw [← Bool.not_eq_true, hA]; omega
    have e2 : hiLt signed b a = true := hB.2 hab
    have h3 : ¬ A < B := by omega
    have h4 : A ≠ B := by omega
    simp [e1, e2, hab, h3, h4]

end Ord

end I256
