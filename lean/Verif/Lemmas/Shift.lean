import Verif.Model.Shift
import Verif.Lemmas.Bitops

/-! Values computed by the shift kernels. -/

namespace I256

variable {w W : Nat}

/-! ### Joining and splitting limbs -/

theorem fromWide_length (v : List (BitVec (w + w))) : (fromWide v).length = 2 * v.length := by
  induction v with
  | nil => rfl
  | cons a v ih => simp [fromWide, ih]; omega

theorem fromWide_toNat (v : List (BitVec (w + w))) : toNat (fromWide v) = toNat v := by
  induction v with
  | nil => rfl
  | cons a v ih =>
    have := lo_hi a
    simp only [fromWide, toNat_cons, ih, Nat.pow_add]
    rw [← this]; ring

theorem fromWide_bits (v : List (BitVec (w + w))) : bits (fromWide v) = bits v := by
  simp only [bits, fromWide_length]; ring

theorem fromWide_toInt (v : List (BitVec (w + w))) : toInt (fromWide v) = toInt v := by
  simp only [toInt, fromWide_toNat, fromWide_bits]

/-! ### Splitting the amount -/

theorem limbN_eq {k : Nat} (hk : W = 2 ^ k) (s : Nat) : Shift.limbN W s = s / W := by
  rw [Shift.limbN, hk, Nat.log2_two_pow, Nat.shiftRight_eq_div_pow]

theorem bitsN_eq {k : Nat} (hk : W = 2 ^ k) (s : Nat) : Shift.bitsN W s = s % W := by
  rw [Shift.bitsN, hk, Nat.and_two_pow_sub_one_eq_mod]

theorem toNat_take (x : Limbs W) (n : Nat) (h : n ≤ x.length) :
    toNat (x.take n) = toNat x % 2 ^ (W * n) := by
  have h1 : toNat x = toNat (x.take n) + 2 ^ (W * n) * toNat (x.drop n) := by
    conv_lhs => rw [← List.take_append_drop n x, toNat_append]
    rw [bits, List.length_take, Nat.min_eq_left h]
  have h2 : toNat (x.take n) < 2 ^ (W * n) := by
    have := toNat_lt (x.take n)
    rwa [bits, List.length_take, Nat.min_eq_left h] at this
  rw [h1, Nat.add_mul_mod_self_left, Nat.mod_eq_of_lt h2]

/-! ### Left shift -/

theorem shl_or_toNat {b c : Nat} (x C : BitVec W) (hb : b < W) (hc : C.toNat = c)
    (hlt : c < 2 ^ b) :
    (shlN x b ||| C).toNat + 2 ^ W * (x.toNat / 2 ^ (W - b)) = x.toNat * 2 ^ b + c := by
  have hx := x.isLt
  have hsplit : 2 ^ W = 2 ^ b * 2 ^ (W - b) := by rw [← Nat.pow_add]; congr 1; omega
  rw [shlN, Nat.mod_eq_of_lt hb, BitVec.toNat_or, hc, BitVec.toNat_shiftLeft, Nat.shiftLeft_eq,
    Nat.mul_comm x.toNat, hsplit, Nat.mul_mod_mul_left, ← Nat.two_pow_add_eq_or_of_lt hlt]
  have := Nat.mod_add_div x.toNat (2 ^ (W - b))
  calc _ = 2 ^ b * (x.toNat % 2 ^ (W - b) + 2 ^ (W - b) * (x.toNat / 2 ^ (W - b))) + c := by ring
    _ = _ := by rw [this]

theorem leftLoop_length (b inv : Nat) (x : Limbs W) (c : BitVec W) :
    (Shift.leftLoop b inv x c).length = x.length := by
  induction x generalizing c with
  | nil => rfl
  | cons a x ih => simp [Shift.leftLoop, ih]

theorem leftLoop_toNat {b : Nat} (hb : b < W) (h0 : b ≠ 0) (x : Limbs W) (c : BitVec W)
    (hc : c.toNat < 2 ^ b) :
    ∃ q, toNat (Shift.leftLoop b (W - b) x c) + 2 ^ bits x * q = toNat x * 2 ^ b + c.toNat := by
  induction x generalizing c with
  | nil => exact ⟨c.toNat, by simp [Shift.leftLoop]⟩
  | cons a x ih =>
    have hcar : (shrN a (W - b)).toNat = a.toNat / 2 ^ (W - b) := by
      rw [shrN, Nat.mod_eq_of_lt (by omega), BitVec.toNat_ushiftRight, Nat.shiftRight_eq_div_pow]
    have hlt : (shrN a (W - b)).toNat < 2 ^ b := by
      rw [hcar, Nat.div_lt_iff_lt_mul (by positivity), ← Nat.pow_add]
      have := a.isLt
      rwa [show b + (W - b) = W by omega]
    obtain ⟨q, hq⟩ := ih _ hlt
    refine ⟨q, ?_⟩
    have h1 := shl_or_toNat a c hb rfl hc
    rw [Shift.leftLoop, toNat_cons, toNat_cons, pow_bits_cons]
    rw [hcar] at hq
    calc _ = (shlN a b ||| c).toNat
          + 2 ^ W * (toNat (Shift.leftLoop b (W - b) x (shrN a (W - b))) + 2 ^ bits x * q) := by ring
      _ = ((shlN a b ||| c).toNat + 2 ^ W * (a.toNat / 2 ^ (W - b)))
          + 2 ^ W * (toNat x * 2 ^ b) := by rw [hq]; ring
      _ = _ := by rw [h1]; ring

theorem shlN_zero (x : BitVec W) : shlN x 0 = x := by simp [shlN]
theorem shrN_zero (x : BitVec W) : shrN x 0 = x := by simp [shrN]

/-- The general branch of `left`. -/
theorem leftGen_spec {k : Nat} (hk : W = 2 ^ k) (x : Limbs W) {s : Nat} (hs : s < bits x)
    {r : Limbs W}
    (hr : r = if s % W ≠ 0 then
        List.replicate (s / W) 0 ++ Shift.leftLoop (s % W) (W - s % W) (x.take (x.length - s / W)) 0
      else List.replicate (s / W) 0 ++ x.take (x.length - s / W)) :
    r.length = x.length ∧ toNat r = toNat x * 2 ^ s % 2 ^ bits x := by
  have hW : 0 < W := by rw [hk]; positivity
  have hl : s / W < x.length := by
    rw [Nat.div_lt_iff_lt_mul hW, Nat.mul_comm]; exact hs
  have hsw : W * (s / W) + s % W = s := Nat.div_add_mod s W
  have hbits : bits x = W * (s / W) + W * (x.length - s / W) := by
    rw [bits, ← Nat.mul_add]; congr 1; omega
  have htl : (x.take (x.length - s / W)).length = x.length - s / W := by simp
  have key : ∀ v : Limbs W, toNat v = toNat x * 2 ^ (s % W) % 2 ^ (W * (x.length - s / W)) →
      toNat (List.replicate (s / W) (0 : BitVec W) ++ v) = toNat x * 2 ^ s % 2 ^ bits x := by
    intro v hv
    rw [toNat_append, toNat_replicate_zero, bits_replicate, hv, hbits, Nat.pow_add,
      Nat.zero_add, ← Nat.mul_mod_mul_left]
    congr 1
    conv_rhs => rw [← hsw, Nat.pow_add]
    ring
  split at hr <;> subst hr
  · rename_i hb
    refine ⟨by rw [List.length_append, leftLoop_length, htl, List.length_replicate]; omega,
      key _ ?_⟩
    obtain ⟨q, hq⟩ := leftLoop_toNat (Nat.mod_lt s hW) hb (x.take (x.length - s / W)) 0
      (by simp)
    have hlt := toNat_lt (Shift.leftLoop (s % W) (W - s % W) (x.take (x.length - s / W)) 0)
    rw [bits, leftLoop_length, htl] at hlt
    rw [bits, htl, toNat_take _ _ (Nat.sub_le _ _)] at hq
    simp only [BitVec.ofNat_eq_ofNat, BitVec.toNat_ofNat, Nat.zero_mod, Nat.add_zero] at hq
    rw [← Nat.mod_eq_of_lt hlt, Nat.mul_mod, ← Nat.mod_mod (toNat x), ← Nat.mul_mod, ← hq,
      Nat.add_mul_mod_self_left]
    rfl
  · rename_i hb
    push Not at hb
    refine ⟨by simp; omega, key _ ?_⟩
    rw [toNat_take _ _ (Nat.sub_le _ _), hb]; simp

theorem left_spec {k : Nat} (hk : W = 2 ^ k) (x : Limbs W) {s : Nat} (hs : s < bits x) :
    (Shift.left x s).length = x.length ∧ toNat (Shift.left x s) = toNat x * 2 ^ s % 2 ^ bits x := by
  have hW : 0 < W := by rw [hk]; positivity
  refine leftGen_spec hk x hs ?_
  unfold Shift.left
  rw [limbN_eq hk, bitsN_eq hk]
  dsimp only
  split
  · rename_i x0 x1
    have h2 : s / W < 2 := by
      rw [Nat.div_lt_iff_lt_mul hW]; rw [bits] at hs; simp at hs; omega
    have hsw : W * (s / W) + s % W = s := Nat.div_add_mod s W
    obtain h | h : s / W = 0 ∨ s / W = 1 := by
      generalize s / W = q at h2; omega
    · rw [h] at hsw
      by_cases hb : s % W = 0
      · have : s = 0 := by omega
        subst this
        simp
      · have : s ≠ 0 := by rintro rfl; simp at hb
        simp [h, hb, this, Shift.leftLoop]
    · by_cases hb : s % W = 0 <;> simp [h, hb, Shift.leftLoop, shlN_zero]
  · rfl

/-! ### Right shift -/

theorem val_cons (hW : 0 < W) (signed : Bool) (a : BitVec W) {x : Limbs W} (hx : x ≠ []) :
    Ord.val signed (a :: x) = a.toNat + 2 ^ W * Ord.val signed x := by
  cases signed
  · simp [Ord.val]
  · simp only [Ord.val, if_true]; exact toInt_cons hW a hx

theorem val_drop (hW : 0 < W) (signed : Bool) (x : Limbs W) {n : Nat} (h : n < x.length) :
    Ord.val signed (x.drop n) = Ord.val signed x / 2 ^ (W * n) := by
  induction n generalizing x with
  | zero => simp
  | succ n ih =>
    cases x with
    | nil => simp at h
    | cons a x =>
      have hx : x ≠ [] := by rintro rfl; simp at h
      simp only [List.length_cons] at h
      rw [List.drop_succ_cons, ih x (by omega), val_cons hW signed a hx, Nat.mul_succ,
        Nat.add_comm, pow_add, ← Int.ediv_ediv_of_nonneg (by positivity),
        Int.add_mul_ediv_left _ _ (by positivity),
        Int.ediv_eq_zero_of_lt (by omega) (bv_lt_int a), Int.zero_add]

theorem toInt_append_fill (hW : 0 < W) {x : Limbs W} (hx : x ≠ []) (n : Nat) (F : BitVec W)
    (hF : F = if toInt x < 0 then BitVec.allOnes W else 0) :
    toInt (x ++ List.replicate n F) = toInt x := by
  induction n with
  | zero => simp
  | succ n ih =>
    rw [List.replicate_succ', ← List.append_assoc, toInt_concat hW]
    have hy : x ++ List.replicate n F ≠ [] := by simp [hx]
    have h1 := toInt_eq_sub hW hy
    rw [ih] at h1
    have hFi : F.toInt = if toInt x < 0 then -1 else 0 := by
      rw [hF]; split
      · simp [BitVec.toInt_allOnes, hW]
      · simp
    rw [hFi]
    have hneg := isNegative_iff hW hy
    rw [ih] at hneg
    simp only [hneg] at h1
    split
    · rename_i hn
      rw [if_pos hn] at h1; rw [h1]; ring
    · rename_i hn
      rw [if_neg hn] at h1; rw [h1]; ring

theorem rightLoop_snoc (signed : Bool) (b inv : Nat) (f : Bool) (l : Limbs W) (y a c : BitVec W) :
    Shift.rightLoop signed b inv f (l ++ [y, a]) c =
      Shift.rightLoop signed b inv f (l ++ [y]) c ++ [shrN a b ||| shlN y inv] := by
  induction l generalizing f c with
  | nil => simp [Shift.rightLoop]
  | cons z l ih => simp [Shift.rightLoop, ih]

theorem rightLoop_length (signed : Bool) (b inv : Nat) (f : Bool) (l : Limbs W) (c : BitVec W) :
    (Shift.rightLoop signed b inv f l c).length = l.length := by
  induction l generalizing f c with
  | nil => rfl
  | cons z l ih => simp [Shift.rightLoop, ih]

theorem shrN_toNat {b : Nat} (hb : b < W) (x : BitVec W) : (shrN x b).toNat = x.toNat / 2 ^ b := by
  rw [shrN, Nat.mod_eq_of_lt hb, BitVec.toNat_ushiftRight, Nat.shiftRight_eq_div_pow]

theorem sshrN_toInt {b : Nat} (hb : b < W) (x : BitVec W) : (sshrN x b).toInt = x.toInt / 2 ^ b := by
  rw [sshrN, Nat.mod_eq_of_lt hb, BitVec.toInt_sshiftRight, Int.shiftRight_eq_div_pow]
  push_cast; rfl

theorem shr_or_toNat {b : Nat} (hb : b < W) (h0 : b ≠ 0) (a y : BitVec W) :
    (shrN a b ||| shlN y (W - b)).toNat = a.toNat / 2 ^ b + 2 ^ (W - b) * (y.toNat % 2 ^ b) := by
  have ha := a.isLt
  have hsplit : 2 ^ W = 2 ^ (W - b) * 2 ^ b := by rw [← Nat.pow_add]; congr 1; omega
  have hlt : a.toNat / 2 ^ b < 2 ^ (W - b) := by
    rw [Nat.div_lt_iff_lt_mul (by positivity), ← hsplit]; exact ha
  rw [BitVec.toNat_or, shrN_toNat hb, shlN, Nat.mod_eq_of_lt (by omega), BitVec.toNat_shiftLeft,
    Nat.shiftLeft_eq, Nat.mul_comm y.toNat, hsplit, Nat.mul_mod_mul_left, Nat.or_comm,
    ← Nat.two_pow_add_eq_or_of_lt hlt, Nat.add_comm]

theorem val_emod (hW : 0 < W) (signed : Bool) (y : BitVec W) (x : Limbs W) {b : Nat} (hb : b ≤ W) :
    Ord.val signed (y :: x) % 2 ^ b = ((y.toNat % 2 ^ b : Nat) : Int) := by
  have hd : ((2:Int) ^ b) ∣ 2 ^ W := pow_dvd_pow 2 hb
  by_cases hx : x = []
  · subst hx
    cases signed
    · simp [Ord.val]
    · simp only [Ord.val, if_true, toInt_singleton]
      rw [bv_toInt_eq]
      push_cast
      split
      · rw [Int.sub_emod, Int.emod_eq_zero_of_dvd hd]; simp
      · simp
  · rw [val_cons hW signed y hx, Int.add_emod, Int.mul_emod, Int.emod_eq_zero_of_dvd hd]
    push_cast; simp

theorem rightLoop_val {b : Nat} (hb : b < W) (h0 : b ≠ 0) (signed : Bool) {x : Limbs W}
    (hx : x ≠ []) :
    Ord.val signed (Shift.rightLoop signed b (W - b) true x.reverse 0).reverse =
      Ord.val signed x / 2 ^ b := by
  have hW : 0 < W := by omega
  induction x with
  | nil => simp at hx
  | cons a x ih =>
    cases x with
    | nil =>
      cases signed
      · simp [Shift.rightLoop, Ord.val, shrN_toNat hb]
      · simp [Shift.rightLoop, Ord.val, toInt_singleton, sshrN_toInt hb]
    | cons y x =>
      have ih := ih (by simp)
      rw [List.reverse_cons, List.reverse_cons, List.append_assoc, List.cons_append,
        List.nil_append, rightLoop_snoc, List.reverse_append, List.reverse_singleton,
        List.singleton_append, val_cons hW, val_cons hW signed a (by simp)]
      · rw [List.reverse_cons] at ih
        rw [ih, shr_or_toNat hb h0]
        have hm := val_emod hW signed y x hb.le
        have hsplit : (2:Int) ^ W = 2 ^ b * 2 ^ (W - b) := by rw [← pow_add]; congr 1; omega
        generalize Ord.val signed (y :: x) = V at *
        have hV := Int.emod_add_mul_ediv V (2 ^ b)
        have e : (a.toNat : Int) + 2 ^ W * V = a.toNat + 2 ^ b * (2 ^ (W - b) * V) := by
          rw [hsplit]; ring
        rw [e, Int.add_mul_ediv_left _ _ (by positivity)]
        push_cast at hm ⊢
        rw [← hm]
        conv_rhs => rw [← hV]
        rw [hsplit]; ring
      · intro h
        have := congrArg List.length h
        simp [rightLoop_length] at this

/-- The general branch of `right`. -/
theorem rightGen_spec {k : Nat} (hk : W = 2 ^ k) (signed : Bool) (x : Limbs W) {s : Nat}
    (hs : s < bits x) {r : Limbs W}
    (hr : r = if s % W ≠ 0 then
        (Shift.rightLoop signed (s % W) (W - s % W) true (x.drop (s / W)).reverse 0).reverse ++
          List.replicate (s / W) (if signed && (msLimb x).slt 0 then BitVec.allOnes W else 0)
      else x.drop (s / W) ++
        List.replicate (s / W) (if signed && (msLimb x).slt 0 then BitVec.allOnes W else 0)) :
    r.length = x.length ∧ Ord.val signed r = Ord.val signed x / 2 ^ s := by
  have hW : 0 < W := by rw [hk]; positivity
  have hl : s / W < x.length := by
    rw [Nat.div_lt_iff_lt_mul hW, Nat.mul_comm]; exact hs
  have hsw : W * (s / W) + s % W = s := Nat.div_add_mod s W
  have hx0 : x ≠ [] := by rintro rfl; simp at hl
  have hd : x.drop (s / W) ≠ [] := by
    intro h; have := congrArg List.length h; simp at this
    generalize s / W = q at *; omega
  have key : ∀ v : Limbs W, v ≠ [] → Ord.val signed v = Ord.val signed x / 2 ^ s →
      Ord.val signed (v ++ List.replicate (s / W)
        (if signed && (msLimb x).slt 0 then BitVec.allOnes W else 0)) =
        Ord.val signed x / 2 ^ s := by
    intro v hv0 hv
    cases signed
    · simp only [Ord.val, Bool.false_eq_true, if_false, Bool.false_and] at hv ⊢
      rw [toNat_append, toNat_replicate_zero, Nat.mul_zero, Nat.add_zero, hv]
    · simp only [Ord.val, if_true, Bool.true_and] at hv ⊢
      rw [toInt_append_fill hW hv0 _ _ ?_, hv]
      have hn := isNegative_iff hW hx0
      rw [I.isNegative] at hn
      simp only [hn, hv]
      congr 1
      rw [eq_iff_iff]
      have hp : (0:Int) < 2 ^ s := by positivity
      constructor
      · intro h; exact Int.ediv_neg_of_neg_of_pos h hp
      · intro h
        by_contra hc
        have := Int.ediv_nonneg (a := toInt x) (by omega) hp.le
        omega
  split at hr <;> subst hr
  · rename_i hb
    refine ⟨?_, key _ ?_ ?_⟩
    · rw [List.length_append, List.length_reverse, rightLoop_length, List.length_reverse,
        List.length_drop, List.length_replicate]
      omega
    · intro h
      have := congrArg List.length h
      simp only [List.length_reverse, rightLoop_length, List.length_nil, List.length_eq_zero_iff]
        at this
      exact hd this
    · rw [rightLoop_val (Nat.mod_lt s hW) hb signed hd, val_drop hW signed x hl,
        Int.ediv_ediv_of_nonneg (by positivity), ← pow_add, hsw]
  · rename_i hb
    push Not at hb
    refine ⟨by simp; omega, key _ hd ?_⟩
    rw [val_drop hW signed x hl]
    rw [hb, Nat.add_zero] at hsw
    rw [hsw]

theorem right_spec {k : Nat} (hk : W = 2 ^ k) (signed : Bool) (x : Limbs W) {s : Nat}
    (hs : s < bits x) :
    (Shift.right signed x s).length = x.length ∧
      Ord.val signed (Shift.right signed x s) = Ord.val signed x / 2 ^ s := by
  have hW : 0 < W := by rw [hk]; positivity
  refine rightGen_spec hk signed x hs ?_
  unfold Shift.right
  rw [limbN_eq hk, bitsN_eq hk]
  dsimp only
  split
  · rename_i x0 x1
    have h2 : s / W < 2 := by
      rw [Nat.div_lt_iff_lt_mul hW]; rw [bits] at hs; simp at hs; omega
    obtain h | h : s / W = 0 ∨ s / W = 1 := by
      generalize s / W = q at h2; omega
    · by_cases hb : s % W = 0
      · simp [h, hb]
      · cases signed <;> simp [h, hb, Shift.rightLoop]
    · have hm : msLimb [x0, x1] = x1 := rfl
      have hs1 : sshrN x1 (W - 1) = if x1.slt 0 then BitVec.allOnes W else 0 := by
        apply BitVec.eq_of_toInt_eq
        have hi := bv_InS x1
        rw [sshrN_toInt (by omega)]
        have hp := two_pow_pred hW
        have hneg : x1.slt 0 = true ↔ x1.toInt < 0 := by rw [BitVec.slt_iff_toInt_lt]; simp
        simp only [hneg]
        unfold InS at hi
        rw [hp] at hi
        split
        · rw [BitVec.toInt_allOnes, if_pos hW]
          generalize (2:Int) ^ (W - 1) = P at *
          rw [Int.ediv_eq_iff_of_pos (by omega)]; omega
        · simp
          rw [Int.ediv_eq_zero_of_lt (by omega) (by omega)]
      by_cases hb : s % W = 0
      · cases signed
        · simp [h, hb, shrN_zero]
        · have : sshrN x1 0 = x1 := by simp [sshrN]
          simp [h, hb, hm, hs1, this]
      · cases signed
        · simp [h, hb, Shift.rightLoop]
        · simp [h, hb, hm, hs1, Shift.rightLoop]
  · rfl

end I256
