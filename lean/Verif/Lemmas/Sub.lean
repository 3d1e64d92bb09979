import Verif.Model.Sub
import Verif.Lemmas.Add

namespace I256

variable {w : Nat}

namespace Sub

theorem overflowingLoop_length (x y : Limbs w) (c : Bool) (h : x.length = y.length) :
    (overflowingLoop x y c).1.length = x.length := by
  induction x generalizing y c with
  | nil => rfl
  | cons a xs ih =>
    cases y with
    | nil => simp at h
    | cons b ys => simp only [overflowingLoop, List.length_cons]; rw [ih]; simpa using h

theorem overflowingLoop_spec (hw : 0 < w) (x y : Limbs w) (c : Bool) (h : x.length = y.length) :
    toNat (overflowingLoop x y c).1 + toNat y + c.toNat
      = toNat x + 2 ^ bits x * (overflowingLoop x y c).2.toNat := by
  induction x generalizing y c with
  | nil => cases y <;> simp_all [overflowingLoop]
  | cons a xs ih =>
    cases y with
    | nil => simp at h
    | cons b ys =>
      have h1 := borrowingSub_spec hw a b c
      have h2 := ih ys (borrowingSub a b c).2 (by simpa using h)
      simp only [overflowingLoop, toNat_cons, pow_bits_cons]
      linear_combination h1 + 2 ^ w * h2

theorem wrappingLoop_eq (x y : Limbs w) (c : Bool) (h : x.length = y.length) :
    wrappingLoop x y c = (overflowingLoop x y c).1 := by
  induction x generalizing y c with
  | nil => cases y <;> rfl
  | cons a xs ih =>
    cases y with
    | nil => simp at h
    | cons b ys =>
      cases xs with
      | nil =>
        cases ys with
        | nil => rfl
        | cons => simp at h
      | cons a' xs =>
        cases ys with
        | nil => simp at h
        | cons b' ys =>
          simp only [wrappingLoop]
          rw [ih _ _ (by simpa using h)]
          rfl

theorem wrappingLoop_length (x y : Limbs w) (c : Bool) (h : x.length = y.length) :
    (wrappingLoop x y c).length = x.length := by
  rw [wrappingLoop_eq _ _ _ h, overflowingLoop_length _ _ _ h]

/-! ### one-limb and m×n operands: the shorter operand may be padded with zeros -/

theorem carryOverflowing_eq (x : Limbs w) (c : Bool) :
    carryOverflowing x c = overflowingLoop x (List.replicate x.length 0) c := by
  induction x generalizing c with
  | nil => rfl
  | cons a xs ih =>
    simp only [carryOverflowing, List.length_cons, List.replicate_succ, overflowingLoop]
    have e : borrowingSub a 0 c = uSubO a (boolLimb w c) := by
      simp [borrowingSub, uSubO, BitVec.usubOverflow, a.isLt]
    rw [e, ih]

theorem carryWrapping_eq (x : Limbs w) (c : Bool) :
    carryWrapping x c = (carryOverflowing x c).1 := by
  induction x generalizing c with
  | nil => rfl
  | cons a xs ih =>
    cases xs with
    | nil => rfl
    | cons b xs => simp only [carryWrapping, ih]; rfl

theorem overflowingMnLoop_eq (x y : Limbs w) (c : Bool) (h : y.length ≤ x.length) :
    overflowingMnLoop x y c
      = overflowingLoop x (y ++ List.replicate (x.length - y.length) 0) c := by
  induction x generalizing y c with
  | nil => cases y <;> simp_all [overflowingMnLoop, overflowingLoop, carryOverflowing]
  | cons a xs ih =>
    cases y with
    | nil => simp only [overflowingMnLoop, carryOverflowing_eq]; simp
    | cons b ys =>
      simp only [overflowingMnLoop, List.cons_append, overflowingLoop]
      rw [ih _ _ (by simpa using h)]
      simp

theorem wrappingMnLoop_eq (x y : Limbs w) (c : Bool) :
    wrappingMnLoop x y c = (overflowingMnLoop x y c).1 := by
  induction x generalizing y c with
  | nil => cases y <;> rfl
  | cons a xs ih =>
    cases y with
    | nil => simp only [wrappingMnLoop, overflowingMnLoop, carryWrapping_eq]
    | cons b ys => simp only [wrappingMnLoop, overflowingMnLoop, ih]

theorem borrowingSub_false (a b : BitVec w) : borrowingSub a b false = uSubO a b := by
  simp [borrowingSub, uSubO, boolLimb, BitVec.usubOverflow]

theorem overflowingLimb_eq (x : Limbs w) (y : BitVec w) (hx : x ≠ []) :
    overflowingLimb x y = overflowingFull x (extU x.length y) := by
  cases x with
  | nil => contradiction
  | cons a xs =>
    simp only [overflowingLimb, overflowingFull, extU, overflowingLoop, borrowingSub_false,
      carryOverflowing_eq]
    simp

theorem wrappingLimb_eq (x : Limbs w) (y : BitVec w) :
    wrappingLimb x y = (overflowingLimb x y).1 := by
  cases x with
  | nil => rfl
  | cons a xs => simp only [wrappingLimb, overflowingLimb, carryWrapping_eq]

/-! ### signed -/

theorem sOverflowingLoop_fst (x y : Limbs w) (c : Bool) (h : x.length = y.length) :
    (sOverflowingLoop x y c).1 = wrappingLoop x y c := by
  induction x generalizing y c with
  | nil => cases y <;> rfl
  | cons a xs ih =>
    cases y with
    | nil => simp at h
    | cons b ys =>
      cases xs with
      | nil =>
        cases ys with
        | nil => rfl
        | cons => simp at h
      | cons a' xs =>
        cases ys with
        | nil => simp at h
        | cons b' ys =>
          simp only [wrappingLoop, sOverflowingLoop]
          rw [ih _ _ (by simpa using h)]

theorem sOverflowingLoop_snd (hw : 1 < w) (x y : Limbs w) (c : Bool) (h : x.length = y.length)
    (hx : x ≠ []) :
    (sOverflowingLoop x y c).2 = true ↔ ¬ InS (bits x) (toInt x - toInt y - c.toNat) := by
  induction x generalizing y c with
  | nil => contradiction
  | cons a xs ih =>
    cases y with
    | nil => simp at h
    | cons b ys =>
      cases xs with
      | nil =>
        cases ys with
        | nil =>
          have := sSubTop hw a b c
          simp only [sOverflowingLoop, toInt_singleton]
          rw [this]
          simp [bits]
        | cons => simp at h
      | cons a' xs =>
        cases ys with
        | nil => simp at h
        | cons b' ys =>
          simp only [sOverflowingLoop]
          rw [ih _ _ (by simpa using h) (by simp)]
          have h1 := borrowingSub_spec (by omega) a b c
          rw [toInt_cons (by omega) a (xs := a' :: xs) (by simp),
            toInt_cons (by omega) b (xs := b' :: ys) (by simp), bits_cons a,
            ← InS_step (w := w) (v := (borrowingSub a b c).1.toNat)
              (bits_pos (by omega) (by simp)) (borrowingSub a b c).1.isLt]
          have h2 : ((borrowingSub a b c).1.toNat : Int) + b.toNat + c.toNat
              = a.toNat + 2 ^ w * ((borrowingSub a b c).2.toNat : Int) := by
            exact_mod_cast h1
          rw [show ((borrowingSub a b c).1.toNat : Int) + 2 ^ w * (toInt (a' :: xs)
            - toInt (b' :: ys) - ((borrowingSub a b c).2.toNat : Int)) =
            ↑a.toNat + 2 ^ w * toInt (a' :: xs) - (↑b.toNat + 2 ^ w * toInt (b' :: ys)) - c.toNat by
            linear_combination h2]

theorem sCarryOverflowing_eq (hw : 1 < w) (x : Limbs w) (c : Bool) (hx : x ≠ []) :
    sCarryOverflowing x c = sOverflowingLoop x (List.replicate x.length 0) c := by
  induction x generalizing c with
  | nil => contradiction
  | cons a xs ih =>
    cases xs with
    | nil =>
      have h : BitVec.ssubOverflow a 0 = false := by
        rw [← Bool.not_eq_true, ssubOverflow_iff (by omega)]
        simpa using bv_InS a
      simp only [sCarryOverflowing, sOverflowingLoop, List.length_cons, List.length_nil,
        List.replicate, sSubO, h]
      simp
    | cons b xs =>
      simp only [sCarryOverflowing, List.length_cons, List.replicate_succ, sOverflowingLoop]
      have e : borrowingSub a 0 c = uSubO a (boolLimb w c) := by
        simp [borrowingSub, uSubO, BitVec.usubOverflow, a.isLt]
      rw [e, ih _ (by simp)]
      simp only [List.length_cons, List.replicate_succ]

theorem sOverflowingULimb_eq (hw : 1 < w) (x : Limbs w) (y : BitVec w) (hx : 2 ≤ x.length) :
    sOverflowingULimb x y = sOverflowingFull x (extU x.length y) := by
  match x, hx with
  | a :: b :: xs, _ =>
    simp only [sOverflowingULimb, sOverflowingFull, extU]
    rw [sCarryOverflowing_eq hw _ _ (by simp)]
    simp [sOverflowingLoop, borrowingSub_false, List.replicate_succ]

end Sub

end I256
