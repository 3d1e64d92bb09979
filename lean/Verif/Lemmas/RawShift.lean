import Verif.Lemmas.RawRun
import Verif.Lemmas.RawMul
import Verif.Lemmas.Shift
import Verif.Model.RawShift

/-!
# The literal shifts and rotations compute what the functional model computes
-/

namespace I256

variable {W : Nat}

namespace Raw

variable {α σ : Type}

theorem shl_ok (a : BitVec W) {s : Nat} (h : s < W) : shl a s = .ok (shlN a s) := by
  rw [shl, if_pos h, shlN, Nat.mod_eq_of_lt h]
theorem shr_ok (a : BitVec W) {s : Nat} (h : s < W) : shr a s = .ok (shrN a s) := by
  rw [shr, if_pos h, shrN, Nat.mod_eq_of_lt h]
theorem sar_ok (a : BitVec W) {s : Nat} (h : s < W) : sar a s = .ok (sshrN a s) := by
  rw [sar, if_pos h, sshrN, Nat.mod_eq_of_lt h]

/-- The limbs that a loop with decreasing index produces, from `i + k - 1` down to `i`. -/
def emitD (f : Nat → σ → α × σ) : Nat → Nat → σ → List α × σ
  | 0, _, s => ([], s)
  | k + 1, i, s =>
    let r := emitD f k i (f (i + k) s).2
    (r.1 ++ [(f (i + k) s).1], r.2)

theorem emitD_length (f : Nat → σ → α × σ) (k i : Nat) (s : σ) : (emitD f k i s).1.length = k := by
  induction k generalizing s with
  | zero => rfl
  | succ k ih => simp [emitD, ih]

theorem emitD_congr {f g : Nat → σ → α × σ} (k i : Nat) (s : σ)
    (h : ∀ j s, i ≤ j → j < i + k → f j s = g j s) : emitD f k i s = emitD g k i s := by
  induction k generalizing s with
  | zero => rfl
  | succ k ih =>
    simp only [emitD, h (i + k) s (by omega) (by omega)]
    rw [ih _ fun j s h1 h2 => h j s (by omega) (by omega)]

/-- A loop with decreasing index `i` that writes `result[i - l]`. -/
theorem loop_emitD (be : Bool) (f : Nat → σ → α × σ) (l : Nat)
    {body : Nat × List α × σ → Res (Nat × List α × σ)} {hi : Nat}
    (hb : ∀ i s R, l ≤ i → i < hi → i - l < R.length →
      body (i + 1, mem be R, s) = .ok (i, mem be (R.set (i - l) (f i s).1), (f i s).2))
    (k fuel : Nat) (front back : List α) (s : σ) (hk : front.length = k) (hf : k ≤ fuel)
    (hh : l + k ≤ hi) :
    loop fuel (fun t => decide (t.1 > l)) body (l + k, mem be (front ++ back), s) =
      .ok (l, mem be ((emitD f k l s).1 ++ back), (emitD f k l s).2) := by
  induction k generalizing fuel front back s with
  | zero =>
    rw [loop_done (by simp)]
    have : front = [] := List.length_eq_zero_iff.1 hk
    simp [emitD, this]
  | succ k ih =>
    obtain ⟨fuel, rfl⟩ : ∃ n, fuel = n + 1 := ⟨fuel - 1, by omega⟩
    obtain ⟨front, z, rfl⟩ : ∃ f z, front = f ++ [z] := by
      have : front ≠ [] := by intro h; simp [h] at hk
      exact ⟨front.dropLast, front.getLast this, (List.dropLast_concat_getLast this).symm⟩
    simp only [List.length_append, List.length_cons, List.length_nil] at hk
    rw [show l + (k + 1) = l + k + 1 from rfl,
      loop_step (by simp; omega) (hb (l + k) s _ (by omega) (by omega) (by simp; omega))]
    have e : (front ++ [z] ++ back).set (l + k - l) (f (l + k) s).1 =
        front ++ (f (l + k) s).1 :: back := by
      rw [show l + k - l = front.length by omega]
      simp
    rw [e, ih fuel front _ _ (by omega) (by omega) (by omega)]
    simp [emitD]

theorem two_of_length {x : List α} (h : x.length = 2) : ∃ a b, x = [a, b] :=
  match x, h with
  | [a, b], _ => ⟨a, b, rfl⟩

/-- Writing both elements of an array of two. -/
theorem wr_two (be : Bool) (z a b : α) :
    (wr be (List.replicate (0 + 1 + 1) z) 0 a >>= fun r => wr be r 1 b) = .ok (mem be [a, b]) := by
  cases be <;> rfl

namespace Shift

theorem left_ne_two {x : Limbs W} (h : ¬ x.length = 2) (shift : Nat) :
    I256.Shift.left x shift = if I256.Shift.bitsN W shift ≠ 0 then
      List.replicate (I256.Shift.limbN W shift) 0 ++ I256.Shift.leftLoop (I256.Shift.bitsN W shift)
        (W - I256.Shift.bitsN W shift) (x.take (x.length - I256.Shift.limbN W shift)) 0
    else List.replicate (I256.Shift.limbN W shift) 0 ++
      x.take (x.length - I256.Shift.limbN W shift) := by
  match x, h with
  | [], _ => rfl
  | [_], _ => rfl
  | [a, b], h => simp at h
  | _ :: _ :: _ :: _, _ => rfl

theorem right_ne_two (signed : Bool) {x : Limbs W} (h : ¬ x.length = 2) (shift : Nat) :
    I256.Shift.right signed x shift =
      let fill : BitVec W := if signed && (msLimb x).slt 0 then BitVec.allOnes W else 0
      if I256.Shift.bitsN W shift ≠ 0 then
        (I256.Shift.rightLoop signed (I256.Shift.bitsN W shift) (W - I256.Shift.bitsN W shift) true
          (x.drop (I256.Shift.limbN W shift)).reverse 0).reverse ++
            List.replicate (I256.Shift.limbN W shift) fill
      else x.drop (I256.Shift.limbN W shift) ++ List.replicate (I256.Shift.limbN W shift) fill := by
  match x, h with
  | [], _ => rfl
  | [_], _ => rfl
  | [a, b], h => simp at h
  | _ :: _ :: _ :: _, _ => rfl

theorem bitsN_lt (hW : 0 < W) (s : Nat) : s &&& (W - 1) < W := by
  have : s &&& (W - 1) ≤ W - 1 := Nat.and_le_right
  omega

theorem emit_left (x : Limbs W) (b inv l : Nat) (k i : Nat) (c : BitVec W)
    (h : i + k ≤ x.length) :
    (emit (fun i c => (shlN (getLimb x (i - l)) b ||| c, shrN (getLimb x (i - l)) inv)) k (l + i) c).1 =
      I256.Shift.leftLoop b inv ((x.drop i).take k) c := by
  induction k generalizing i c with
  | zero => simp [emit, I256.Shift.leftLoop]
  | succ k ih =>
    have hi := ih (i + 1) (shrN (getLimb x i) inv) (by omega)
    rw [drop_getLimb (by omega : i < x.length), List.take_succ_cons, I256.Shift.leftLoop, ← hi]
    simp [emit, Nat.add_assoc]

theorem emit_copy (x : Limbs W) (l : Nat) (k i : Nat) (h : i + k ≤ x.length) :
    (emit (fun i (_ : Unit) => (getLimb x (i - l), ())) k (l + i) ()).1 = (x.drop i).take k := by
  induction k generalizing i with
  | zero => simp [emit]
  | succ k ih =>
    have hi := ih (i + 1) (by omega)
    rw [drop_getLimb (by omega : i < x.length), List.take_succ_cons, ← hi]
    simp [emit, Nat.add_assoc]

theorem emitD_copy (x : Limbs W) (l : Nat) (k : Nat) (h : l + k ≤ x.length) :
    (emitD (fun i (_ : Unit) => (getLimb x i, ())) k l ()).1 = (x.drop l).take k := by
  induction k with
  | zero => simp [emitD]
  | succ k ih =>
    simp only [emitD]
    rw [ih (by omega), List.take_add_one]
    congr 1
    rw [List.getElem?_drop, List.getElem?_eq_getElem (by omega)]
    simp [getLimb, show l + k < x.length by omega]

/-- The steps of the right shift below the top. -/
theorem emitD_right (x : Limbs W) (s : Bool) (b inv l : Nat) (k : Nat) (c : BitVec W)
    (h : l + k ≤ x.length) :
    (emitD (fun i c => (shrN (getLimb x i) b ||| c, shlN (getLimb x i) inv)) k l c).1 =
      (I256.Shift.rightLoop s b inv false ((x.drop l).take k).reverse c).reverse := by
  induction k generalizing c with
  | zero => simp [emitD, I256.Shift.rightLoop]
  | succ k ih =>
    have e : (x.drop l).take (k + 1) = (x.drop l).take k ++ [getLimb x (l + k)] := by
      rw [List.take_add_one]
      congr 1
      rw [List.getElem?_drop, List.getElem?_eq_getElem (by omega)]
      simp [getLimb, show l + k < x.length by omega]
    simp only [emitD]
    rw [ih _ (by omega), e]
    simp [I256.Shift.rightLoop]

/-- All steps of the right shift. -/
theorem emitD_right_top (x : Limbs W) (s : Bool) (b inv l : Nat) (c : BitVec W)
    (h : l < x.length) :
    (emitD (fun i c => ((if s && i == x.length - 1 then sshrN (getLimb x i) b
      else shrN (getLimb x i) b) ||| c, shlN (getLimb x i) inv)) (x.length - l) l c).1 =
      (I256.Shift.rightLoop s b inv true (x.drop l).reverse c).reverse := by
  obtain ⟨k, hk⟩ : ∃ k, x.length - l = k + 1 := ⟨x.length - l - 1, by omega⟩
  have e : x.drop l = (x.drop l).take k ++ [getLimb x (l + k)] := by
    have : (x.drop l).take (k + 1) = x.drop l := List.take_of_length_le (by simp; omega)
    rw [List.take_add_one] at this
    refine this.symm.trans ?_
    congr 1
    rw [List.getElem?_drop, List.getElem?_eq_getElem (by omega)]
    simp [getLimb, show l + k < x.length by omega]
  rw [hk, e]
  simp only [emitD]
  rw [show l + k = x.length - 1 by omega]
  simp only [List.reverse_append, List.reverse_cons, List.reverse_nil, List.nil_append,
    List.singleton_append, I256.Shift.rightLoop, beq_self_eq_true, Bool.and_true]
  rw [emitD_congr (g := fun i c => (shrN (getLimb x i) b ||| c, shlN (getLimb x i) inv)) k l,
    emitD_right x s b inv l k _ (by omega)]
  intro j t h1 h2
  rw [if_neg]
  simp
  omega

theorem left_ok (be : Bool) {k : Nat} (hk : W = 2 ^ k) (x : Limbs W) (shift : Nat)
    (h2 : 2 ≤ x.length) (hs : shift < x.length * W) :
    left be (mem be x) shift = .ok (mem be (I256.Shift.left x shift)) := by
  have hW : 0 < W := by rw [hk]; positivity
  have hl : I256.Shift.limbN W shift < x.length := by
    rw [limbN_eq hk]
    exact Nat.div_lt_of_lt_mul (by rwa [Nat.mul_comm] at hs)
  have hb := bitsN_lt hW shift
  unfold left
  simp only [mem_length]
  rw [assert_ok (by simpa using h2), Res.mbind_ok, assert_ok (by simpa using hs), Res.mbind_ok,
    usub_ok (Nat.le_of_lt hb), Res.mbind_ok]
  change I256.Shift.bitsN W shift < W at hb
  have hbz : I256.Shift.limbN W shift = 0 → shift ≠ 0 → I256.Shift.bitsN W shift ≠ 0 := by
    intro h h' h''
    have := Nat.div_add_mod shift W
    rw [← limbN_eq hk, ← bitsN_eq hk, h, h''] at this
    simp at this
    omega
  simp only [show shift >>> W.log2 = I256.Shift.limbN W shift from rfl,
    show shift &&& (W - 1) = I256.Shift.bitsN W shift from rfl]
  by_cases hN : x.length = 2
  · obtain ⟨x0, x1, rfl⟩ := two_of_length hN
    unfold I256.Shift.left
    generalize I256.Shift.limbN W shift = l at *
    generalize I256.Shift.bitsN W shift = b at *
    simp only [List.length_cons, List.length_nil, if_true]
    rw [rd_limb be (by simp), Res.mbind_ok, rd_limb be (by simp), Res.mbind_ok]
    by_cases h1 : l ≠ 0
    · rw [if_pos h1, if_pos h1, shl_ok _ hb, Res.mbind_ok, wr_two]
      rfl
    · rw [if_neg h1, if_neg h1]
      by_cases h3 : shift = 0
      · rw [if_pos h3, if_pos h3, wr_two]
        rfl
      · have := hbz (by simpa using h1) h3
        rw [if_neg h3, if_neg h3, shl_ok _ hb, Res.mbind_ok, shl_ok _ hb, Res.mbind_ok,
          shr_ok _ (by omega), Res.mbind_ok, wr_two]
        rfl
  · rw [if_neg hN, left_ne_two hN]
    generalize I256.Shift.limbN W shift = l at *
    generalize I256.Shift.bitsN W shift = b at *
    have e1 : List.replicate x.length (0 : BitVec W) =
        mem be (List.replicate l 0 ++ List.replicate (x.length - l) 0) := by
      rw [List.replicate_append_replicate, mem_replicate, Nat.add_sub_cancel' (by omega)]
    by_cases h1 : b ≠ 0
    · rw [if_pos h1, if_pos h1, e1]
      have h := loop_emit be (fun i c => (shlN (getLimb x (i - l)) b ||| c,
        shrN (getLimb x (i - l)) (W - b))) (fuel := x.length) (lo := l) (hi := x.length)
        (body := fun ((index, result, carry) : Nat × Limbs W × BitVec W) => do
          let k ← usub index l
          let xi ← rd be (mem be x) k
          let v ← shl xi b
          let result ← wr be result index (v ||| carry)
          let carry ← shr xi (W - b)
          .ok (index + 1, result, carry))
        (by
          intro i s R g1 g2 g3
          simp only [usub_ok g1, Res.mbind_ok, rd_limb be (show i - l < x.length by omega),
            shl_ok _ hb, wr_ok be g3, shr_ok _ (show W - b < W by omega)])
        (List.replicate l 0) (List.replicate (x.length - l) 0) 0 (by simp) (by omega) (by omega)
        (by simp)
      refine (congrArg (fun r => Res.bind r _) h).trans ?_
      simp only [Res.bind_ok]
      have e2 := emit_left x b (W - b) l (x.length - l) 0 0 (by omega)
      simp only [Nat.add_zero, List.drop_zero] at e2
      rw [e2]
      simp
    · rw [if_neg h1, if_neg h1, e1]
      have h := loop_emit be (fun i (_ : Unit) => (getLimb x (i - l), ())) (fuel := x.length)
        (lo := l) (hi := x.length)
        (body := fun ((index, result, u) : Nat × Limbs W × Unit) => do
          let k ← usub index l
          let xi ← rd be (mem be x) k
          let result ← wr be result index xi
          .ok (index + 1, result, u))
        (by
          intro i s R g1 g2 g3
          simp only [usub_ok g1, Res.mbind_ok, rd_limb be (show i - l < x.length by omega),
            wr_ok be g3])
        (List.replicate l 0) (List.replicate (x.length - l) 0) () (by simp) (by omega) (by omega)
        (by simp)
      refine (congrArg (fun r => Res.bind r _) h).trans ?_
      simp only [Res.bind_ok]
      have e2 := emit_copy x l (x.length - l) 0 (by omega)
      simp only [Nat.add_zero, List.drop_zero] at e2
      rw [e2]
      simp

theorem right_ok (be signed : Bool) {k : Nat} (hk : W = 2 ^ k) (x : Limbs W) (shift : Nat)
    (h2 : 2 ≤ x.length) (hs : shift < x.length * W) :
    right be signed (mem be x) shift = .ok (mem be (I256.Shift.right signed x shift)) := by
  have hW : 0 < W := by rw [hk]; positivity
  have hl : I256.Shift.limbN W shift < x.length := by
    rw [limbN_eq hk]
    exact Nat.div_lt_of_lt_mul (by rwa [Nat.mul_comm] at hs)
  have hb := bitsN_lt hW shift
  unfold right
  simp only [mem_length]
  rw [assert_ok (by simpa using h2), Res.mbind_ok, assert_ok (by simpa using hs), Res.mbind_ok,
    usub_ok (Nat.le_of_lt hb), Res.mbind_ok, usub_ok (by omega), Res.mbind_ok,
    rd_limb be (by omega), Res.mbind_ok]
  change I256.Shift.bitsN W shift < W at hb
  simp only [show shift >>> W.log2 = I256.Shift.limbN W shift from rfl,
    show shift &&& (W - 1) = I256.Shift.bitsN W shift from rfl,
    show getLimb x (x.length - 1) = msLimb x from rfl]
  by_cases hN : x.length = 2
  · obtain ⟨x0, x1, rfl⟩ := two_of_length hN
    unfold I256.Shift.right
    generalize I256.Shift.limbN W shift = l at *
    generalize I256.Shift.bitsN W shift = b at *
    simp only [List.length_cons, List.length_nil, if_true]
    rw [rd_limb be (by simp), Res.mbind_ok, rd_limb be (by simp), Res.mbind_ok]
    by_cases h1 : l ≠ 0
    · rw [if_pos h1, if_pos h1]
      cases signed
      · simp only [Bool.false_eq_true, if_false]
        rw [shr_ok _ hb, Res.mbind_ok, wr_two]
        rfl
      · simp only [if_true]
        rw [sar_ok _ hb, Res.mbind_ok, usub_ok (by omega), Res.mbind_ok, sar_ok _ (by omega),
          Res.mbind_ok, wr_two]
        rfl
    · rw [if_neg h1, if_neg h1]
      by_cases h3 : b = 0
      · rw [if_pos h3, if_pos h3, wr_two]
        rfl
      · rw [if_neg h3, if_neg h3]
        cases signed
        · simp only [Bool.false_eq_true, if_false]
          rw [shr_ok _ hb, Res.mbind_ok, shr_ok _ hb, Res.mbind_ok, shl_ok _ (by omega),
            Res.mbind_ok, wr_two]
          rfl
        · simp only [if_true]
          rw [sar_ok _ hb, Res.mbind_ok, shr_ok _ hb, Res.mbind_ok, shl_ok _ (by omega),
            Res.mbind_ok, wr_two]
          rfl
  · rw [if_neg hN, right_ne_two signed hN]
    generalize I256.Shift.limbN W shift = l at *
    generalize I256.Shift.bitsN W shift = b at *
    simp only
    generalize (if (signed && (msLimb x).slt 0) = true then BitVec.allOnes W else 0) = fill
    have e1 : List.replicate x.length fill =
        mem be (List.replicate (x.length - l) fill ++ List.replicate l fill) := by
      rw [List.replicate_append_replicate, mem_replicate, Nat.sub_add_cancel (by omega)]
    have e3 : x.length = l + (x.length - l) := by omega
    by_cases h1 : b ≠ 0
    · rw [if_pos h1, if_pos h1, e1]
      have h := loop_emitD be (fun i c => ((if signed && i == x.length - 1 then sshrN (getLimb x i) b
          else shrN (getLimb x i) b) ||| c, shlN (getLimb x i) (W - b))) l (hi := x.length)
        (body := fun ((index, result, carry) : Nat × Limbs W × BitVec W) => do
          let index ← usub index 1
          let xi ← rd be (mem be x) index
          let last ← (.ok (x.length - 1) : Res Nat)
          let ri ← if signed && index == last then sar xi b else shr xi b
          let k ← usub index l
          let result ← wr be result k (ri ||| carry)
          let carry ← shl xi (W - b)
          .ok (index, result, carry))
        (by
          intro i s R g1 g2 g3
          simp only [usub_ok (Nat.le_add_left 1 i), Nat.add_sub_cancel, Res.mbind_ok, rd_limb be g2,
            sar_ok _ hb, shr_ok _ hb,
            usub_ok g1, shl_ok _ (show W - b < W by omega)]
          split
          · rw [wr_ok be g3, Res.mbind_ok]
          · rw [wr_ok be g3, Res.mbind_ok])
        (x.length - l) x.length (List.replicate (x.length - l) fill) (List.replicate l fill) 0
        (by simp) (by omega) (by omega)
      rw [← e3] at h
      refine (congrArg (fun r => Res.bind r _) h).trans ?_
      simp only [Res.bind_ok]
      rw [emitD_right_top x signed b (W - b) l 0 hl]
    · rw [if_neg h1, if_neg h1, e1]
      have h := loop_emitD be (fun i (_ : Unit) => (getLimb x i, ())) l (hi := x.length)
        (body := fun ((index, result, u) : Nat × Limbs W × Unit) => do
          let index ← usub index 1
          let xi ← rd be (mem be x) index
          let k ← usub index l
          let result ← wr be result k xi
          .ok (index, result, u))
        (by
          intro i s R g1 g2 g3
          simp only [usub_ok (Nat.le_add_left 1 i), Nat.add_sub_cancel, Res.mbind_ok, rd_limb be g2,
            usub_ok g1, wr_ok be g3])
        (x.length - l) x.length (List.replicate (x.length - l) fill) (List.replicate l fill) ()
        (by simp) (by omega) (by omega)
      rw [← e3] at h
      refine (congrArg (fun r => Res.bind r _) h).trans ?_
      simp only [Res.bind_ok]
      rw [emitD_copy x l _ (by omega), List.take_of_length_le (by simp)]

end Shift

namespace Rot

theorem left_ne_two {x : Limbs W} (h : ¬ x.length = 2) (n : Nat) :
    I256.Rot.left x n =
      let l := I256.Shift.limbN W (n % (x.length * W))
      let b := I256.Shift.bitsN W (n % (x.length * W))
      if b ≠ 0 then
        let r := I256.Rot.loop b (W - b) l x.length x 0 (List.replicate x.length 0) 0
        r.1.set l (r.1.getD l 0 ||| r.2)
      else I256.Rot.copyLoop l x.length x 0 (List.replicate x.length 0) := by
  match x, h with
  | [], _ => rfl
  | [_], _ => rfl
  | [a, b], h => simp at h
  | _ :: _ :: _ :: _, _ => rfl

theorem loop_length (b inv l N : Nat) (xs : Limbs W) (i : Nat) (R : Limbs W) (c : BitVec W) :
    (I256.Rot.loop b inv l N xs i R c).1.length = R.length := by
  induction xs generalizing i R c with
  | nil => rfl
  | cons x xs ih =>
    rw [I256.Rot.loop, ih]
    simp

theorem rotLoop_ok (be : Bool) (b l N : Nat) (hb : b < W) (hb0 : b ≠ 0) (px xs R : Limbs W)
    (c : BitVec W) (fuel : Nat) (hf : xs.length ≤ fuel) (hN : px.length + xs.length = N)
    (hR : R.length = N) (h0 : 0 < N) :
    loop fuel (fun s => decide (s.1 < N)) (fun ((index, result, carry) : Nat × Limbs W × BitVec W) => do
      let xi ← rd be (mem be (px ++ xs)) index
      let v ← shl xi b
      let carry' ← shr xi (W - b)
      let result ← wr be result ((index + l) % N) (v ||| carry)
      .ok (index + 1, result, carry')) (px.length, mem be R, c) =
      .ok (N, mem be (I256.Rot.loop b (W - b) l N xs px.length R c).1,
        (I256.Rot.loop b (W - b) l N xs px.length R c).2) := by
  induction xs generalizing px R c fuel with
  | nil =>
    simp at hN
    rw [loop_done (by simp [hN]), I256.Rot.loop, hN]
  | cons x xs ih =>
    simp only [List.length_cons] at hN
    obtain ⟨fuel, rfl⟩ : ∃ n, fuel = n + 1 := ⟨fuel - 1, by simp at hf; omega⟩
    rw [loop_step (t := (px.length + 1, mem be (R.set ((px.length + l) % N) (shlN x b ||| c)),
      shrN x (W - b))) (by simp; omega)]
    · have h := ih (px ++ [x]) (R.set ((px.length + l) % N) (shlN x b ||| c)) (shrN x (W - b)) fuel
        (by simpa using hf) (by simp; omega) (by simpa using hR)
      simp only [List.append_assoc, List.singleton_append, List.length_append, List.length_cons,
          List.length_nil, Nat.zero_add] at h
      exact h
    · simp only [rd_at be px xs x rfl, Res.mbind_ok, shl_ok _ hb, shr_ok _ (show W - b < W by omega)]
      rw [wr_ok be (by rw [hR]; exact Nat.mod_lt _ h0), Res.mbind_ok]

theorem copyLoop_ok (be : Bool) (l N : Nat) (px xs R : Limbs W)
    (fuel : Nat) (hf : xs.length ≤ fuel) (hN : px.length + xs.length = N)
    (hR : R.length = N) (h0 : 0 < N) :
    loop fuel (fun s => decide (s.1 < N)) (fun ((index, result) : Nat × Limbs W) => do
      let xi ← rd be (mem be (px ++ xs)) index
      let result ← wr be result ((index + l) % N) xi
      .ok (index + 1, result)) (px.length, mem be R) =
      .ok (N, mem be (I256.Rot.copyLoop l N xs px.length R)) := by
  induction xs generalizing px R fuel with
  | nil =>
    simp at hN
    rw [loop_done (by simp [hN]), I256.Rot.copyLoop, hN]
  | cons x xs ih =>
    simp only [List.length_cons] at hN
    obtain ⟨fuel, rfl⟩ : ∃ n, fuel = n + 1 := ⟨fuel - 1, by simp at hf; omega⟩
    rw [loop_step (t := (px.length + 1, mem be (R.set ((px.length + l) % N) x))) (by simp; omega)]
    · have h := ih (px ++ [x]) (R.set ((px.length + l) % N) x) fuel
        (by simpa using hf) (by simp; omega) (by simpa using hR)
      simp only [List.append_assoc, List.singleton_append, List.length_append, List.length_cons,
          List.length_nil, Nat.zero_add] at h
      exact h
    · simp only [rd_at be px xs x rfl, Res.mbind_ok]
      rw [wr_ok be (by rw [hR]; exact Nat.mod_lt _ h0), Res.mbind_ok]

theorem left_ok (be : Bool) {k : Nat} (hk : W = 2 ^ k) (x : Limbs W) (n : Nat)
    (h2 : 2 ≤ x.length) : left be (mem be x) n = .ok (mem be (I256.Rot.left x n)) := by
  have hW : 0 < W := by rw [hk]; positivity
  have hp : 0 < x.length * W := Nat.mul_pos (by omega) hW
  have hs := Nat.mod_lt n hp
  have hl : I256.Shift.limbN W (n % (x.length * W)) < x.length := by
    rw [limbN_eq hk]
    exact Nat.div_lt_of_lt_mul (Nat.mul_comm x.length W ▸ hs)
  have hb := Shift.bitsN_lt hW (n % (x.length * W))
  unfold left
  simp only [mem_length]
  rw [assert_ok (by simpa using h2), Res.mbind_ok, assert_ok (decide_eq_true (by omega)), Res.mbind_ok,
    usub_ok (Nat.le_of_lt hb), Res.mbind_ok]
  change I256.Shift.bitsN W _ < W at hb
  simp only [show (n % (x.length * W)) >>> W.log2 = I256.Shift.limbN W (n % (x.length * W)) from rfl,
    show (n % (x.length * W)) &&& (W - 1) = I256.Shift.bitsN W (n % (x.length * W)) from rfl]
  by_cases hN : x.length = 2
  · obtain ⟨x0, x1, rfl⟩ := two_of_length hN
    unfold I256.Rot.left
    simp only [List.length_cons, List.length_nil] at *
    generalize I256.Shift.limbN W (n % ((0 + 1 + 1) * W)) = l at *
    generalize I256.Shift.bitsN W (n % ((0 + 1 + 1) * W)) = b at *
    simp only [if_true]
    rw [rd_limb be (by simp), Res.mbind_ok, rd_limb be (by simp), Res.mbind_ok]
    by_cases h1 : l ≠ 0
    · simp only [if_pos h1]
      by_cases h3 : b = 0
      · rw [if_pos h3, if_pos h3, wr_two]
        rfl
      · rw [if_neg h3, if_neg h3, shl_ok _ hb, Res.mbind_ok, shr_ok _ (by omega), Res.mbind_ok,
          shl_ok _ hb, Res.mbind_ok, shr_ok _ (by omega), Res.mbind_ok, wr_two]
        rfl
    · simp only [if_neg h1]
      by_cases h3 : b = 0
      · rw [if_pos h3, if_pos h3, wr_two]
        rfl
      · rw [if_neg h3, if_neg h3, shl_ok _ hb, Res.mbind_ok, shr_ok _ (by omega), Res.mbind_ok,
          shl_ok _ hb, Res.mbind_ok, shr_ok _ (by omega), Res.mbind_ok, wr_two]
        rfl
  · rw [if_neg hN, left_ne_two hN]
    generalize I256.Shift.limbN W (n % (x.length * W)) = l at *
    generalize I256.Shift.bitsN W (n % (x.length * W)) = b at *
    simp only
    by_cases h1 : b ≠ 0
    · rw [if_pos h1, if_pos h1]
      have h := rotLoop_ok be b l x.length hb h1 [] x (List.replicate x.length 0) 0 x.length
        (by simp) (by simp) (by simp) (by omega)
      simp only [List.nil_append, List.length_nil, mem_replicate] at h
      refine (congrArg (fun r => Res.bind r _) h).trans ?_
      simp only [Res.bind_ok]
      have hr := loop_length b (W - b) l x.length x 0 (List.replicate x.length 0) 0
      rw [List.length_replicate] at hr
      rw [rd_limb be (by rw [hr]; exact hl), Res.mbind_ok, wr_ok be (by rw [hr]; exact hl)]
      rfl
    · rw [if_neg h1, if_neg h1]
      have h := copyLoop_ok be l x.length [] x (List.replicate x.length 0) x.length
        (by simp) (by simp) (by simp) (by omega)
      simp only [List.nil_append, List.length_nil, mem_replicate] at h
      refine (congrArg (fun r => Res.bind r _) h).trans ?_
      simp only [Res.bind_ok]

theorem right_ok (be : Bool) {k : Nat} (hk : W = 2 ^ k) (x : Limbs W) (n : Nat)
    (h2 : 2 ≤ x.length) : right be (mem be x) n = .ok (mem be (I256.Rot.right x n)) := by
  have hW : 0 < W := by rw [hk]; positivity
  have hp : 0 < W * x.length := Nat.mul_pos hW (by omega)
  unfold right
  simp only [mem_length]
  rw [assert_ok (by simpa using h2), Res.mbind_ok, assert_ok (decide_eq_true (by omega)), Res.mbind_ok,
    usub_ok (Nat.le_of_lt (Nat.mod_lt n hp)), Res.mbind_ok]
  exact left_ok be hk x _ h2

end Rot

end Raw

end I256
