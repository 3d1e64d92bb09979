import Verif.Lemmas.Bitops
import Verif.Model.Endian

/-!
# Lemmas about `src/shared/endian.rs`
-/

namespace I256

variable {w : Nat}

/-- The limbs are the digits of the value in base `2^w`. -/
theorem toNat_digit (x : Limbs w) (i : Nat) (h : i < x.length) :
    x[i].toNat = toNat x / 2 ^ (w * i) % 2 ^ w := by
  induction x generalizing i with
  | nil => simp at h
  | cons a xs ih =>
    have ha := a.isLt
    cases i with
    | zero => simp [Nat.mod_eq_of_lt ha]
    | succ i =>
      rw [List.getElem_cons_succ, ih i (by simpa using h), toNat_cons, Nat.mul_succ, Nat.add_comm (w * i),
        Nat.pow_add, ← Nat.div_div_eq_div_mul, Nat.add_mul_div_left _ _ (Nat.two_pow_pos w),
        Nat.div_eq_of_lt ha, Nat.zero_add]

theorem toNat_concat' (x : Limbs w) (a : BitVec w) :
    toNat (x ++ [a]) = toNat x + 2 ^ bits x * a.toNat := by
  rw [toNat_append]; simp

theorem leBytes_length (a : BitVec w) : (leBytes a).length = w / 8 := by simp [leBytes]

theorem leBytes_aux (a : BitVec w) (n : Nat) :
    toNat ((List.range n).map (fun i => a.extractLsb' (8 * i) 8)) = a.toNat % 2 ^ (8 * n) := by
  induction n with
  | zero => simp [Nat.mod_one]
  | succ n ih =>
    rw [List.range_succ, List.map_append, List.map_singleton, toNat_concat', ih]
    have : bits ((List.range n).map (fun i => a.extractLsb' (8 * i) 8)) = 8 * n := by simp [bits]
    rw [this, Nat.mul_succ, Nat.pow_add, Nat.mod_mul, BitVec.extractLsb'_toNat, Nat.shiftRight_eq_div_pow]

theorem leBytes_toNat (h8 : 8 ∣ w) (a : BitVec w) : toNat (leBytes a) = a.toNat := by
  rw [leBytes, leBytes_aux, Nat.mul_div_cancel' h8, Nat.mod_eq_of_lt a.isLt]

theorem ofLeBytes_toNat (bs : List (BitVec 8)) (h : 8 * bs.length ≤ w) :
    (ofLeBytes w bs).toNat = toNat bs := by
  induction bs with
  | nil => simp [ofLeBytes]
  | cons b bs ih =>
    rw [List.length_cons, Nat.mul_succ] at h
    have hb := b.isLt
    have hl := toNat_lt bs
    have hp : 2 ^ 8 * 2 ^ bits bs ≤ 2 ^ w := by
      rw [← Nat.pow_add]; exact Nat.pow_le_pow_right (by omega) (by rw [bits]; omega)
    have hp8 : 2 ^ 8 ≤ 2 ^ w := Nat.pow_le_pow_right (by omega) (by omega)
    have hm : 2 ^ 8 * toNat bs < 2 ^ 8 * 2 ^ bits bs := Nat.mul_lt_mul_of_pos_left hl (by decide)
    show (b.setWidth w ||| (ofLeBytes w bs) <<< 8).toNat = _
    rw [BitVec.toNat_or, BitVec.toNat_setWidth, BitVec.toNat_shiftLeft, ih (by omega), toNat_cons,
      Nat.mod_eq_of_lt (by omega), Nat.or_comm, Nat.mod_eq_of_lt (by
        rw [Nat.shiftLeft_eq, Nat.mul_comm]; omega),
      ← Nat.shiftLeft_add_eq_or_of_lt hb, Nat.shiftLeft_eq, Nat.mul_comm, Nat.add_comm]

theorem ofLeBytes_leBytes (h8 : 8 ∣ w) (a : BitVec w) : ofLeBytes w (leBytes a) = a := by
  apply BitVec.eq_of_toNat_eq
  rw [ofLeBytes_toNat _ (by rw [leBytes_length]; omega), leBytes_toNat h8]

theorem leBytes_ofLeBytes (h8 : 8 ∣ w) {bs : List (BitVec 8)} (h : bs.length = w / 8) :
    leBytes (ofLeBytes w bs) = bs := by
  apply toNat_inj (by rw [leBytes_length, h])
  rw [leBytes_toNat h8, ofLeBytes_toNat _ (by omega)]

theorem leBytes_swap (h8 : 8 ∣ w) (a : BitVec w) : leBytes (limbSwapBytes a) = (leBytes a).reverse :=
  leBytes_ofLeBytes h8 (by simp [leBytes_length])

namespace Endian

theorem mem_length (be : Bool) (x : Limbs w) : (mem be x).length = x.length := by
  cases be <;> simp [mem]

theorem mem_mem (be : Bool) (x : Limbs w) : mem be (mem be x) = x := by cases be <;> simp [mem]

theorem memBytes_length (be : Bool) (l : Limbs w) : (memBytes be l).length = w / 8 * l.length := by
  induction l with
  | nil => simp [memBytes]
  | cons a l ih =>
    rw [memBytes, List.flatMap_cons, List.length_append, ← memBytes, ih, List.length_cons, Nat.mul_succ]
    cases be <;> simp [leBytes_length, Nat.add_comm]

theorem memBytes_toNat (h8 : 8 ∣ w) (l : Limbs w) : toNat (memBytes false l) = toNat l := by
  induction l with
  | nil => simp [memBytes]
  | cons a l ih =>
    rw [memBytes, List.flatMap_cons, toNat_append, ← memBytes, ih]
    simp only [Bool.false_eq_true, if_false]
    rw [leBytes_toNat h8, bits, leBytes_length, Nat.mul_div_cancel' h8, toNat_cons]

theorem memBytes_true (l : Limbs w) : memBytes true l = (memBytes false l.reverse).reverse := by
  simp only [memBytes, List.reverse_flatMap, List.reverse_reverse]
  rfl

theorem ofMemBytes_length (be : Bool) (n : Nat) (bs : List (BitVec 8)) :
    (ofMemBytes be w n bs).length = n := by
  induction n generalizing bs with
  | zero => rfl
  | succ n ih => simp [ofMemBytes, ih]

theorem ofMemBytes_memBytes (h8 : 8 ∣ w) (be : Bool) (l : Limbs w) :
    ofMemBytes be w l.length (memBytes be l) = l := by
  induction l with
  | nil => rfl
  | cons a l ih =>
    have hl : (if be then (leBytes a).reverse else leBytes a).length = w / 8 := by
      cases be <;> simp [leBytes_length]
    rw [memBytes, List.flatMap_cons, ← memBytes, List.length_cons, ofMemBytes, List.take_left' hl,
      List.drop_left' hl, ih]
    cases be <;> simp [ofLeBytes_leBytes h8]

theorem memBytes_ofMemBytes (h8 : 8 ∣ w) (be : Bool) (n : Nat) (bs : List (BitVec 8))
    (h : bs.length = w / 8 * n) : memBytes be (ofMemBytes be w n bs) = bs := by
  induction n generalizing bs with
  | zero =>
    have : bs = [] := by simpa using h
    simp [this, ofMemBytes, memBytes]
  | succ n ih =>
    rw [Nat.mul_succ] at h
    have hc : (bs.take (w / 8)).length = w / 8 := by simp; omega
    rw [ofMemBytes, memBytes, List.flatMap_cons, ← memBytes, ih _ (by simp; omega)]
    cases be with
    | false => simp only [Bool.false_eq_true, if_false]; rw [leBytes_ofLeBytes h8 hc, List.take_append_drop]
    | true =>
      simp only [if_true]
      rw [leBytes_ofLeBytes h8 (by simpa using hc), List.reverse_reverse, List.take_append_drop]

/-- The bytes of a number, least significant first. -/
theorem toNeBytes_eq (be : Bool) (x : Limbs w) :
    toNeBytes be x = if be then (memBytes false x).reverse else memBytes false x := by
  cases be
  · rfl
  · simp [toNeBytes, mem, memBytes_true]

theorem swapBytes_eq (be : Bool) (x : Limbs w) : swapBytes be x = x.reverse.map limbSwapBytes := by
  cases be <;> simp [swapBytes, mem]

theorem reverseBits_eq (be : Bool) (x : Limbs w) : reverseBits be x = x.reverse.map BitVec.reverse := by
  cases be <;> simp [reverseBits, mem]

theorem swapBytes_length (be : Bool) (x : Limbs w) : (swapBytes be x).length = x.length := by
  simp [swapBytes_eq]

theorem memBytes_swapBytes (h8 : 8 ∣ w) (be : Bool) (x : Limbs w) :
    memBytes false (swapBytes be x) = (memBytes false x).reverse := by
  rw [swapBytes_eq]
  simp only [memBytes, Bool.false_eq_true, if_false, List.flatMap_map, leBytes_swap h8,
    List.reverse_flatMap]
  rfl

theorem memBytes_inj (h8 : 8 ∣ w) {be : Bool} {x y : Limbs w} (hl : x.length = y.length)
    (h : memBytes be x = memBytes be y) : x = y := by
  rw [← ofMemBytes_memBytes h8 be x, h, hl, ofMemBytes_memBytes h8]

theorem swapBytes_swapBytes (h8 : 8 ∣ w) (be : Bool) (x : Limbs w) :
    swapBytes be (swapBytes be x) = x :=
  memBytes_inj h8 (be := false) (by simp [swapBytes_length])
    (by rw [memBytes_swapBytes h8, memBytes_swapBytes h8, List.reverse_reverse])

theorem toLeBytes_eq (h8 : 8 ∣ w) (be : Bool) (x : Limbs w) : toLeBytes be x = memBytes false x := by
  cases be
  · rfl
  · simp [toLeBytes, toLe, toNeBytes_eq, memBytes_swapBytes h8]

theorem toBeBytes_eq (h8 : 8 ∣ w) (be : Bool) (x : Limbs w) :
    toBeBytes be x = (memBytes false x).reverse := by
  cases be
  · simp [toBeBytes, toBe, toNeBytes_eq, memBytes_swapBytes h8]
  · simp [toBeBytes, toBe, toNeBytes_eq]

/-- `from_ne_bytes` and what it stores. -/
theorem fromNeBytes_eq (h8 : 8 ∣ w) (be : Bool) (N : Nat) (bs : List (BitVec 8))
    (h : bs.length = w / 8 * N) :
    ∃ v : Limbs w, v.length = N ∧ toNeBytes be v = bs ∧
      fromNeBytes be w N bs = if w * N % 128 = 0 then .ok v else .panic := by
  refine ⟨mem be (ofMemBytes be w N bs), by rw [mem_length, ofMemBytes_length], ?_, ?_⟩
  · rw [toNeBytes, mem_mem, memBytes_ofMemBytes h8 _ _ _ h]
  · rw [fromNeBytes, fromNeLimbs, ofMemBytes_length]

theorem toBe_length (be : Bool) (x : Limbs w) : (toBe be x).length = x.length := by
  cases be <;> simp [toBe, swapBytes_length]

theorem toLe_length (be : Bool) (x : Limbs w) : (toLe be x).length = x.length := by
  cases be <;> simp [toLe, swapBytes_length]

theorem toBe_toBe (h8 : 8 ∣ w) (be : Bool) (x : Limbs w) : toBe be (toBe be x) = x := by
  cases be <;> simp [toBe, swapBytes_swapBytes h8]

theorem toLe_toLe (h8 : 8 ∣ w) (be : Bool) (x : Limbs w) : toLe be (toLe be x) = x := by
  cases be <;> simp [toLe, swapBytes_swapBytes h8]

theorem fromLeBytes_eq (h8 : 8 ∣ w) (be : Bool) (N : Nat) (bs : List (BitVec 8))
    (h : bs.length = w / 8 * N) :
    ∃ v : Limbs w, v.length = N ∧ toLeBytes be v = bs ∧
      fromLeBytes be w N bs = if w * N % 128 = 0 then .ok v else .panic := by
  obtain ⟨v, h1, h2, h3⟩ := fromNeBytes_eq h8 be N bs h
  refine ⟨toLe be v, by rw [toLe_length, h1], by rw [toLeBytes, toLe_toLe h8, h2], ?_⟩
  rw [fromLeBytes, h3]; split <;> rfl

theorem fromBeBytes_eq (h8 : 8 ∣ w) (be : Bool) (N : Nat) (bs : List (BitVec 8))
    (h : bs.length = w / 8 * N) :
    ∃ v : Limbs w, v.length = N ∧ toBeBytes be v = bs ∧
      fromBeBytes be w N bs = if w * N % 128 = 0 then .ok v else .panic := by
  obtain ⟨v, h1, h2, h3⟩ := fromNeBytes_eq h8 be N bs h
  refine ⟨toBe be v, by rw [toBe_length, h1], by rw [toBeBytes, toBe_toBe h8, h2], ?_⟩
  rw [fromBeBytes, h3]; split <;> rfl

/-- The elements of the array of another element type, least significant first. -/
theorem toNeArr_spec (h8 : 8 ∣ w) (be : Bool) {v : Nat} (hv : 8 ∣ v) {n : Nat} (x : Limbs w)
    (hn : v * n = w * x.length) :
    (toNeArr be v n x).length = n ∧
      toNat (if be then (toNeArr be v n x).reverse else toNeArr be v n x) = toNat x := by
  have hn' : w / 8 * x.length = v / 8 * n := by
    obtain ⟨k, rfl⟩ := h8; obtain ⟨m, rfl⟩ := hv
    rw [Nat.mul_div_cancel_left _ (by decide), Nat.mul_div_cancel_left _ (by decide)]
    rw [Nat.mul_assoc, Nat.mul_assoc] at hn; omega
  refine ⟨ofMemBytes_length .., ?_⟩
  have hb : memBytes be (toNeArr be v n x) = toNeBytes be x := by
    rw [toNeArr, memBytes_ofMemBytes hv]
    rw [toNeBytes, memBytes_length, mem_length, hn']
  rw [toNeBytes_eq] at hb
  cases be with
  | false =>
    simp only [Bool.false_eq_true, if_false] at hb ⊢
    rw [← memBytes_toNat hv, hb, memBytes_toNat h8]
  | true =>
    simp only [if_true] at hb ⊢
    rw [memBytes_true, List.reverse_inj] at hb
    rw [← memBytes_toNat hv, hb, memBytes_toNat h8]

theorem toLeArr_spec (h8 : 8 ∣ w) (be : Bool) {v : Nat} (hv : 8 ∣ v) {n : Nat} (x : Limbs w)
    (hn : v * n = w * x.length) :
    (toLeArr be v n x).length = n ∧ toNat (toLeArr be v n x) = toNat x := by
  obtain ⟨h1, h2⟩ := toNeArr_spec h8 be hv x hn
  cases be <;> simp_all [toLeArr, swapArray]

theorem toBeArr_eq (be : Bool) (v n : Nat) (x : Limbs w) :
    toBeArr be v n x = (toLeArr be v n x).reverse := by
  cases be <;> simp [toLeArr, toBeArr, swapArray]

theorem fromLeArr_spec (h8 : 8 ∣ w) (be : Bool) {v : Nat} (hv : 8 ∣ v) {N : Nat} (l : Limbs v)
    (hn : v * l.length = w * N) :
    ∃ x : Limbs w, x.length = N ∧ toNat x = toNat l ∧
      fromLeArr be w N l = if w * N % 128 = 0 then .ok x else .panic := by
  have hn' : v / 8 * l.length = w / 8 * N := by
    obtain ⟨k, rfl⟩ := h8; obtain ⟨m, rfl⟩ := hv
    rw [Nat.mul_div_cancel_left _ (by decide), Nat.mul_div_cancel_left _ (by decide)]
    rw [Nat.mul_assoc, Nat.mul_assoc] at hn; omega
  cases be with
  | false =>
    obtain ⟨x, h1, h2, h3⟩ := fromNeBytes_eq h8 false N (memBytes false l) (by rw [memBytes_length, hn'])
    refine ⟨x, h1, ?_, h3⟩
    rw [toNeBytes_eq] at h2
    simp only [Bool.false_eq_true, if_false] at h2
    rw [← memBytes_toNat h8, h2, memBytes_toNat hv]
  | true =>
    obtain ⟨x, h1, h2, h3⟩ := fromNeBytes_eq h8 true N (memBytes true l.reverse)
      (by rw [memBytes_length, List.length_reverse, hn'])
    refine ⟨x, h1, ?_, h3⟩
    rw [toNeBytes_eq, memBytes_true] at h2
    simp only [if_true, List.reverse_inj, List.reverse_reverse] at h2
    rw [← memBytes_toNat h8, h2, memBytes_toNat hv]

theorem fromBeArr_eq (be : Bool) (N : Nat) {v : Nat} (l : Limbs v) :
    fromBeArr be w N l = fromLeArr be w N l.reverse := by
  cases be <;> simp [fromLeArr, fromBeArr, swapArray]

theorem testBit_reverseBits (hw : 0 < w) (be : Bool) (x : Limbs w) (i : Nat) (hi : i < bits x) :
    (toNat (reverseBits be x)).testBit i = (toNat x).testBit (bits x - 1 - i) := by
  rw [reverseBits_eq, testBit_limb hw, testBit_limb hw]
  have hd : i / w < x.length := Nat.div_lt_of_lt_mul hi
  have hm : i % w < w := Nat.mod_lt _ hw
  have hs : bits x - 1 - i = (w - 1 - i % w) + w * (x.length - 1 - i / w) := by
    have e := Nat.div_add_mod i w
    have : w * x.length = w * (x.length - 1 - i / w) + w * (i / w) + w := by
      rw [← Nat.mul_add, ← Nat.mul_succ]; congr 1; omega
    rw [bits]; omega
  rw [hs, Nat.add_mul_div_left _ _ hw, Nat.add_mul_mod_self_left, Nat.div_eq_of_lt (by omega : w - 1 - i % w < w),
    Nat.mod_eq_of_lt (by omega : w - 1 - i % w < w), Nat.zero_add]
  simp only [List.getD_eq_getElem?_getD, List.getElem?_map]
  rw [List.getElem?_reverse hd, List.getElem?_eq_getElem (by generalize i / w = q at hd ⊢; omega)]
  simp only [Option.map_some, Option.getD_some, BitVec.getLsbD_reverse, BitVec.getMsbD, hm, decide_true,
    Bool.true_and]

end Endian
end I256
