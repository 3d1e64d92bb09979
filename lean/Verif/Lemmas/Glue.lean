import Verif.Model.Glue
import Verif.Lemmas.Endian
import Verif.Lemmas.Ord

/-! Helper lemmas about limb access and the short-circuiting comparison. -/

namespace I256

variable {w : Nat}

namespace Access

theorem getLimb_ok (be : Bool) (x : Limbs w) {i : Nat} (h : i < x.length) :
    getLimb be x i = .ok x[i] := by
  cases be with
  | false => simp [getLimb, Endian.mem, h]
  | true =>
    have h1 : x.length - 1 - i < x.length := by omega
    have h2 : x.length - 1 - (x.length - 1 - i) = i := by omega
    simp [getLimb, Endian.mem, h1, h2, h]

theorem getLimb_panic (be : Bool) (x : Limbs w) {i : Nat} (h : x.length ≤ i) :
    getLimb be x i = .panic := by
  cases be <;> simp [getLimb, Endian.mem, h]

theorem getWide_ok (h8 : 8 ∣ w) (be : Bool) (x : Limbs w) {i : Nat}
    (h : 2 * i + 1 < x.length) (h2 : x.length % 2 = 0) :
    ∃ v : BitVec (w + w), getWide be x i = .ok v ∧
      v.toNat = x[2 * i].toNat + 2 ^ w * x[2 * i + 1].toNat := by
  have hi : i < x.length / 2 := by omega
  have hlen : ∀ l : Limbs w, l.length = 2 → 8 * (Endian.memBytes false l).length ≤ w + w := by
    intro l hl
    rw [Endian.memBytes_length, hl]
    obtain ⟨k, rfl⟩ := h8
    rw [Nat.mul_div_cancel_left _ (by decide)]; omega
  cases be with
  | false =>
    refine ⟨ofLeBytes (w + w) (Endian.memBytes false [x[2 * i], x[2 * i + 1]]), ?_, ?_⟩
    · have e1 : x[2 * i]? = some x[2 * i] := List.getElem?_eq_getElem (by omega)
      have e2 : x[2 * i + 1]? = some x[2 * i + 1] := List.getElem?_eq_getElem (by omega)
      simp [getWide, Endian.mem, hi, e1, e2]
    · rw [ofLeBytes_toNat _ (hlen _ rfl), Endian.memBytes_toNat h8]; simp
  | true =>
    refine ⟨ofLeBytes (w + w) (Endian.memBytes false [x[2 * i], x[2 * i + 1]]), ?_, ?_⟩
    · have e1 : x.reverse[x.length - 2 * (i + 1)]? = some x[2 * i + 1] := by
        rw [List.getElem?_reverse (by omega)]
        rw [List.getElem?_eq_getElem (by omega)]
        congr 2; omega
      have e2 : x.reverse[x.length - 2 * (i + 1) + 1]? = some x[2 * i] := by
        rw [List.getElem?_reverse (by omega)]
        rw [List.getElem?_eq_getElem (by omega)]
        congr 2; omega
      simp only [getWide, Endian.mem, hi, if_true, e1, e2]
      rw [Endian.memBytes_true]; simp
    · rw [ofLeBytes_toNat _ (hlen _ rfl), Endian.memBytes_toNat h8]; simp

theorem getWide_panic (be : Bool) (x : Limbs w) {i : Nat} (h : x.length / 2 ≤ i) :
    getWide be x i = .panic := by
  simp [getWide, Nat.not_lt.2 h]

end Access

/-- Two neighbouring digits are one digit of the doubled base. -/
theorem two_digits (x : Limbs w) {i : Nat} (h : 2 * i + 1 < x.length) :
    x[2 * i].toNat + 2 ^ w * x[2 * i + 1].toNat = toNat x / 2 ^ (2 * w * i) % 2 ^ (2 * w) := by
  rw [toNat_digit x _ (by omega), toNat_digit x _ h]
  have e1 : w * (2 * i) = 2 * w * i := by ring
  have e2 : w * (2 * i + 1) = 2 * w * i + w := by ring
  rw [e1, e2, Nat.pow_add, ← Nat.div_div_eq_div_mul, Nat.two_mul w, Nat.pow_add, Nat.mod_mul]

theorem Ord.eqBranched_eq (x y : Limbs w) : Ord.eqBranched x y = Ord.eqConst x y := by
  unfold Ord.eqBranched Ord.eqConst
  generalize (toWide x).zip (toWide y) = l
  have hf : ∀ l : List (BitVec (w + w) × BitVec (w + w)),
      l.foldl (fun isEq p => isEq && p.1 == p.2) false = false := by
    intro l; induction l with
    | nil => rfl
    | cons p l ih => simpa using ih
  have h : ∀ (l : List (BitVec (w + w) × BitVec (w + w))) (e : Bool), Ord.eqBranchedLoop l e =
      l.foldl (fun isEq p => isEq && p.1 == p.2) e := by
    intro l
    induction l with
    | nil => intro e; rfl
    | cons p l ih =>
      intro e
      cases e with
      | false => simp only [Ord.eqBranchedLoop, List.foldl_cons, Bool.false_and, hf]; simp
      | true => simp only [Ord.eqBranchedLoop, List.foldl_cons, if_true, ih]
  exact h l true

end I256
