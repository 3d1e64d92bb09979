import Verif.Model.Casts
import Verif.Lemmas.ShiftApi
import Verif.Lemmas.NegAbs

/-! Values of the conversions from and to primitive integers. -/

namespace I256

variable {w : Nat}

theorem put_length {N : Nat} (fill : BitVec w) (low : Limbs w) (h : low.length ≤ N) :
    (Cast.put N fill low).length = N := by simp [Cast.put]; omega

theorem put_zero {N : Nat} (low : Limbs w) : toNat (Cast.put N 0 low) = toNat low := by
  rw [Cast.put, toNat_append, toNat_replicate_zero]; simp

theorem signFill_eq {n : Nat} (v : BitVec n) :
    Cast.signFill w v = if v.toInt < 0 then BitVec.allOnes w else 0 := by
  have hs : v.slt 0 = true ↔ v.toInt < 0 := by rw [BitVec.slt_iff_toInt_lt]; simp
  have : Cast.signFill w v = signLimb w (v.slt 0) := rfl
  rw [this]
  apply BitVec.eq_of_toNat_eq
  rw [signLimb_toNat]
  simp only [hs]
  split <;> simp

theorem put_sign (hw : 0 < w) {N n : Nat} (v : BitVec n) {low : Limbs w} (h0 : low ≠ [])
    (hb : bits low = n) (hv : toNat low = v.toNat) :
    toInt (Cast.put N (Cast.signFill w v) low) = v.toInt := by
  have hi : toInt low = v.toInt := by
    rw [toInt, hb, hv, BitVec.toInt_eq_toNat_cond]; push_cast; rfl
  rw [Cast.put, toInt_append_fill hw h0, hi]
  rw [signFill_eq, hi]

theorem split32_2 (v : BitVec 64) :
    toNat [v.setWidth 32, (v >>> 32).setWidth 32] = v.toNat := by
  have := v.isLt
  simp only [toNat_cons, toNat_nil, BitVec.toNat_setWidth, BitVec.toNat_ushiftRight,
    Nat.shiftRight_eq_div_pow]
  omega

theorem split32_4 (v : BitVec 128) :
    toNat [v.setWidth 32, (v >>> 32).setWidth 32, (v >>> 64).setWidth 32,
      (v >>> 96).setWidth 32] = v.toNat := by
  have := v.isLt
  simp only [toNat_cons, toNat_nil, BitVec.toNat_setWidth, BitVec.toNat_ushiftRight,
    Nat.shiftRight_eq_div_pow]
  omega

theorem split64_2 (v : BitVec 128) :
    toNat [v.setWidth 64, (v >>> 64).setWidth 64] = v.toNat := by
  have := v.isLt
  simp only [toNat_cons, toNat_nil, BitVec.toNat_setWidth, BitVec.toNat_ushiftRight,
    Nat.shiftRight_eq_div_pow]
  omega

theorem split1 {n : Nat} (h : n ≤ w) (v : BitVec n) : toNat [v.setWidth w] = v.toNat := by
  have h1 := v.isLt
  have h2 : 2 ^ n ≤ 2 ^ w := Nat.pow_le_pow_right (by decide) h
  simp only [toNat_cons, toNat_nil, BitVec.toNat_setWidth]
  rw [Nat.mod_eq_of_lt (by omega)]; omega

theorem setWidth_toNat {n m : Nat} (h : n ≤ m) (v : BitVec n) : (v.setWidth m).toNat = v.toNat := by
  have h1 := v.isLt
  have h2 : 2 ^ n ≤ 2 ^ m := Nat.pow_le_pow_right (by decide) h
  rw [BitVec.toNat_setWidth, Nat.mod_eq_of_lt (by omega)]

theorem fromU32_spec {N : Nat} (hw : w = 32 ∨ w = 64) (hN : 4 ≤ N) (v : BitVec 32) :
    ExactU N v.toNat (Cast.fromU32 N v : Limbs w) := by
  refine ⟨put_length _ _ (by simp; omega), ?_⟩
  rw [Cast.fromU32, put_zero, split1 (by omega)]

theorem fromU_spec {N : Nat} (hw : w = 32 ∨ w = 64) (hN : 4 ≤ N) (p : Prim) (v : BitVec p.n) :
    ExactU N v.toNat (Cast.fromU N p v : Limbs w) := by
  cases p
  · have := fromU32_spec hw hN (v.setWidth 32)
    rwa [setWidth_toNat (by decide)] at this
  · have := fromU32_spec hw hN (v.setWidth 32)
    rwa [setWidth_toNat (by decide)] at this
  · exact fromU32_spec hw hN v
  · rcases hw with rfl | rfl
    · refine ⟨put_length _ _ (by simp; omega), ?_⟩
      simp only [Cast.fromU, Cast.fromU64, if_true]
      rw [put_zero, split32_2]
    · refine ⟨put_length _ _ (by simp; omega), ?_⟩
      simp only [Cast.fromU, Cast.fromU64]
      rw [if_neg (by decide), put_zero, split1 (by decide)]
  · rcases hw with rfl | rfl
    · refine ⟨put_length _ _ (by simp; omega), ?_⟩
      simp only [Cast.fromU, Cast.fromU128, if_true]
      rw [put_zero, split32_4]
    · refine ⟨put_length _ _ (by simp; omega), ?_⟩
      simp only [Cast.fromU, Cast.fromU128]
      rw [if_neg (by decide), put_zero, split64_2]

theorem fromI64_spec {N : Nat} (hw : w = 32 ∨ w = 64) (hN : 4 ≤ N) (v : BitVec 64) :
    ExactS N v.toInt (Cast.fromI64 N v : Limbs w) := by
  rcases hw with rfl | rfl
  · refine ⟨put_length _ _ (by simp; omega), ?_⟩
    simp only [Cast.fromI64, if_true]
    exact put_sign (by decide) v (by simp) (by simp [bits]) (split32_2 v)
  · refine ⟨put_length _ _ (by simp; omega), ?_⟩
    simp only [Cast.fromI64]
    rw [if_neg (by decide)]
    exact put_sign (by decide) v (by simp) (by simp [bits]) (split1 (by decide) v)

theorem fromI32_spec {N : Nat} (hw : w = 32 ∨ w = 64) (hN : 4 ≤ N) (v : BitVec 32) :
    ExactS N v.toInt (Cast.fromI32 N v : Limbs w) := by
  rcases hw with rfl | rfl
  · refine ⟨put_length _ _ (by simp; omega), ?_⟩
    simp only [Cast.fromI32, if_true]
    exact put_sign (by decide) v (by simp) (by simp [bits]) (split1 (by decide) v)
  · simp only [Cast.fromI32]
    rw [if_neg (by decide)]
    have := fromI64_spec (w := 64) (Or.inr rfl) hN (v.signExtend 64)
    rwa [BitVec.toInt_signExtend_of_le (by decide)] at this

theorem fromI_spec {N : Nat} (hw : w = 32 ∨ w = 64) (hN : 4 ≤ N) (p : Prim) (v : BitVec p.n) :
    ExactS N v.toInt (Cast.fromI N p v : Limbs w) := by
  cases p
  · have := fromI32_spec hw hN (v.signExtend 32)
    rwa [BitVec.toInt_signExtend_of_le (by decide)] at this
  · have := fromI32_spec hw hN (v.signExtend 32)
    rwa [BitVec.toInt_signExtend_of_le (by decide)] at this
  · exact fromI32_spec hw hN v
  · exact fromI64_spec hw hN v
  · rcases hw with rfl | rfl
    · refine ⟨put_length _ _ (by simp; omega), ?_⟩
      simp only [Cast.fromI, Cast.fromI128, if_true]
      exact put_sign (by decide) v (by simp) (by simp [bits]) (split32_4 v)
    · refine ⟨put_length _ _ (by simp; omega), ?_⟩
      simp only [Cast.fromI, Cast.fromI128]
      rw [if_neg (by decide)]
      exact put_sign (by decide) v (by simp) (by simp [bits]) (split64_2 v)

/-- An unsigned value that fits below the sign bit is also the signed value. -/
theorem ExactU.exactS {N n : Nat} {z : Nat} {v : Limbs w} (h : ExactU N z v) (hz : z < 2 ^ n)
    (hn : n + 1 ≤ w * N) : ExactS N z v := by
  refine ⟨h.1, ?_⟩
  have h1 : bits v = w * N := by rw [bits, h.1]
  have h2 : 2 ^ (n + 1) ≤ 2 ^ bits v := Nat.pow_le_pow_right (by decide) (by omega)
  rw [pow_succ] at h2
  have h3 : toNat v = z := by have := h.2; omega
  rw [toInt, if_pos (by omega), h3]

theorem Prim.lt (p : Prim) : p.n ≤ 128 := by cases p <;> decide

theorem fromU_specS {N : Nat} (hw : w = 32 ∨ w = 64) (hN : 4 ≤ N) (hB : 128 < w * N) (p : Prim)
    (v : BitVec p.n) : ExactS N v.toNat (Cast.fromU N p v : Limbs w) :=
  (fromU_spec hw hN p v).exactS v.isLt (by have := p.lt; omega)

/-! ### Narrowing -/

theorem or_shl {n i b : Nat} {X : BitVec n} {Y : BitVec n} {a c : Nat} (hX : X.toNat = a)
    (hY : Y.toNat = c) (ha : a < 2 ^ i) (hc : c < 2 ^ b) (hn : i + b ≤ n) :
    (X ||| Y <<< i).toNat = a + 2 ^ i * c := by
  have h1 : c * 2 ^ i < 2 ^ n := by
    calc c * 2 ^ i < 2 ^ b * 2 ^ i := Nat.mul_lt_mul_of_pos_right hc (by positivity)
      _ = 2 ^ (i + b) := by rw [← Nat.pow_add, Nat.add_comm]
      _ ≤ 2 ^ n := Nat.pow_le_pow_right (by decide) hn
  rw [BitVec.toNat_or, BitVec.toNat_shiftLeft, hX, hY, Nat.shiftLeft_eq, Nat.mod_eq_of_lt h1,
    Nat.or_comm, Nat.mul_comm, ← Nat.two_pow_add_eq_or_of_lt ha, Nat.add_comm]

theorem exists_four {x : Limbs w} (h : 4 ≤ x.length) :
    ∃ a b c d r, x = a :: b :: c :: d :: r := by
  match x, h with
  | a :: b :: c :: d :: r, _ => exact ⟨a, b, c, d, r, rfl⟩

theorem asU32'_toNat (hw : w = 32 ∨ w = 64) {x : Limbs w} (h4 : 4 ≤ x.length) :
    (Cast.asU32' x).toNat = toNat x % 2 ^ 32 := by
  obtain ⟨a, b, c, d, r, rfl⟩ := exists_four h4
  have ha := a.isLt
  rcases hw with rfl | rfl <;>
  · simp only [Cast.asU32', getLimb, List.getD_cons_zero, toNat_cons, BitVec.toNat_setWidth]
    omega

theorem asU64_toNat (hw : w = 32 ∨ w = 64) {x : Limbs w} (h4 : 4 ≤ x.length) :
    (Cast.asU64 x).toNat = toNat x % 2 ^ 64 := by
  obtain ⟨a, b, c, d, r, rfl⟩ := exists_four h4
  have ha := a.isLt
  have hb := b.isLt
  rcases hw with rfl | rfl
  · simp only [Cast.asU64, if_true, getLimb, List.getD_cons_zero, toNat_cons, List.getD_cons_succ]
    rw [or_shl (setWidth_toNat (by decide) a) (setWidth_toNat (by decide) b) ha hb (by decide)]
    omega
  · simp only [Cast.asU64]
    rw [if_neg (by decide)]
    simp only [getLimb, List.getD_cons_zero, toNat_cons, BitVec.setWidth_eq]
    omega

theorem asU128_toNat (hw : w = 32 ∨ w = 64) {x : Limbs w} (h4 : 4 ≤ x.length) :
    (Cast.asU128 x).toNat = toNat x % 2 ^ 128 := by
  obtain ⟨a, b, c, d, r, rfl⟩ := exists_four h4
  have ha := a.isLt
  have hb := b.isLt
  have hc := c.isLt
  have hd := d.isLt
  rcases hw with rfl | rfl
  · simp only [Cast.asU128, if_true, getLimb, List.getD_cons_zero, toNat_cons, List.getD_cons_succ]
    have h1 := or_shl (n := 128) (setWidth_toNat (by decide) a) (setWidth_toNat (by decide) b) ha hb
      (by decide)
    have h2 := or_shl (i := 64) h1 (setWidth_toNat (by decide) c) (by omega) hc (by decide)
    rw [or_shl (i := 96) h2 (setWidth_toNat (by decide) d) (by omega) hd (by decide)]
    omega
  · simp only [Cast.asU128]
    rw [if_neg (by decide)]
    simp only [getLimb, List.getD_cons_zero, toNat_cons, List.getD_cons_succ]
    rw [or_shl (setWidth_toNat (by decide) a) (setWidth_toNat (by decide) b) ha hb (by decide)]
    omega

theorem asP_toNat (hw : w = 32 ∨ w = 64) {x : Limbs w} (h4 : 4 ≤ x.length) (p : Prim) :
    (Cast.asP x p).toNat = toNat x % 2 ^ p.n := by
  cases p
  · simp only [Cast.asP, BitVec.toNat_setWidth, asU32'_toNat hw h4, Prim.n]; omega
  · simp only [Cast.asP, BitVec.toNat_setWidth, asU32'_toNat hw h4, Prim.n]; omega
  · exact asU32'_toNat hw h4
  · exact asU64_toNat hw h4
  · exact asU128_toNat hw h4

end I256
