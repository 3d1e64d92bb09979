import Verif.SpecGap
import Verif.Lemmas.Fixed
import Verif.Lemmas.Pow

/-!
# Signed multiplication with the gap
-/

namespace I256

variable {w : Nat}

theorem OverG.mk {N : Nat} {z : Int} {r : Limbs w × Bool}
    (h : WrapS N z r.1 ∧ (r.2 = true ↔ ¬ InS (w * N) z ∧ ¬ Mul.Gap w N z)) : OverG N z r :=
  ⟨h.1, h.2.trans (by unfold Passes; rw [not_or])⟩

theorem OverG.check {N : Nat} {z : Int} {r : Limbs w × Bool} (h : OverG N z r) :
    CheckG N z (mkChecked r) := by
  obtain ⟨v, f⟩ := r
  have hf := h.2
  cases f
  · refine ⟨fun _ => ⟨v, rfl, h.1⟩, fun hp => ?_⟩
    simp only [Bool.false_eq_true, false_iff, not_not] at hf
    exact absurd hf hp
  · exact ⟨fun hp => absurd hp (hf.1 rfl), fun _ => rfl⟩

theorem CheckG.strict {N : Nat} {z : Int} {o : Option (Limbs w)} (h : CheckG N z o) :
    StrictG N z (unwrapOrPanic o) := by
  refine ⟨fun hp => ?_, fun hp => ?_⟩
  · obtain ⟨v, e, hv⟩ := h.1 hp
    exact ⟨v, by rw [e]; rfl, hv⟩
  · rw [h.2 hp]; rfl

theorem CheckG.op {N : Nat} {z : Int} {o : Option (Limbs w)} {v : Limbs w} (h : CheckG N z o)
    (hv : WrapS N z v) (oc : Bool) : OpG oc N z (opOf oc v o) := by
  cases oc
  · exact ⟨v, rfl, hv⟩
  · exact h.strict

theorem gap_wrap (hw : 0 < w) {N : Nat} (hN : 0 < N) {z : Int} (hg : Mul.Gap w N z) {v : Limbs w}
    (hv : WrapS N z v) : ExactS N (z + 2 ^ (w * N)) v ∧ 0 < toInt v := by
  have hpos : 0 < w * N := Nat.mul_pos hw hN
  have h2 : (2 : Int) ^ (w * N) = 2 * 2 ^ (w * N - 1) := by
    rw [← pow_succ', show w * N - 1 + 1 = w * N by omega]
  have h3 : (2 : Int) ^ (w * (N - 1)) ≤ 2 ^ (w * N - 1) := by
    rw [pow_pred_mul hw hN]
    exact pow_le_pow_right₀ (by omega) (by omega)
  have e : toInt v = z + 2 ^ (w * N) := by
    rw [hv.2, ← Int.add_bmod_right, natCast_two_pow, bmod_of_InS]
    unfold Mul.Gap at hg
    unfold InS
    omega
  refine ⟨⟨hv.1, e⟩, ?_⟩
  rw [e]
  unfold Mul.Gap at hg
  omega

theorem gap_not_InS (hw : 0 < w) {N : Nat} (hN : 0 < N) {z : Int} (hg : Mul.Gap w N z) :
    ¬ InS (w * N) z := by
  have hpos : 0 < w * N := Nat.mul_pos hw hN
  have h2 : (2 : Int) ^ (w * N) = 2 * 2 ^ (w * N - 1) := by
    rw [← pow_succ', show w * N - 1 + 1 = w * N by omega]
  unfold Mul.Gap at hg
  unfold InS
  omega

theorem FormsG.mk {oc : Bool} {N : Nat} {z : Int} {wr : Res (Limbs w)} {ov : Res (Limbs w × Bool)}
    (h1 : ∃ v, wr = .ok v ∧ WrapS N z v) (h2 : ∃ r, ov = .ok r ∧ OverG N z r) :
    FormsG oc N z wr ov (ov.map mkChecked) (fixOp oc wr (ov.map mkChecked)) := by
  obtain ⟨v, rfl, hv⟩ := h1
  obtain ⟨r, rfl, hr⟩ := h2
  exact ⟨⟨v, rfl, hv⟩, ⟨r, rfl, hr⟩, ⟨_, rfl, hr.check⟩, hr.check.op hv oc⟩

theorem FormsG.mk' {oc : Bool} {N : Nat} {z : Int} {v : Limbs w} {r : Limbs w × Bool}
    (h1 : WrapS N z v) (h2 : OverG N z r) :
    FormsG oc N z (.ok v) (.ok r) (.ok (mkChecked r)) (fixOp oc (.ok v) (.ok (mkChecked r))) :=
  FormsG.mk ⟨v, rfl, h1⟩ ⟨r, rfl, h2⟩

theorem Mul.uLimbOverG (hw : 1 < w) {x : Limbs w} (hx : 2 ≤ x.length) (n : BitVec w) :
    OverG x.length (toInt x * n.toNat) (Mul.overflowingULimbS x n) := by
  have h := Mul.overflowingFullS_spec (by omega) (length_ne (n := 1) (by omega))
    (extU_length (by omega : 1 ≤ x.length) n).symm
  rw [extU_toInt (by omega) hx] at h
  exact .mk h

theorem Mul.iLimbOverG (hw : 1 < w) {x : Limbs w} (hx : 1 ≤ x.length) (n : BitVec w) :
    OverG x.length (toInt x * n.toInt) (Mul.overflowingILimbS x n) := by
  have h := Mul.overflowingFullS_spec (by omega) (length_ne (n := 0) (by omega))
    (extI_length hx n).symm
  rw [extI_toInt hx] at h
  exact .mk h

theorem Mul.uWideOverG (hw : 1 < w) {x : Limbs w} (hx : 3 ≤ x.length) (n : BitVec (w + w)) :
    OverG x.length (toInt x * n.toNat) (Mul.overflowingUWideS x n) := by
  have h := Mul.overflowingFullS_spec (by omega) (length_ne (n := 1) (by omega))
    (extUW_length (by omega : 2 ≤ x.length) n).symm
  rw [extUW_toInt (by omega) hx] at h
  exact .mk h

theorem Mul.iWideOverG (hw : 1 < w) {x : Limbs w} (hx : 2 ≤ x.length) (n : BitVec (w + w)) :
    OverG x.length (toInt x * n.toInt) (Mul.overflowingIWideS x n) := by
  have h := Mul.overflowingFullS_spec (by omega) (length_ne (n := 1) (by omega))
    (extIW_length hx n).symm
  rw [extIW_toInt hx] at h
  exact .mk h

section
variable {x : Limbs w} (hw : w = 32 ∨ w = 64) (hx : 256 ≤ w * x.length)
include hw hx

theorem iMulFixU_all (k : Fix) (hk : ¬ (w = 32 ∧ k = .b128)) (n : BitVec k.n) (oc : Bool) :
    FormsG oc x.length (toInt x * n.toNat) (I.wrappingMulFixU k x n)
      (I.overflowingMulFixU k x n) (I.checkedMulFixU k x n) (I.mulFixU oc k x n) := by
  have hx0 : x ≠ [] := by rintro rfl; simp at hx
  have hpos : 1 < w := by omega
  rcases hw with rfl | rfl <;> cases k <;> (dsimp only [Fix.n] at n)
  · have h1 := Mul.limbWrapS (by omega) hx0 (n.setWidth 32)
    have h2 := Mul.uLimbOverG hpos (x := x) (by omega) (n.setWidth 32)
    rw [BitVec.toNat_setWidth_of_le (by decide)] at h1 h2
    exact FormsG.mk' h1 h2
  · have h1 := Mul.uWideWrapS hpos (x := x) (by omega) (n.setWidth (32 + 32))
    have h2 := Mul.uWideOverG hpos (x := x) (by omega) (n.setWidth (32 + 32))
    rw [BitVec.toNat_setWidth_of_le (by decide)] at h1 h2
    exact FormsG.mk' h1 h2
  · exact absurd ⟨rfl, rfl⟩ hk
  · have h1 := Mul.limbWrapS (by omega) hx0 (n.setWidth 64)
    have h2 := Mul.uLimbOverG hpos (x := x) (by omega) (n.setWidth 64)
    rw [BitVec.toNat_setWidth_of_le (by decide)] at h1 h2
    exact FormsG.mk' h1 h2
  · have h1 := Mul.limbWrapS (by omega) hx0 (n.setWidth 64)
    have h2 := Mul.uLimbOverG hpos (x := x) (by omega) (n.setWidth 64)
    rw [BitVec.toNat_setWidth_of_le (by decide)] at h1 h2
    exact FormsG.mk' h1 h2
  · have h1 := Mul.uWideWrapS hpos (x := x) (by omega) (n.setWidth (64 + 64))
    have h2 := Mul.uWideOverG hpos (x := x) (by omega) (n.setWidth (64 + 64))
    rw [BitVec.toNat_setWidth_of_le (by decide)] at h1 h2
    exact FormsG.mk' h1 h2

theorem iMulFixI_all (k : Fix) (hk : ¬ (w = 32 ∧ k = .b128)) (n : BitVec k.n) (oc : Bool) :
    FormsG oc x.length (toInt x * n.toInt) (I.wrappingMulFixI k x n)
      (I.overflowingMulFixI k x n) (I.checkedMulFixI k x n) (I.mulFixI oc k x n) := by
  have hx0 : x ≠ [] := by rintro rfl; simp at hx
  have hpos : 1 < w := by omega
  rcases hw with rfl | rfl <;> cases k <;> (dsimp only [Fix.n] at n)
  · have h1 := Mul.iLimbWrapS hpos (x := x) (by omega) (n.signExtend 32)
    have h2 := Mul.iLimbOverG hpos (x := x) (by omega) (n.signExtend 32)
    rw [BitVec.toInt_signExtend_of_le (by decide)] at h1 h2
    exact FormsG.mk' h1 h2
  · have h1 := Mul.iWideWrapS hpos (x := x) (by omega) (n.signExtend (32 + 32))
    have h2 := Mul.iWideOverG hpos (x := x) (by omega) (n.signExtend (32 + 32))
    rw [BitVec.toInt_signExtend_of_le (by decide)] at h1 h2
    exact FormsG.mk' h1 h2
  · exact absurd ⟨rfl, rfl⟩ hk
  · have h1 := Mul.iLimbWrapS hpos (x := x) (by omega) (n.signExtend 64)
    have h2 := Mul.iLimbOverG hpos (x := x) (by omega) (n.signExtend 64)
    rw [BitVec.toInt_signExtend_of_le (by decide)] at h1 h2
    exact FormsG.mk' h1 h2
  · have h1 := Mul.iLimbWrapS hpos (x := x) (by omega) (n.signExtend 64)
    have h2 := Mul.iLimbOverG hpos (x := x) (by omega) (n.signExtend 64)
    rw [BitVec.toInt_signExtend_of_le (by decide)] at h1 h2
    exact FormsG.mk' h1 h2
  · have h1 := Mul.iWideWrapS hpos (x := x) (by omega) (n.signExtend (64 + 64))
    have h2 := Mul.iWideOverG hpos (x := x) (by omega) (n.signExtend (64 + 64))
    rw [BitVec.toInt_signExtend_of_le (by decide)] at h1 h2
    exact FormsG.mk' h1 h2

end

end I256
