import Verif.Model.RawFixed
import Verif.Lemmas.Endian
import Verif.Lemmas.Fixed
import Verif.Lemmas.RawScalarForms

/-!
# Fixed-width scalars in memory: agreement with the functional model
-/

namespace I256

variable {w : Nat}

namespace Raw

open _root_.I256.Raw.Div (Cfg)
open I256.Cast (put)

theorem memBytes_of_toNat {m n : Nat} (hm : 8 ∣ m) (hn : 8 ∣ n) {x : Limbs m} {y : Limbs n}
    (hl : m / 8 * x.length = n / 8 * y.length) (hv : toNat x = toNat y) :
    Endian.memBytes false x = Endian.memBytes false y := by
  refine toNat_inj ?_ ?_
  · rw [Endian.memBytes_length, Endian.memBytes_length, hl]
  · rw [Endian.memBytes_toNat hm, Endian.memBytes_toNat hn, hv]

theorem u128ToLimb_ok (be : Bool) (n : BitVec 128) :
    u128ToLimb be n = .ok (mem be (I256.u128ToLimb n : Limbs 32)) := by
  have hs := u128ToLimb_spec n
  have h : Endian.memBytes false [n] = Endian.memBytes false (I256.u128ToLimb n : Limbs 32) :=
    memBytes_of_toNat (by decide) (by decide) (by rw [hs.1]; rfl) (by rw [hs.2]; simp)
  have hb : Endian.memBytes be [n] = Endian.memBytes be (mem be (I256.u128ToLimb n : Limbs 32)) := by
    cases be
    · exact h
    · rw [Endian.memBytes_true, Endian.memBytes_true]
      simpa [mem] using h
  have e : u128ToLimb be n = .ok (Endian.ofMemBytes be 32 4 (Endian.memBytes be [n])) := rfl
  rw [e, hb]
  exact congrArg _ (by
    simpa [hs.1] using Endian.ofMemBytes_memBytes (w := 32) (by decide) be (mem be (I256.u128ToLimb n)))

theorem u128ToLimbN_ok (be : Bool) {N : Nat} (n : BitVec 128) {y : Limbs 32}
    (h : I256.u128ToLimbN N n = .ok y) : u128ToLimbN be N n = .ok (mem be y) := by
  unfold I256.u128ToLimbN at h
  split at h
  case isFalse => cases h
  case isTrue hN =>
    cases h
    unfold u128ToLimbN
    rw [assert_ok (b := 32 == 32) rfl, Res.mbind_ok, assert_ok (by simpa using hN), Res.mbind_ok]
    simp only
    rw [wr_put0 be _ _ (by omega), Res.mbind_ok, shr_ok n (by decide), Res.mbind_ok,
      wr_put1 be _ _ _ (by omega), Res.mbind_ok, shr_ok n (by decide), Res.mbind_ok,
      wr_put2 be _ _ _ _ (by omega), Res.mbind_ok, shr_ok n (by decide), Res.mbind_ok,
      wr_put3 be _ _ _ _ _ (by omega)]
    rfl

theorem i128ToLimbN_ok (be : Bool) {N : Nat} (n : BitVec 128) {y : Limbs 32}
    (h : I256.i128ToLimbN N n = .ok y) : i128ToLimbN be N n = .ok (mem be y) := by
  unfold I256.i128ToLimbN at h
  split at h
  case isFalse => cases h
  case isTrue hN =>
    cases h
    have hf : (0 - boolLimb 32 (n.slt 0)) = signLimb 32 (n.slt 0) := by
      cases n.slt 0 <;> rfl
    unfold i128ToLimbN
    rw [assert_ok (b := 32 == 32) rfl, Res.mbind_ok, assert_ok (by simpa using hN), Res.mbind_ok]
    simp only [hf]
    rw [wr_put0 be _ _ (by omega), Res.mbind_ok, shr_ok n (by decide), Res.mbind_ok,
      wr_put1 be _ _ _ (by omega), Res.mbind_ok, shr_ok n (by decide), Res.mbind_ok,
      wr_put2 be _ _ _ _ (by omega), Res.mbind_ok, shr_ok n (by decide), Res.mbind_ok,
      wr_put3 be _ _ _ _ _ (by omega)]
    rfl

theorem wrapRun {be : Bool} {K Kf : Res (Limbs w)} {v : Limbs w} (hf : Kf = .ok v)
    (hk : K = Kf.map (mem be)) (hv : 128 ∣ w * v.length) : wrappingOf K = .ok (mem be v) := by
  rw [hk, hf]
  exact wrappingOf_ok hv

theorem overRun {be : Bool} {K Kf : Res (Limbs w × Bool)} {v : Limbs w × Bool} (hf : Kf = .ok v)
    (hk : K = Kf.map (fun r => (mem be r.1, r.2))) (hv : 128 ∣ w * v.1.length) :
    overflowingOf K = .ok (mem be v.1, v.2) := by
  rw [hk, hf]
  exact overflowingOf_ok hv

section
variable {cf : Cfg} {be : Bool} {N : Nat} {z : Int} {W : Res (Limbs w)} {O : Res (Limbs w × Bool)}
  {v : Limbs w} {r : Limbs w × Bool} (hW : W = .ok (mem be v)) (hO : O = .ok (mem be r.1, r.2))
include hW hO

theorem fixU (hv : WrapU N z v) (hr : OverU N z r) :
    MemFormsU cf.oc be N z W O (Pow.checked O) (opOf cf W (Pow.checked O)) := by
  rw [hW, hO, Pow.checked_ok, opOf_map]
  exact ⟨holds hv, holdsO hr, holdsC hr.check, ends (hr.check.op hv cf.oc)⟩

theorem fixS (hv : WrapS N z v) (hr : OverS N z r) :
    MemFormsS cf.oc be N z W O (Pow.checked O) (opOf cf W (Pow.checked O)) := by
  rw [hW, hO, Pow.checked_ok, opOf_map]
  exact ⟨holds hv, holdsO hr, holdsC hr.check, ends (hr.check.op hv cf.oc)⟩

theorem fixG (hv : WrapS N z v) (hr : OverG N z r) :
    MemFormsG cf.oc be N z W O (Pow.checked O) (opOf cf W (Pow.checked O)) := by
  rw [hW, hO, Pow.checked_ok, opOf_map]
  exact ⟨holds hv, holdsO hr, holdsC hr.check, ends (hr.check.op hv cf.oc)⟩

end

section
variable {x : Limbs w} (be : Bool) (hw : w = 32 ∨ w = 64) (F : Fit w x.length) (h4 : 256 ≤ w * x.length)
include hw F h4

theorem U.wrappingAddFix_ok (k : Fix) (n : BitVec k.n) {v : Limbs w}
    (hf : I256.U.wrappingAddFix k x n = .ok v) (hv : v.length = x.length) :
    U.wrappingAddFix be k (mem be x) n = .ok (mem be v) := by
  have h128 : 128 ∣ w * v.length := by rw [hv]; exact F.n128
  have h := F.n4
  rcases hw with rfl | rfl <;> cases k
  · exact wrapRun hf (Add.wrappingLimb_ok be x _ (by omega)) h128
  · exact wrapRun hf (Add.wrappingWide_ok be (by decide) x _ (by omega)) h128
  · have e : U.wrappingAddFix be .b128 (mem be x) n =
        ((u128ToLimb be n : Res (Limbs 32)).bind fun rhs => wrappingOf (Add.wrappingMn be (mem be x) rhs)) := rfl
    rw [e, u128ToLimb_ok, Res.bind_ok]
    exact wrapRun hf (Add.wrappingMn_ok be x _ (by simp [I256.u128ToLimb]) (by simp [I256.u128ToLimb]; omega)) h128
  · exact wrapRun hf (Add.wrappingLimb_ok be x _ (by omega)) h128
  · exact wrapRun hf (Add.wrappingLimb_ok be x _ (by omega)) h128
  · exact wrapRun hf (Add.wrappingWide_ok be (by decide) x _ (by omega)) h128

theorem U.overflowingAddFix_ok (k : Fix) (n : BitVec k.n) {r : Limbs w × Bool}
    (hf : I256.U.overflowingAddFix k x n = .ok r) (hv : r.1.length = x.length) :
    U.overflowingAddFix be k (mem be x) n = .ok (mem be r.1, r.2) := by
  have h128 : 128 ∣ w * r.1.length := by rw [hv]; exact F.n128
  have h := F.n4
  rcases hw with rfl | rfl <;> cases k
  · exact overRun hf (Add.overflowingLimb_ok be x _ (by omega)) h128
  · exact overRun hf (Add.overflowingWide_ok be (by decide) x _ (by omega)) h128
  · have e : U.overflowingAddFix be .b128 (mem be x) n =
        ((u128ToLimb be n : Res (Limbs 32)).bind fun rhs => overflowingOf (Add.overflowingMn be (mem be x) rhs)) := rfl
    rw [e, u128ToLimb_ok, Res.bind_ok]
    exact overRun hf (Add.overflowingMn_ok be x _ (by simp [I256.u128ToLimb]) (by simp [I256.u128ToLimb]; omega)) h128
  · exact overRun hf (Add.overflowingLimb_ok be x _ (by omega)) h128
  · exact overRun hf (Add.overflowingLimb_ok be x _ (by omega)) h128
  · exact overRun hf (Add.overflowingWide_ok be (by decide) x _ (by omega)) h128

theorem U.wrappingSubFix_ok (k : Fix) (n : BitVec k.n) {v : Limbs w}
    (hf : I256.U.wrappingSubFix k x n = .ok v) (hv : v.length = x.length) :
    U.wrappingSubFix be k (mem be x) n = .ok (mem be v) := by
  have h128 : 128 ∣ w * v.length := by rw [hv]; exact F.n128
  have h := F.n4
  rcases hw with rfl | rfl <;> cases k
  · exact wrapRun hf (Sub.wrappingLimb_ok be x _ (by omega)) h128
  · exact wrapRun hf (Sub.wrappingWide_ok be (by decide) x _ (by omega)) h128
  · have e : U.wrappingSubFix be .b128 (mem be x) n =
        ((u128ToLimb be n : Res (Limbs 32)).bind fun rhs => wrappingOf (Sub.wrappingMn be (mem be x) rhs)) := rfl
    rw [e, u128ToLimb_ok, Res.bind_ok]
    exact wrapRun hf (Sub.wrappingMn_ok be x _ (by simp [I256.u128ToLimb]) (by simp [I256.u128ToLimb]; omega)) h128
  · exact wrapRun hf (Sub.wrappingLimb_ok be x _ (by omega)) h128
  · exact wrapRun hf (Sub.wrappingLimb_ok be x _ (by omega)) h128
  · exact wrapRun hf (Sub.wrappingWide_ok be (by decide) x _ (by omega)) h128

theorem U.overflowingSubFix_ok (k : Fix) (n : BitVec k.n) {r : Limbs w × Bool}
    (hf : I256.U.overflowingSubFix k x n = .ok r) (hv : r.1.length = x.length) :
    U.overflowingSubFix be k (mem be x) n = .ok (mem be r.1, r.2) := by
  have h128 : 128 ∣ w * r.1.length := by rw [hv]; exact F.n128
  have h := F.n4
  rcases hw with rfl | rfl <;> cases k
  · exact overRun hf (Sub.overflowingLimb_ok be x _ (by omega)) h128
  · exact overRun hf (Sub.overflowingWide_ok be (by decide) x _ (by omega)) h128
  · have e : U.overflowingSubFix be .b128 (mem be x) n =
        ((u128ToLimb be n : Res (Limbs 32)).bind fun rhs => overflowingOf (Sub.overflowingMn be (mem be x) rhs)) := rfl
    rw [e, u128ToLimb_ok, Res.bind_ok]
    exact overRun hf (Sub.overflowingMn_ok be x _ (by simp [I256.u128ToLimb]) (by simp [I256.u128ToLimb]; omega)) h128
  · exact overRun hf (Sub.overflowingLimb_ok be x _ (by omega)) h128
  · exact overRun hf (Sub.overflowingLimb_ok be x _ (by omega)) h128
  · exact overRun hf (Sub.overflowingWide_ok be (by decide) x _ (by omega)) h128

theorem U.wrappingMulFix_ok (k : Fix) (n : BitVec k.n) {v : Limbs w}
    (hf : I256.U.wrappingMulFix k x n = .ok v) (hv : v.length = x.length) :
    U.wrappingMulFix be k (mem be x) n = .ok (mem be v) := by
  have h128 : 128 ∣ w * v.length := by rw [hv]; exact F.n128
  have h := F.n4
  rcases hw with rfl | rfl <;> cases k
  · exact wrapRun hf (Mul.wrappingLimb_ok be (by decide) x _ (by omega)) h128
  · exact wrapRun hf (Mul.wrappingWide_ok be (by decide) x _ (by omega)) h128
  · have e : U.wrappingMulFix be .b128 (mem be x) n =
        ((u128ToLimb be n : Res (Limbs 32)).bind fun rhs => wrappingOf (Mul.wrappingFull be (mem be x) rhs)) := rfl
    rw [e, u128ToLimb_ok, Res.bind_ok]
    exact wrapRun hf (Mul.wrappingFull_ok be (by decide) x _ (by simp [I256.u128ToLimb]; omega)) h128
  · exact wrapRun hf (Mul.wrappingLimb_ok be (by decide) x _ (by omega)) h128
  · exact wrapRun hf (Mul.wrappingLimb_ok be (by decide) x _ (by omega)) h128
  · exact wrapRun hf (Mul.wrappingWide_ok be (by decide) x _ (by omega)) h128

theorem U.overflowingMulFix_ok (k : Fix) (n : BitVec k.n) {r : Limbs w × Bool}
    (hf : I256.U.overflowingMulFix k x n = .ok r) (hv : r.1.length = x.length) :
    U.overflowingMulFix be k (mem be x) n = .ok (mem be r.1, r.2) := by
  have h128 : 128 ∣ w * r.1.length := by rw [hv]; exact F.n128
  have h := F.n4
  rcases hw with rfl | rfl <;> cases k
  · exact overRun hf (Mul.overflowingLimb_ok be (by decide) x _ (by omega)) h128
  · exact overRun hf (Mul.overflowingWide_ok be (by decide) x _ (by omega)) h128
  · have e : U.overflowingMulFix be .b128 (mem be x) n =
        ((u128ToLimb be n : Res (Limbs 32)).bind fun rhs => overflowingOf (Mul.overflowingFull be (mem be x) rhs)) := rfl
    rw [e, u128ToLimb_ok, Res.bind_ok]
    exact overRun hf (Mul.overflowingFull_ok be (by decide) x _ (by simp [I256.u128ToLimb]; omega)) h128
  · exact overRun hf (Mul.overflowingLimb_ok be (by decide) x _ (by omega)) h128
  · exact overRun hf (Mul.overflowingLimb_ok be (by decide) x _ (by omega)) h128
  · exact overRun hf (Mul.overflowingWide_ok be (by decide) x _ (by omega)) h128

theorem I.wrappingAddFixU_ok (k : Fix) (hk : ¬ (w = 32 ∧ k = .b128)) (n : BitVec k.n) {v : Limbs w}
    (hf : I256.I.wrappingAddFixU k x n = .ok v) (hv : v.length = x.length) :
    I.wrappingAddFixU be k (mem be x) n = .ok (mem be v) := by
  have h128 : 128 ∣ w * v.length := by rw [hv]; exact F.n128
  have h := F.n4
  rcases hw with rfl | rfl <;> cases k
  · exact wrapRun hf (Add.wrappingLimb_ok be x _ (by omega)) h128
  · exact wrapRun hf (Add.sWrappingUWide_ok be (by decide) x _ (by omega)) h128
  · exact absurd ⟨rfl, rfl⟩ hk
  · exact wrapRun hf (Add.wrappingLimb_ok be x _ (by omega)) h128
  · exact wrapRun hf (Add.wrappingLimb_ok be x _ (by omega)) h128
  · exact wrapRun hf (Add.sWrappingUWide_ok be (by decide) x _ (by omega)) h128

theorem I.overflowingAddFixU_ok (k : Fix) (hk : ¬ (w = 32 ∧ k = .b128)) (n : BitVec k.n) {r : Limbs w × Bool}
    (hf : I256.I.overflowingAddFixU k x n = .ok r) (hv : r.1.length = x.length) :
    I.overflowingAddFixU be k (mem be x) n = .ok (mem be r.1, r.2) := by
  have h128 : 128 ∣ w * r.1.length := by rw [hv]; exact F.n128
  have h := F.n4
  rcases hw with rfl | rfl <;> cases k
  · exact overRun hf (Add.sOverflowingULimb_ok be x _ (by omega)) h128
  · exact overRun hf (Add.sOverflowingUWide_ok be (by decide) x _ (by omega)) h128
  · exact absurd ⟨rfl, rfl⟩ hk
  · exact overRun hf (Add.sOverflowingULimb_ok be x _ (by omega)) h128
  · exact overRun hf (Add.sOverflowingULimb_ok be x _ (by omega)) h128
  · exact overRun hf (Add.sOverflowingUWide_ok be (by decide) x _ (by omega)) h128

theorem I.wrappingAddFixI_ok (k : Fix) (hk : ¬ (w = 32 ∧ k = .b128)) (n : BitVec k.n) {v : Limbs w}
    (hf : I256.I.wrappingAddFixI k x n = .ok v) (hv : v.length = x.length) :
    I.wrappingAddFixI be k (mem be x) n = .ok (mem be v) := by
  have h128 : 128 ∣ w * v.length := by rw [hv]; exact F.n128
  have h := F.n4
  rcases hw with rfl | rfl <;> cases k
  · exact wrapRun hf (Add.sWrappingILimb_ok be x _ (by omega)) h128
  · exact wrapRun hf (Add.sWrappingIWide_ok be (by decide) x _ (by omega)) h128
  · exact absurd ⟨rfl, rfl⟩ hk
  · exact wrapRun hf (Add.sWrappingILimb_ok be x _ (by omega)) h128
  · exact wrapRun hf (Add.sWrappingILimb_ok be x _ (by omega)) h128
  · exact wrapRun hf (Add.sWrappingIWide_ok be (by decide) x _ (by omega)) h128

theorem I.overflowingAddFixI_ok (k : Fix) (hk : ¬ (w = 32 ∧ k = .b128)) (n : BitVec k.n) {r : Limbs w × Bool}
    (hf : I256.I.overflowingAddFixI k x n = .ok r) (hv : r.1.length = x.length) :
    I.overflowingAddFixI be k (mem be x) n = .ok (mem be r.1, r.2) := by
  have h128 : 128 ∣ w * r.1.length := by rw [hv]; exact F.n128
  have h := F.n4
  rcases hw with rfl | rfl <;> cases k
  · exact overRun hf (Add.sOverflowingILimb_ok be x _ (by omega)) h128
  · exact overRun hf (Add.sOverflowingIWide_ok be (by decide) x _ (by omega)) h128
  · exact absurd ⟨rfl, rfl⟩ hk
  · exact overRun hf (Add.sOverflowingILimb_ok be x _ (by omega)) h128
  · exact overRun hf (Add.sOverflowingILimb_ok be x _ (by omega)) h128
  · exact overRun hf (Add.sOverflowingIWide_ok be (by decide) x _ (by omega)) h128

theorem I.wrappingSubFixU_ok (k : Fix) (hk : ¬ (w = 32 ∧ k = .b128)) (n : BitVec k.n) {v : Limbs w}
    (hf : I256.I.wrappingSubFixU k x n = .ok v) (hv : v.length = x.length) :
    I.wrappingSubFixU be k (mem be x) n = .ok (mem be v) := by
  have h128 : 128 ∣ w * v.length := by rw [hv]; exact F.n128
  have h := F.n4
  rcases hw with rfl | rfl <;> cases k
  · exact wrapRun hf (Sub.wrappingLimb_ok be x _ (by omega)) h128
  · exact wrapRun hf (Sub.sWrappingUWide_ok be (by decide) x _ (by omega)) h128
  · exact absurd ⟨rfl, rfl⟩ hk
  · exact wrapRun hf (Sub.wrappingLimb_ok be x _ (by omega)) h128
  · exact wrapRun hf (Sub.wrappingLimb_ok be x _ (by omega)) h128
  · exact wrapRun hf (Sub.sWrappingUWide_ok be (by decide) x _ (by omega)) h128

theorem I.overflowingSubFixU_ok (k : Fix) (hk : ¬ (w = 32 ∧ k = .b128)) (n : BitVec k.n) {r : Limbs w × Bool}
    (hf : I256.I.overflowingSubFixU k x n = .ok r) (hv : r.1.length = x.length) :
    I.overflowingSubFixU be k (mem be x) n = .ok (mem be r.1, r.2) := by
  have h128 : 128 ∣ w * r.1.length := by rw [hv]; exact F.n128
  have h := F.n4
  rcases hw with rfl | rfl <;> cases k
  · exact overRun hf (Sub.sOverflowingULimb_ok be x _ (by omega)) h128
  · exact overRun hf (Sub.sOverflowingUWide_ok be (by decide) x _ (by omega)) h128
  · exact absurd ⟨rfl, rfl⟩ hk
  · exact overRun hf (Sub.sOverflowingULimb_ok be x _ (by omega)) h128
  · exact overRun hf (Sub.sOverflowingULimb_ok be x _ (by omega)) h128
  · exact overRun hf (Sub.sOverflowingUWide_ok be (by decide) x _ (by omega)) h128

theorem I.wrappingSubFixI_ok (k : Fix) (hk : ¬ (w = 32 ∧ k = .b128)) (n : BitVec k.n) {v : Limbs w}
    (hf : I256.I.wrappingSubFixI k x n = .ok v) (hv : v.length = x.length) :
    I.wrappingSubFixI be k (mem be x) n = .ok (mem be v) := by
  have h128 : 128 ∣ w * v.length := by rw [hv]; exact F.n128
  have h := F.n4
  rcases hw with rfl | rfl <;> cases k
  · exact wrapRun hf (Sub.sWrappingILimb_ok be x _ (by omega)) h128
  · exact wrapRun hf (Sub.sWrappingIWide_ok be (by decide) x _ (by omega)) h128
  · exact absurd ⟨rfl, rfl⟩ hk
  · exact wrapRun hf (Sub.sWrappingILimb_ok be x _ (by omega)) h128
  · exact wrapRun hf (Sub.sWrappingILimb_ok be x _ (by omega)) h128
  · exact wrapRun hf (Sub.sWrappingIWide_ok be (by decide) x _ (by omega)) h128

theorem I.overflowingSubFixI_ok (k : Fix) (hk : ¬ (w = 32 ∧ k = .b128)) (n : BitVec k.n) {r : Limbs w × Bool}
    (hf : I256.I.overflowingSubFixI k x n = .ok r) (hv : r.1.length = x.length) :
    I.overflowingSubFixI be k (mem be x) n = .ok (mem be r.1, r.2) := by
  have h128 : 128 ∣ w * r.1.length := by rw [hv]; exact F.n128
  have h := F.n4
  rcases hw with rfl | rfl <;> cases k
  · exact overRun hf (Sub.sOverflowingILimb_ok be x _ (by omega)) h128
  · exact overRun hf (Sub.sOverflowingIWide_ok be (by decide) x _ (by omega)) h128
  · exact absurd ⟨rfl, rfl⟩ hk
  · exact overRun hf (Sub.sOverflowingILimb_ok be x _ (by omega)) h128
  · exact overRun hf (Sub.sOverflowingILimb_ok be x _ (by omega)) h128
  · exact overRun hf (Sub.sOverflowingIWide_ok be (by decide) x _ (by omega)) h128

theorem I.wrappingMulFixU_ok (k : Fix) (n : BitVec k.n) {v : Limbs w}
    (hf : I256.I.wrappingMulFixU k x n = .ok v) (hv : v.length = x.length) :
    I.wrappingMulFixU be k (mem be x) n = .ok (mem be v) := by
  have h128 : 128 ∣ w * v.length := by rw [hv]; exact F.n128
  have h := F.n4
  rcases hw with rfl | rfl <;> cases k
  · exact wrapRun hf (Mul.wrappingLimb_ok be (by decide) x _ (by omega)) h128
  · exact wrapRun hf (Mul.wrappingWide_ok be (by decide) x _ (by omega)) h128
  · obtain ⟨y, ey, yl, -⟩ := u128ToLimbN_spec (N := x.length) (by omega) n
    have e : I.wrappingMulFixU be .b128 (mem be x) n =
        ((u128ToLimbN be (mem be x).length n : Res (Limbs 32)).bind fun rhs =>
          wrappingOf (Mul.wrappingFull be (mem be x) rhs)) := rfl
    have e' : I256.I.wrappingMulFixU .b128 x n = (I256.u128ToLimbN x.length n).map (I256.Mul.wrappingFull x) := rfl
    rw [e', ey] at hf
    rw [e, mem_length, u128ToLimbN_ok be n ey, Res.bind_ok]
    exact wrapRun hf (Mul.wrappingFull_ok be (by decide) x _ (by omega)) h128
  · exact wrapRun hf (Mul.wrappingLimb_ok be (by decide) x _ (by omega)) h128
  · exact wrapRun hf (Mul.wrappingLimb_ok be (by decide) x _ (by omega)) h128
  · exact wrapRun hf (Mul.wrappingWide_ok be (by decide) x _ (by omega)) h128

theorem I.overflowingMulFixU_ok (k : Fix) (n : BitVec k.n) {r : Limbs w × Bool}
    (hf : I256.I.overflowingMulFixU k x n = .ok r) (hv : r.1.length = x.length) :
    I.overflowingMulFixU be k (mem be x) n = .ok (mem be r.1, r.2) := by
  have h128 : 128 ∣ w * r.1.length := by rw [hv]; exact F.n128
  have h := F.n4
  rcases hw with rfl | rfl <;> cases k
  · exact overRun hf (Mul.overflowingULimbS_ok be (by decide) x _ (by omega)) h128
  · exact overRun hf (Mul.overflowingUWideS_ok be (by decide) x _ (by omega)) h128
  · obtain ⟨y, ey, yl, -⟩ := u128ToLimbN_spec (N := x.length) (by omega) n
    have e : I.overflowingMulFixU be .b128 (mem be x) n =
        ((u128ToLimbN be (mem be x).length n : Res (Limbs 32)).bind fun rhs =>
          overflowingOf (Mul.overflowingFullS be (mem be x) rhs)) := rfl
    have e' : I256.I.overflowingMulFixU .b128 x n = (I256.u128ToLimbN x.length n).map (I256.Mul.overflowingFullS x) := rfl
    rw [e', ey] at hf
    rw [e, mem_length, u128ToLimbN_ok be n ey, Res.bind_ok]
    exact overRun hf (Mul.overflowingFullS_ok be (by decide) x _ (by omega) (by omega)) h128
  · exact overRun hf (Mul.overflowingULimbS_ok be (by decide) x _ (by omega)) h128
  · exact overRun hf (Mul.overflowingULimbS_ok be (by decide) x _ (by omega)) h128
  · exact overRun hf (Mul.overflowingUWideS_ok be (by decide) x _ (by omega)) h128

theorem I.wrappingMulFixI_ok (k : Fix) (n : BitVec k.n) {v : Limbs w}
    (hf : I256.I.wrappingMulFixI k x n = .ok v) (hv : v.length = x.length) :
    I.wrappingMulFixI be k (mem be x) n = .ok (mem be v) := by
  have h128 : 128 ∣ w * v.length := by rw [hv]; exact F.n128
  have h := F.n4
  rcases hw with rfl | rfl <;> cases k
  · exact wrapRun hf (Mul.wrappingILimb_ok be (by decide) x _ (by omega)) h128
  · exact wrapRun hf (Mul.wrappingIWide_ok be (by decide) x _ (by omega)) h128
  · obtain ⟨y, ey, yl, -⟩ := i128ToLimbN_spec (N := x.length) (by omega) n
    have e : I.wrappingMulFixI be .b128 (mem be x) n =
        ((i128ToLimbN be (mem be x).length n : Res (Limbs 32)).bind fun rhs =>
          wrappingOf (Mul.wrappingFull be (mem be x) rhs)) := rfl
    have e' : I256.I.wrappingMulFixI .b128 x n = (I256.i128ToLimbN x.length n).map (I256.Mul.wrappingFull x) := rfl
    rw [e', ey] at hf
    rw [e, mem_length, i128ToLimbN_ok be n ey, Res.bind_ok]
    exact wrapRun hf (Mul.wrappingFull_ok be (by decide) x _ (by omega)) h128
  · exact wrapRun hf (Mul.wrappingILimb_ok be (by decide) x _ (by omega)) h128
  · exact wrapRun hf (Mul.wrappingILimb_ok be (by decide) x _ (by omega)) h128
  · exact wrapRun hf (Mul.wrappingIWide_ok be (by decide) x _ (by omega)) h128

theorem I.overflowingMulFixI_ok (k : Fix) (n : BitVec k.n) {r : Limbs w × Bool}
    (hf : I256.I.overflowingMulFixI k x n = .ok r) (hv : r.1.length = x.length) :
    I.overflowingMulFixI be k (mem be x) n = .ok (mem be r.1, r.2) := by
  have h128 : 128 ∣ w * r.1.length := by rw [hv]; exact F.n128
  have h := F.n4
  rcases hw with rfl | rfl <;> cases k
  · exact overRun hf (Mul.overflowingILimbS_ok be (by decide) x _ (by omega)) h128
  · exact overRun hf (Mul.overflowingIWideS_ok be (by decide) x _ (by omega)) h128
  · obtain ⟨y, ey, yl, -⟩ := i128ToLimbN_spec (N := x.length) (by omega) n
    have e : I.overflowingMulFixI be .b128 (mem be x) n =
        ((i128ToLimbN be (mem be x).length n : Res (Limbs 32)).bind fun rhs =>
          overflowingOf (Mul.overflowingFullS be (mem be x) rhs)) := rfl
    have e' : I256.I.overflowingMulFixI .b128 x n = (I256.i128ToLimbN x.length n).map (I256.Mul.overflowingFullS x) := rfl
    rw [e', ey] at hf
    rw [e, mem_length, i128ToLimbN_ok be n ey, Res.bind_ok]
    exact overRun hf (Mul.overflowingFullS_ok be (by decide) x _ (by omega) (by omega)) h128
  · exact overRun hf (Mul.overflowingILimbS_ok be (by decide) x _ (by omega)) h128
  · exact overRun hf (Mul.overflowingILimbS_ok be (by decide) x _ (by omega)) h128
  · exact overRun hf (Mul.overflowingIWideS_ok be (by decide) x _ (by omega)) h128

end

end Raw

end I256
