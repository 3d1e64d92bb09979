import Verif.Repair.Rest
import Verif.Lemmas.RepairDiv
import Verif.Lemmas.Ilog
import Verif.Lemmas.Write
import Verif.Lemmas.Fixed
import Verif.Lemmas.ShiftApi

/-!
# Lemmas about the other repaired functions
-/

namespace I256

variable {w : Nat} {x y : Limbs w}

namespace Repair

/-! ## Multiplication -/

theorem overflowingFullS_spec (hw : 0 < w) (hx : x ≠ []) (hl : x.length = y.length) :
    OverS x.length (toInt x * toInt y) (overflowingFullS x y) := by
  have hy : y ≠ [] := by intro h; rw [h] at hl; exact hx (List.length_eq_zero_iff.1 hl)
  have hN : 0 < x.length := List.length_pos_iff.2 hx
  have hfst : (overflowingFullS x y).1 = (Mul.overflowingFullS x y).1 := by
    unfold overflowingFullS Mul.overflowingFullS
    simp only
    split <;> rfl
  refine ⟨by rw [hfst]; exact (Mul.overflowingFullS_spec hw hx hl).1, ?_⟩
  have ax := Mul.absLimbs hw hx
  have ay := Mul.absLimbs hw hy
  have nx := isNegative_iff hw hx
  have ny := isNegative_iff hw hy
  rw [I.isNegative] at nx ny
  unfold overflowingFullS
  simp only
  generalize (if (msLimb x).slt 0 then negate x else x) = x' at *
  generalize (if (msLimb y).slt 0 then negate y else y) = y' at *
  have ho := Mul.overU x' y' (by rw [ay.1]; omega)
  rw [ax.1, ax.2, ay.2] at ho
  generalize Mul.overflowingFull x' y' = p at *
  obtain ⟨r, o⟩ := p
  obtain ⟨hr, hf⟩ := ho
  simp only at hr hf ⊢
  have hrl := hr.1
  have hrne : r ≠ [] := length_ne (n := 0) (by omega)
  have hneg := isNegative_iff hw hrne
  rw [I.isNegative] at hneg
  have hmin := minValueS hw (N := r.length) (by omega)
  have hpos : 0 < w * x.length := Nat.mul_pos hw hN
  have hp := two_pow_pred (w := w * x.length) hpos
  have hval : o = false → (toNat r : Int) = |toInt x| * |toInt y| := by
    intro h
    rw [hr.2, emod_of_InU]
    by_contra hc
    rw [hf.2 hc] at h
    simp at h
  have hz0 : 0 ≤ |toInt x| * |toInt y| := by positivity
  have hlt := toNat_lt_int r
  rw [bits, hrl] at hlt
  have hcase := toInt_cases r
  rw [bits, hrl] at hcase
  rw [hrl] at hmin
  have hisMin : (r == I.minValue w r.length) = true ↔ toInt r = -2 ^ (w * x.length - 1) := by
    rw [beq_iff_eq, hrl]
    exact ⟨fun h => by rw [h]; exact hmin.2, fun h => toInt_inj (by rw [hmin.1, hrl]) (h.trans hmin.2.symm)⟩
  have hS : ∀ z, InS (w * x.length) z ↔ -2 ^ (w * x.length - 1) ≤ z ∧ z < 2 ^ (w * x.length - 1) := by
    intro z; unfold InS; rw [hp]; omega
  have hU : ∀ z, InU (w * x.length) z ↔ 0 ≤ z ∧ z < 2 * 2 ^ (w * x.length - 1) := by
    intro z; unfold InU; rw [hp]
  rw [hU] at hf
  rw [hp] at hcase hlt
  have hin := toInt_InS r
  rw [bits, hrl, hS] at hin
  by_cases hs : ((msLimb x).slt 0 ^^ (msLimb y).slt 0) = true
  · have hz : toInt x * toInt y = -(|toInt x| * |toInt y|) := by
      by_cases h1 : (msLimb x).slt 0 = true
      · have h2 : ¬ (msLimb y).slt 0 = true := by rw [h1] at hs; simpa using hs
        have h4 : 0 ≤ toInt y := by by_contra hc; exact h2 (ny.2 (by omega))
        rw [abs_of_neg (nx.1 h1), abs_of_nonneg h4]
        ring
      · have h2 : (msLimb y).slt 0 = true := by
          rw [Bool.not_eq_true] at h1
          rw [h1] at hs; simpa using hs
        have h4 : 0 ≤ toInt x := by by_contra hc; exact h1 (nx.2 (by omega))
        rw [abs_of_neg (ny.1 h2), abs_of_nonneg h4]
        ring
    rw [hs]
    simp only [Bool.not_true, Bool.false_eq_true, if_false]
    rw [hz, hS]
    generalize |toInt x| * |toInt y| = m at *
    generalize (2 : Int) ^ (w * x.length - 1) = Q at *
    generalize (msLimb r).slt 0 = b1 at *
    generalize (r == I.minValue w r.length) = b2 at *
    cases o <;> cases b1 <;> cases b2 <;> simp at * <;> omega
  · have hz : toInt x * toInt y = |toInt x| * |toInt y| := by
      by_cases h1 : (msLimb x).slt 0 = true
      · have h2 : (msLimb y).slt 0 = true := by rw [h1] at hs; simpa using hs
        rw [abs_of_neg (nx.1 h1), abs_of_neg (ny.1 h2)]
        ring
      · have h2 : ¬ (msLimb y).slt 0 = true := by
          rw [Bool.not_eq_true] at h1
          rw [h1] at hs; simpa using hs
        have h4 : 0 ≤ toInt x := by by_contra hc; exact h1 (nx.2 (by omega))
        have h5 : 0 ≤ toInt y := by by_contra hc; exact h2 (ny.2 (by omega))
        rw [abs_of_nonneg h4, abs_of_nonneg h5]
    rw [Bool.not_eq_true] at hs
    rw [hs]
    simp only [Bool.not_false, if_true]
    rw [hz, hS]
    generalize |toInt x| * |toInt y| = m at *
    generalize (2 : Int) ^ (w * x.length - 1) = Q at *
    generalize (msLimb r).slt 0 = b1 at *
    cases o <;> cases b1 <;> simp at * <;> omega

theorem checkedMulULimbS_spec (hw : 0 < w) (h2 : 2 ≤ x.length) (n : BitVec w) :
    CheckS x.length (toInt x * n.toNat) (checkedMulULimbS x n) := by
  have h := overflowingFullS_spec hw (length_ne (n := 0) (by omega))
    (extU_length (by omega : 1 ≤ x.length) n).symm
  rw [extU_toInt (by omega) (by omega)] at h
  exact h.check

/-! ## Division -/

theorem wrappingDivRemS_spec (hw : 0 < w) (hl : x.length = y.length) (h2 : 2 ≤ x.length)
    (he : x.length % 2 = 0) :
    Yields (toInt y = 0)
      (fun r => WrapS x.length ((toInt x).tdiv (toInt y)) r.1 ∧
        ExactS x.length ((toInt x).tmod (toInt y)) r.2)
      (wrappingDivRemS x y) := by
  obtain ⟨xl, xv⟩ := unsignedAbs_natAbs hw h2 he
  obtain ⟨yl, yv⟩ := unsignedAbs_natAbs hw (x := y) (by omega) (by omega)
  have hxe : x ≠ [] := by intro h; rw [h] at h2; simp at h2
  have hye : y ≠ [] := by intro h; rw [hl, h] at h2; simp at h2
  have h := full_spec hw (x := I.unsignedAbs x) (y := I.unsignedAbs y) (by omega) (by omega)
  rw [xl, xv, yv] at h
  refine (h.map ?_).congr (by omega)
  rintro ⟨q, r⟩ ⟨⟨ql, qv⟩, rl, rv⟩
  simp only at ql qv rl rv ⊢
  constructor
  · have := signAdjust hw (I.isNegative x != I.isNegative y) h2 ql qv
    rw [isNegative_eq hw hxe, isNegative_eq hw hye] at this ⊢
    rw [tdiv_natAbs] at this
    exact this
  · have := signAdjust hw (I.isNegative x) h2 rl rv
    rw [isNegative_eq hw hxe] at this ⊢
    simp only [decide_eq_true_eq] at this ⊢
    have e := tmod_natAbs (toInt x) (toInt y) 0 (fun _ => rfl)
    simp only [Nat.add_zero, Nat.cast_zero, mul_zero, add_zero] at e
    rw [e] at this
    refine this.exact ?_
    have hm := Nat.mod_le (toInt x).natAbs (toInt y).natAbs
    have hin := toInt_InS x
    have hpos : (0 : Int) < 2 ^ (w * x.length) := by positivity
    rw [bits] at hin
    rw [← e]
    unfold InS at hin ⊢
    generalize (toInt x).natAbs % (toInt y).natAbs = k at *
    split <;> omega

/-! ## Logarithms -/

section
variable (hw : 0 < w) (hl : x.length = y.length) (he : x.length % 2 = 0) (h4 : 4 ≤ x.length)
include hw hl he h4

theorem ilogLoop_spec (oc : Bool) (hb : 2 ≤ toNat y) (hbits : bits x < 2 ^ 32)
    (rounds n : Nat) (r : Limbs w) (hr : ExactU x.length ((toNat y ^ n : Nat) : Int) r)
    (hn : n ≤ Nat.log (toNat y) (toNat x)) (hle : toNat y ≤ toNat x)
    (hf : Nat.log (toNat y) (toNat x) < n + rounds) :
    ilogLoop oc x y rounds (BitVec.ofNat 32 n) r = some (.ok (Nat.log (toNat y) (toNat x))) := by
  have hlogb : Nat.log (toNat y) (toNat x) < bits x := by
    apply (Nat.log_lt_iff_lt_pow (by omega) (by omega)).2
    exact lt_of_lt_of_le (toNat_lt x) (Nat.pow_le_pow_left hb _)
  induction rounds generalizing n r with
  | zero => omega
  | succ rounds ih =>
    obtain ⟨⟨q, r1⟩, hq, ⟨q1, hqv⟩, _⟩ := (full_spec hw hl (by omega)).2 (by omega)
    simp only at q1 hqv
    have hrv : toNat r = toNat y ^ n := by exact_mod_cast hr.2
    have hc := le_val hw hl he h4 hr.1 q1
    rw [hrv, hqv, Nat.le_div_iff_mul_le (by omega), ← Nat.pow_succ] at hc
    have hlog : toNat y ^ (n + 1) ≤ toNat x ↔ n + 1 ≤ Nat.log (toNat y) (toNat x) :=
      (Nat.le_log_iff_pow_le (by omega) (by omega)).symm
    rw [ilogLoop, hq]
    simp only
    by_cases c : n + 1 ≤ Nat.log (toNat y) (toNat x)
    · rw [if_pos (hc.2 (hlog.2 c))]
      have hn32 : (BitVec.ofNat 32 n == BitVec.allOnes 32) = false := by
        rw [beq_eq_false_iff_ne]
        intro h
        have := congrArg BitVec.toNat h
        rw [BitVec.toNat_ofNat, BitVec.toNat_allOnes, Nat.mod_eq_of_lt (by omega)] at this
        omega
      rw [hn32, Bool.and_false, if_neg (by decide)]
      have hm := (checkedMulU hw (x := r) (y := y) (by rw [hr.1, hl]) (by rw [hr.1]; exact he)
        (by rw [hr.1]; exact h4)).op (Mul.wrapU r y (by omega)) oc
      rw [hr.1, hrv] at hm
      have hz : ((toNat y ^ n : Nat) : Int) * (toNat y : Int) = ((toNat y ^ (n + 1) : Nat) : Int) := by
        rw [Nat.pow_succ]; push_cast; ring
      rw [hz] at hm
      have hin : InU (w * x.length) ((toNat y ^ (n + 1) : Nat) : Int) := by
        have h1 := hlog.2 c
        have h2 := toNat_lt x
        constructor
        · positivity
        · have : toNat y ^ (n + 1) < 2 ^ (w * x.length) := lt_of_le_of_lt h1 h2
          exact_mod_cast this
      obtain ⟨r', hr', hr''⟩ := hm.ok hin
      rw [show U.mul oc r y = .ok r' from hr']
      simp only
      have := ih (n + 1) r' hr'' c (by omega)
      rwa [BitVec.ofNat_add] at this
    · rw [if_neg (fun h => c (hlog.1 (hc.1 h)))]
      rw [BitVec.toNat_ofNat, Nat.mod_eq_of_lt (by omega)]
      congr 2
      omega

theorem checkedIlogU_spec (oc : Bool) (hbits : bits x < 2 ^ 32) (rounds : Nat) (hr : bits x ≤ rounds) :
    checkedIlogU oc rounds x y =
      some (.ok (if 1 ≤ toNat x ∧ 2 ≤ toNat y then some (Nat.log (toNat y) (toNat x)) else none)) := by
  have hw1 : 1 < 2 ^ w := Nat.one_lt_two_pow (by omega)
  obtain ⟨o1, o2⟩ := ofU8U (w := w) (N := x.length) (v := 0) (by omega) (Nat.two_pow_pos w)
  obtain ⟨p1, p2⟩ := ofU8U (w := w) (N := x.length) (v := 1) (by omega) hw1
  have o2' : toNat (ofU8 x.length 0 : Limbs w) = 0 := by exact_mod_cast o2
  have p2' : toNat (ofU8 x.length 1 : Limbs w) = 1 := by exact_mod_cast p2
  have h1 : (x == ofU8 x.length 0) = true ↔ toNat x = 0 := by
    rw [beq_iff_eq]
    constructor
    · intro h; rw [h, o2']
    · intro h; exact toNat_inj (by rw [o1]) (by rw [h, o2'])
  have h2 := le_val hw hl he h4 hl.symm p1
  rw [p2'] at h2
  have h3 : Ord.lt false x y = true ↔ toNat x < toNat y := by
    rw [Ord.lt_iff hw false hl he (by omega)]; simp [Ord.val]
  have hg : (x == ofU8 x.length 0 || Ord.le false y (ofU8 x.length 1)) = true ↔
      ¬ (1 ≤ toNat x ∧ 2 ≤ toNat y) := by
    rw [Bool.or_eq_true, h1, h2]; omega
  rw [checkedIlogU]
  by_cases c : 1 ≤ toNat x ∧ 2 ≤ toNat y
  · rw [if_neg (fun h => hg.1 h c), if_pos c]
    by_cases c3 : toNat x < toNat y
    · rw [if_pos (h3.2 c3), Nat.log_of_lt c3]
    · rw [if_neg (fun h => c3 (h3.1 h))]
      obtain ⟨r, e1, e2⟩ := ilogStart_spec hw hl he h4 oc (by omega) (by omega) hbits
      rw [e1]
      simp only
      have hlogb : Nat.log (toNat y) (toNat x) < bits x := by
        apply (Nat.log_lt_iff_lt_pow (by omega) (by omega)).2
        exact lt_of_lt_of_le (toNat_lt x) (Nat.pow_le_pow_left (by omega) _)
      rw [ilogLoop_spec hw hl he h4 oc (by omega) hbits rounds _ r e2
        ((Nat.le_log_iff_pow_le (by omega) (by omega)).2 (ilog_start_le (by omega) (by omega))) (by omega)
        (lt_of_lt_of_le (lt_of_lt_of_le hlogb hr) (Nat.le_add_left _ _))]
      rfl
  · rw [if_pos (hg.2 c), if_neg c]

theorem checkedIlogS_spec (hw1 : 1 < w) (oc : Bool) (hbits : bits x < 2 ^ 32) (rounds : Nat)
    (hr : bits x ≤ rounds) :
    checkedIlogS oc rounds x y =
      some (.ok (if 1 ≤ toInt x ∧ 2 ≤ toInt y then
        some (Nat.log (toInt y).toNat (toInt x).toNat) else none)) := by
  have hw2 : 1 < 2 ^ w := Nat.one_lt_two_pow (by omega)
  obtain ⟨o1, o2⟩ := ofU8S (w := w) (N := x.length) (v := 0) hw (by omega) (Nat.two_pow_pos w)
  obtain ⟨p1, p2⟩ := ofU8S (w := w) (N := x.length) (v := 1) hw (by omega) hw2
  have h1 : Ord.le true x (ofU8 x.length 0) = true ↔ toInt x ≤ 0 := by
    rw [Ord.le_iff hw true o1.symm (by omega) (by omega)]; simp [Ord.val, o2]
  have h2 : Ord.le true y (ofU8 x.length 1) = true ↔ toInt y ≤ 1 := by
    rw [Ord.le_iff hw true (hl.symm.trans p1.symm) (by omega) (by omega)]; simp [Ord.val, p2]
  have hg : (Ord.le true x (ofU8 x.length 0) || Ord.le true y (ofU8 x.length 1)) = true ↔
      ¬ (1 ≤ toInt x ∧ 2 ≤ toInt y) := by
    rw [Bool.or_eq_true, h1, h2]; omega
  rw [checkedIlogS]
  by_cases c : 1 ≤ toInt x ∧ 2 ≤ toInt y
  · rw [if_neg (fun h => hg.1 h c), if_pos c, checkedIlogU_spec hw hl he h4 oc hbits rounds hr]
    have hx : toNat x = (toInt x).toNat := by rcases toInt_cases x with ⟨a, b⟩ | ⟨a, b⟩ <;> omega
    have hy : toNat y = (toInt y).toNat := by rcases toInt_cases y with ⟨a, b⟩ | ⟨a, b⟩ <;> omega
    rw [if_pos (by omega), hx, hy]
  · rw [if_pos (hg.2 c), if_neg c]

end

/-! ## Text -/

section
variable {N : Nat} {radix : BitVec 32} (hw : w = 32 ∨ w = 64) (hN : 4 ≤ N) (hr : 2 ≤ radix.toNat)
  (hr' : radix.toNat ≤ 36)
include hw hN hr hr'

/-- The checked loop of the changed signed parser, for either sign. -/
theorem checkedLoop_specS (negative : Bool) (ds : List Byte) :
    ReadsS N radix.toNat (if negative then -1 else 1) (if negative then .negOverflow else .posOverflow) ds
      (Parse.checkedLoop (if negative then .negOverflow else .posOverflow) checkedMulULimbS
        (if negative then I.checkedSubULimb else I.checkedAddULimb) radix ds (ofU8 N 0 : Limbs w)) := by
  have h32 : 32 ≤ w := by omega
  have hrad := setWidth_radix h32 radix
  have h0 := ofU8_zero (w := w) N (by omega)
  have h5 := signed_pow (N := N) hw (by omega)
  have hpos : (0 : Int) < 2 ^ (w * N - 1) := by positivity
  have hs := checkedLoop_spec (over := if negative then .negOverflow else .posOverflow)
    (mul := checkedMulULimbS) (add := if negative then I.checkedSubULimb else I.checkedAddULimb)
    (E := fun a v => ExactS N ((if negative then -1 else 1) * (a : Int)) v)
    (P := fun a => InS (w * N) ((if negative then -1 else 1) * (a : Int))) h32 hr hr'
    (by
      intro a b hab h
      have : (a : Int) ≤ b := by exact_mod_cast hab
      unfold InS at h ⊢
      rw [h5] at h ⊢
      cases negative <;> simp at h ⊢ <;> omega)
    (by
      intro v a d hv
      have h1 := checkedMulULimbS_spec (by omega) (hv.1.trans_ge (by omega)) (radix.setWidth w)
      rw [hv.1, hv.2, hrad] at h1
      have hnn : (0 : Int) ≤ (a : Int) * radix.toNat := by positivity
      have hd : (0 : Int) ≤ (d.toNat : Int) := by positivity
      push_cast
      rw [mul_assoc] at h1
      by_cases c : InS (w * N) ((if negative then -1 else 1) * ((a : Int) * radix.toNat))
      · obtain ⟨u, u1, u2⟩ := h1.1 c
        have h2 : CheckS N ((if negative then -1 else 1) * ((a : Int) * radix.toNat + d.toNat))
            ((if negative then I.checkedSubULimb else I.checkedAddULimb) u d) := by
          cases negative
          · have h2 := (Add.uLimbOverS (by omega) (u2.1.trans_ge (by omega)) d).check
            rw [u2.1, u2.2] at h2
            simp only [Bool.false_eq_true, if_false, one_mul] at h2 ⊢
            exact h2
          · have h2 := (Sub.uLimbOverS (by omega) (u2.1.trans_ge (by omega)) d).check
            rw [u2.1, u2.2] at h2
            simp only [if_true] at h2 ⊢
            rw [show (-1 : Int) * ((a : Int) * radix.toNat + d.toNat) =
              -1 * ((a : Int) * radix.toNat) - d.toNat by ring]
            exact h2
        refine ⟨fun q => ?_, fun q => Or.inr ⟨u, u1, h2.2 q⟩⟩
        obtain ⟨t, t1, t2⟩ := h2.1 q
        exact ⟨u, t, u1, t1, t2⟩
      · refine ⟨fun q => absurd ?_ c, fun _ => Or.inl (h1.2 c)⟩
        unfold InS at q ⊢
        rw [h5] at q ⊢
        cases negative <;> simp at q ⊢ <;> omega)
    ds _ 0 ⟨h0.1, by
      have := h0.exactS (n := 0) (by decide) (by
        have : 0 < w * N := Nat.mul_pos (by omega) (by omega)
        omega)
      simpa using this.2⟩ (by unfold InS; rw [h5]; push_cast; omega)
  simp only [← numVal_eq_horner] at hs
  refine ⟨hs.1, hs.2.1, fun q e => ?_⟩
  have := hs.2.2 q e
  rwa [e] at this

theorem body_specS (negative : Bool) (ds : List Byte) :
    ReadsS N radix.toNat (if negative then -1 else 1) (if negative then .negOverflow else .posOverflow) ds
      (Parse.body (parseOpsS (w := w)) true N radix negative ds) := by
  have hc := checkedLoop_specS (w := w) hw hN hr hr' negative ds
  have hu := I.unchecked_spec (w := w) hw hN hr hr' ds negative
  unfold Parse.body
  simp only
  by_cases c : ds.length ≤ Parse.overflowDigits (N * w / 8) radix true
  · have hu := (hu c).2
    cases negative <;> simpa [c, parseOpsS, I.parseOps] using hu
  · cases negative <;> simpa [c, parseOpsS, I.parseOps] using hc

theorem fromStrRadixU_spec (s : List Byte) :
    ∃ p, fromStrRadix (U.parseOps (w := w)) false N s radix = .ok p ∧ ParsesU (w := w) N radix.toNat s p := by
  unfold fromStrRadix
  rw [if_neg (by rw [radix_ok hw hN hr hr']; decide)]
  cases s with
  | nil => exact ⟨_, rfl, rfl⟩
  | cons c t =>
    simp only [ParsesU, Bool.and_false, Bool.false_eq_true, if_false, parseBody, reduceCtorEq]
    by_cases c1 : c = 43
    · simp only [if_pos c1]
      refine ⟨_, rfl, ?_⟩
      split
      · rfl
      · exact U.body_spec hw hN hr hr' t
    · by_cases c2 : c = 45
      · simp only [if_neg c1, if_pos c2]
        exact ⟨_, rfl, rfl⟩
      · simp only [if_neg c1, if_neg c2]
        exact ⟨_, rfl, U.body_spec hw hN hr hr' (c :: t)⟩

theorem fromStrRadixS_spec (s : List Byte) :
    ∃ p, fromStrRadix (parseOpsS (w := w)) true N s radix = .ok p ∧ ParsesS (w := w) N radix.toNat s p := by
  unfold fromStrRadix
  rw [if_neg (by rw [radix_ok hw hN hr hr']; decide)]
  cases s with
  | nil => exact ⟨_, rfl, rfl⟩
  | cons c t =>
    simp only [ParsesS, Bool.and_true, decide_eq_true_eq, parseBody, reduceCtorEq, if_false]
    by_cases c1 : c = 43
    · simp only [if_pos c1]
      refine ⟨_, rfl, ?_⟩
      split
      · rfl
      · exact body_specS hw hN hr hr' false t
    · by_cases c2 : c = 45
      · simp only [if_neg c1, if_pos c2]
        refine ⟨_, rfl, ?_⟩
        split
        · rfl
        · exact body_specS hw hN hr hr' true t
      · simp only [if_neg c1, if_neg c2]
        exact ⟨_, rfl, body_specS hw hN hr hr' false (c :: t)⟩

end

theorem toStrRadixS_spec (hw : w = 32 ∨ w = 64) (h4 : 4 ≤ x.length) (he : x.length % 2 = 0)
    {radix : BitVec 32} (hr : 2 ≤ radix.toNat) (hr' : radix.toNat ≤ 36) (oc : Bool) (len : Nat)
    (hlen : bits x + 1 ≤ len) :
    toStrRadixS oc len x radix = .ok (numeralS radix.toNat (toInt x)) := by
  obtain ⟨l, v⟩ := I.abs_val hw h4 he
  have hb : bits (I.unsignedAbs x) = bits x := by rw [bits, bits, l]
  rw [toStrRadixS, if_neg (by omega), U.toStrRadix_spec hw (by omega) (by omega) hr hr' oc _ (by omega), v,
    isNegative_eq (by omega) (length_ne (n := 0) (by omega))]
  simp [numeralS]

/-! ## Shifts -/

theorem primInRange_iff {n : Nat} (hn : n ≤ 128) (ps : Bool) {B : Nat} (hB : B < 2 ^ 128) (a : BitVec n) :
    primInRange ps B a = true ↔ 0 ≤ primVal ps a ∧ primVal ps a < B := by
  have hp : 2 ^ n ≤ 2 ^ 128 := Nat.pow_le_pow_right (by decide) hn
  have hlt := a.isLt
  unfold primInRange
  cases ps
  · simp only [primVal, Bool.false_eq_true, if_false, Bool.false_and, Bool.not_false, Bool.true_and]
    rw [BitVec.ult_iff_lt, BitVec.lt_def, BitVec.toNat_ofNat, Nat.mod_eq_of_lt hB, BitVec.toNat_setWidth,
      Nat.mod_eq_of_lt (by omega)]
    omega
  · simp only [primVal, if_true, Bool.true_and]
    rw [Bool.and_eq_true, Bool.not_eq_true', ← Bool.not_eq_true, BitVec.slt_iff_toInt_lt,
      BitVec.ult_iff_lt, BitVec.lt_def, BitVec.toNat_ofNat, Nat.mod_eq_of_lt hB]
    by_cases h : a.toInt < 0
    · simp [h]
    · have h0 : a.msb = false := by rw [BitVec.msb_eq_toInt]; simpa using h
      rw [BitVec.signExtend_eq_setWidth_of_msb_false h0, BitVec.toNat_setWidth,
        Nat.mod_eq_of_lt (by omega), BitVec.toInt_eq_toNat_of_msb h0]
      simp

theorem unboundedShrS_spec {k : Nat} (hk : w = 2 ^ k) (h2 : x.length % 2 = 0) (hx : x ≠ []) (s : Nat) :
    ExactS x.length (toInt x / 2 ^ s) (unboundedShrS x s) := by
  have hw := pow_pos_width hk
  have hN : 1 ≤ x.length := List.length_pos_iff.2 hx
  unfold unboundedShrS
  split
  · rename_i h
    have := wrappingShrS hk h2 hx s
    rwa [Nat.mod_eq_of_lt h] at this
  · rename_i hs
    have hlt := toInt_InS x
    have hp : (2:Int) ^ bits x ≤ 2 ^ s := pow_le_pow_right₀ (by norm_num) (by omega)
    have hn := isNegative_iff hw hx
    unfold InS at hlt
    split
    · rename_i h
      rw [hn] at h
      have : toInt x / 2 ^ s = -1 := by
        rw [Int.ediv_eq_iff_of_pos (by positivity)]
        omega
      rw [this]
      refine ofI8S hN ?_
      have := two_pow_pred hw
      have : (0 : Int) < 2 ^ (w - 1) := by positivity
      unfold InS
      omega
    · rename_i h
      rw [hn] at h
      rw [Int.ediv_eq_zero_of_lt (by omega) (by omega)]
      exact ofU8S hw (by omega) (by positivity)

/-! ## Carry -/

theorem carryingAddS_spec (hw : 1 < w) (hx : 2 ≤ x.length) (hl : x.length = y.length) (c : Bool) :
    OverS x.length (toInt x + toInt y + c.toNat) (carryingAddS x y c) := by
  have h1 := Add.overS hw (length_ne (n := 0) (by omega)) hl
  unfold carryingAddS I.overflowingAdd
  generalize Add.sOverflowingFull x y = r at *
  obtain ⟨a, b⟩ := r
  obtain ⟨⟨l1, e1⟩, f1⟩ := h1
  simp only at l1 e1 f1
  have h2 := Add.uLimbOverS hw (x := a) (by omega) (boolLimb w c)
  rw [boolLimb_toNat (by omega)] at h2
  unfold I.overflowingAddULimb
  simp only
  generalize Add.sOverflowingULimb a (boolLimb w c) = r at *
  obtain ⟨v, d⟩ := r
  obtain ⟨⟨l2, e2⟩, f2⟩ := h2
  simp only at *
  rw [l1] at *
  have hxl := toInt_InS x
  have hyl := toInt_InS y
  rw [show bits y = w * x.length by simp [bits, hl]] at hyl
  rw [show bits x = w * x.length from rfl] at *
  refine ⟨⟨l2, ?_⟩, ?_⟩
  · rw [e2, e1, Int.bmod_add_bmod]
  · have hb := bmod_two (n := w * x.length) (z := toInt x + toInt y)
      (by unfold InS at hxl hyl; omega) (by unfold InS at hxl hyl; omega)
    rw [← e1] at hb
    have hpp := two_pow_pred (w := w * x.length) (Nat.mul_pos (by omega) (by omega))
    have hp1 : (1 : Int) < 2 ^ (w * x.length - 1) := by
      apply one_lt_pow₀ (by norm_num)
      have := Nat.mul_le_mul_left w hx
      omega
    unfold InS at *
    generalize (2 : Int) ^ (w * x.length) = P at *
    cases c <;> cases b <;> cases d <;> simp at * <;> omega

theorem borrowingSubS_spec (hw : 1 < w) (hx : 2 ≤ x.length) (hl : x.length = y.length) (c : Bool) :
    OverS x.length (toInt x - toInt y - c.toNat) (borrowingSubS x y c) := by
  have h1 := Sub.overS hw (length_ne (n := 0) (by omega)) hl
  unfold borrowingSubS I.overflowingSub
  generalize Sub.sOverflowingFull x y = r at *
  obtain ⟨a, b⟩ := r
  obtain ⟨⟨l1, e1⟩, f1⟩ := h1
  simp only at l1 e1 f1
  have h2 := Sub.uLimbOverS hw (x := a) (by omega) (boolLimb w c)
  rw [boolLimb_toNat (by omega)] at h2
  unfold I.overflowingSubULimb
  simp only
  generalize Sub.sOverflowingULimb a (boolLimb w c) = r at *
  obtain ⟨v, d⟩ := r
  obtain ⟨⟨l2, e2⟩, f2⟩ := h2
  simp only at *
  rw [l1] at *
  have hxl := toInt_InS x
  have hyl := toInt_InS y
  rw [show bits y = w * x.length by simp [bits, hl]] at hyl
  rw [show bits x = w * x.length from rfl] at *
  refine ⟨⟨l2, ?_⟩, ?_⟩
  · rw [e2, e1, Int.bmod_sub_bmod]
  · have hb := bmod_two (n := w * x.length) (z := toInt x - toInt y)
      (by unfold InS at hxl hyl; omega) (by unfold InS at hxl hyl; omega)
    rw [← e1] at hb
    have hpp := two_pow_pred (w := w * x.length) (Nat.mul_pos (by omega) (by omega))
    have hp1 : (1 : Int) < 2 ^ (w * x.length - 1) := by
      apply one_lt_pow₀ (by norm_num)
      have := Nat.mul_le_mul_left w hx
      omega
    unfold InS at *
    generalize (2 : Int) ^ (w * x.length) = P at *
    cases c <;> cases b <;> cases d <;> simp at * <;> omega

/-! ## Conversions -/

theorem tryFromUnsigned_spec (hw : 0 < w) (h2 : x.length % 2 = 0) (h4 : 4 ≤ x.length) :
    CheckS x.length (toNat x) (tryFromUnsigned x) := by
  have hN : 1 ≤ x.length := by omega
  obtain ⟨l1, h1⟩ := maxValueS hw (show 0 < x.length by omega)
  have hp := two_pow_pred (w := w * x.length) (Nat.mul_pos hw hN)
  have hpos : (0:Int) < 2 ^ (w * x.length - 1) := by positivity
  have hmax : (toNat (I.maxValue w x.length) : Int) = 2 ^ (w * x.length - 1) - 1 := by
    rcases toInt_cases (I.maxValue w x.length) with ⟨h3, h4⟩ | ⟨h3, h4⟩
    · omega
    · rw [h1] at h3; omega
  have hle := Ord.le_iff hw false (x := x) (y := I.maxValue w x.length) l1.symm h2 (by omega)
  simp only [Ord.val, Bool.false_eq_true, if_false, hmax] at hle
  by_cases hc : (toNat x : Int) ≤ 2 ^ (w * x.length - 1) - 1
  · have hi : InS (w * x.length) (toNat x) := by
      unfold InS; rw [hp]; omega
    refine ⟨fun _ => ⟨x, by rw [tryFromUnsigned, if_pos (hle.2 hc)], rfl, ?_⟩,
      fun h => absurd hi h⟩
    rw [← bmod_of_InS hi, toInt_eq_bmod]; rfl
  · refine ⟨fun h => ?_, fun _ => by rw [tryFromUnsigned, if_neg (by rw [hle]; exact hc)]⟩
    exfalso
    unfold InS at h
    rw [hp] at h
    omega

theorem low_toNat (n : BitVec 128) :
    toNat [n.setWidth 32, (n >>> 32).setWidth 32, (n >>> 64).setWidth 32, (n >>> 96).setWidth 32] =
      n.toNat := by
  have := n.isLt
  simp only [toNat_cons, toNat_nil, BitVec.toNat_setWidth, BitVec.toNat_ushiftRight,
    Nat.shiftRight_eq_div_pow]
  omega

theorem u128ToLimbN_spec {N : Nat} (hN : 4 < N) (n : BitVec 128) :
    ∃ y : Limbs 32, u128ToLimbN N n = .ok y ∧ ExactU N n.toNat y := by
  refine ⟨_, if_pos hN, by simp; omega, ?_⟩
  have e : (n.setWidth 32 :: (n >>> 32).setWidth 32 :: (n >>> 64).setWidth 32 ::
      (n >>> 96).setWidth 32 :: List.replicate (N - 4) 0 : Limbs 32) =
      [n.setWidth 32, (n >>> 32).setWidth 32, (n >>> 64).setWidth 32, (n >>> 96).setWidth 32]
        ++ List.replicate (N - 4) 0 := rfl
  rw [e, toNat_append, toNat_replicate_zero, Nat.mul_zero, Nat.add_zero, low_toNat]

theorem i128ToLimbN_spec {N : Nat} (hN : 4 < N) (n : BitVec 128) :
    ∃ y : Limbs 32, i128ToLimbN N n = .ok y ∧ ExactS N n.toInt y := by
  refine ⟨_, if_pos hN, by simp; omega, ?_⟩
  have hv := low_toNat n
  have hl := n.isLt
  obtain ⟨m, rfl⟩ : ∃ m, N = m + 5 := ⟨N - 5, by omega⟩
  have hs : n.slt 0 = decide (n.toInt < 0) := by
    rw [Bool.eq_iff_iff, BitVec.slt_iff_toInt_lt]; simp
  have hi : n.toInt = (n.toNat : Int) - if n.toInt < 0 then 2 ^ 128 else 0 := by
    rw [BitVec.toInt_eq_toNat_cond]
    split <;> split <;> omega
  generalize hy : ([n.setWidth 32, (n >>> 32).setWidth 32, (n >>> 64).setWidth 32,
    (n >>> 96).setWidth 32] : Limbs 32) = low at hv
  have e : (n.setWidth 32 :: (n >>> 32).setWidth 32 :: (n >>> 64).setWidth 32 ::
      (n >>> 96).setWidth 32 :: List.replicate (m + 5 - 4) (signLimb 32 (n.slt 0)) : Limbs 32) =
      low ++ List.replicate (m + 1) (signLimb 32 (n.slt 0)) := by rw [← hy]; rfl
  have hlow : low.length = 4 := by rw [← hy]; rfl
  have hf := toNat_signFill (w := 32) (m + 1) (n.slt 0)
  rw [hi, e, toInt, toNat_append, hv, bits, bits, hlow]
  rw [show (low ++ List.replicate (m + 1) (signLimb 32 (n.slt 0))).length = 4 + (m + 1) by
    simp [hlow], Nat.mul_add 32, pow_add, pow_add, show 32 * 4 = 128 from rfl]
  generalize toNat (List.replicate (m + 1) (signLimb 32 (n.slt 0))) = F at hf ⊢
  generalize n.toNat = S at hl ⊢
  have hM : (2 : Nat) ≤ 2 ^ (32 * (m + 1)) :=
    (by norm_num : 2 ≤ 2 ^ 1).trans (Nat.pow_le_pow_right (by omega) (by omega))
  have hMc : ((2 ^ (32 * (m + 1)) : Nat) : Int) = 2 ^ (32 * (m + 1)) := by push_cast; rfl
  rw [← hMc] at hf ⊢
  generalize 2 ^ (32 * (m + 1)) = M at hM hf ⊢
  rw [hs] at hf
  by_cases hn : n.toInt < 0
  · simp only [hn, decide_true, if_true] at hf ⊢
    obtain rfl : F = M - 1 := by omega
    rw [if_neg (by rw [Nat.mul_sub]; omega)]
    push_cast [show 1 ≤ M by omega]
    ring
  · simp only [hn, decide_false] at hf ⊢
    obtain rfl : F = 0 := by simpa using hf
    rw [if_pos (by omega)]
    simp

end Repair
end I256
