import Mathlib.Data.Nat.Log
import Verif.Model.Ilog
import Verif.Lemmas.Bitops
import Verif.Lemmas.Pow
import Verif.Lemmas.MulApi
import Verif.Lemmas.DivMisc

/-!
# Lemmas about `checked_ilog`
-/

namespace I256

variable {w : Nat} {x y : Limbs w}

theorem OpU.ok {oc : Bool} {N : Nat} {z : Int} {r : Res (Limbs w)} (h : OpU oc N z r)
    (hz : InU (w * N) z) : ∃ v, r = .ok v ∧ ExactU N z v := by
  cases oc
  · obtain ⟨v, h1, h2⟩ := h
    exact ⟨v, h1, h2.exact hz⟩
  · exact h.1 hz

/-- The lower bound from the binary logarithms. -/
theorem ilog_start_le {a b : Nat} (hb : b ≠ 0) (ha : a ≠ 0) : b ^ (a.log2 / (b.log2 + 1)) ≤ a := by
  have h1 : b ≤ 2 ^ (b.log2 + 1) := Nat.le_of_lt (Nat.lt_log2_self)
  calc b ^ (a.log2 / (b.log2 + 1)) ≤ (2 ^ (b.log2 + 1)) ^ (a.log2 / (b.log2 + 1)) :=
        Nat.pow_le_pow_left h1 _
    _ = 2 ^ ((b.log2 + 1) * (a.log2 / (b.log2 + 1))) := by rw [Nat.pow_mul]
    _ ≤ 2 ^ a.log2 := Nat.pow_le_pow_right (by omega) (Nat.mul_div_le _ _)
    _ ≤ a := Nat.log2_self_le ha

section
variable (hw : 0 < w) (hl : x.length = y.length) (he : x.length % 2 = 0) (h4 : 4 ≤ x.length)
include hw hl he h4

theorem U.div_spec (hy : toNat y ≠ 0) (oc : Bool) :
    Yields (DivPanics w x.length (toNat x) (toNat y)) (ExactU x.length (toNat x / toNat y))
      (U.div oc x y) := by
  rw [U.div, U.checkedDiv, opU_eq hl (by omega) he hy]
  exact wrappingDivU hw hl (by omega) hy

theorem le_val {r q : Limbs w} (h1 : r.length = x.length) (h2 : q.length = x.length) :
    Ord.le false r q = true ↔ toNat r ≤ toNat q := by
  rw [Ord.le_iff hw false (h1.trans h2.symm) (by omega) (by omega)]
  simp [Ord.val]

theorem ilogLoop_spec (oc : Bool) (hb : 2 ≤ toNat y)
    (hp : ¬ DivPanics w x.length (toNat x) (toNat y)) (hbits : bits x < 2 ^ 32)
    (rounds n : Nat) (r : Limbs w) (hr : ExactU x.length ((toNat y ^ n : Nat) : Int) r)
    (hn : n ≤ Nat.log (toNat y) (toNat x)) (hle : toNat y ≤ toNat x)
    (hf : Nat.log (toNat y) (toNat x) < n + rounds) :
    U.ilogLoop oc x y rounds (BitVec.ofNat 32 n) r = some (.ok (Nat.log (toNat y) (toNat x))) := by
  have hlogb : Nat.log (toNat y) (toNat x) < bits x := by
    apply (Nat.log_lt_iff_lt_pow (by omega) (by omega)).2
    exact lt_of_lt_of_le (toNat_lt x) (Nat.pow_le_pow_left hb _)
  induction rounds generalizing n r with
  | zero => omega
  | succ rounds ih =>
    obtain ⟨q, hq, q1, q2⟩ := (U.div_spec hw hl he h4 (by omega) oc).2 hp
    have hrv : toNat r = toNat y ^ n := by exact_mod_cast hr.2
    have hqv : toNat q = toNat x / toNat y := by exact_mod_cast q2
    have hc := le_val hw hl he h4 hr.1 q1
    rw [hrv, hqv, Nat.le_div_iff_mul_le (by omega), ← Nat.pow_succ] at hc
    have hlog : toNat y ^ (n + 1) ≤ toNat x ↔ n + 1 ≤ Nat.log (toNat y) (toNat x) :=
      (Nat.le_log_iff_pow_le (by omega) (by omega)).symm
    rw [U.ilogLoop, hq]
    simp only
    by_cases c : n + 1 ≤ Nat.log (toNat y) (toNat x)
    · rw [if_pos (hc.2 (hlog.2 c))]
      have hn32 : (BitVec.ofNat 32 n == BitVec.allOnes 32) = false := by
        rw [beq_eq_false_iff_ne]
        intro h
        have := congrArg BitVec.toNat h
        rw [BitVec.toNat_ofNat, BitVec.toNat_allOnes, Nat.mod_eq_of_lt (by omega)] at this
        omega
      rw [hn32, Bool.and_false, if_neg (by decide)]
      have hm := (checkedMulU hw (x := r) (y := y) (by rw [hr.1, hl]) (by rw [hr.1]; exact he)
        (by rw [hr.1]; exact h4)).op (Mul.wrapU r y (by omega)) oc
      rw [hr.1, hrv] at hm
      have hz : ((toNat y ^ n : Nat) : Int) * (toNat y : Int) = ((toNat y ^ (n + 1) : Nat) : Int) := by
        rw [Nat.pow_succ]; push_cast; ring
      rw [hz] at hm
      have hin : InU (w * x.length) ((toNat y ^ (n + 1) : Nat) : Int) := by
        have h1 := hlog.2 c
        have h2 := toNat_lt x
        constructor
        · positivity
        · have : toNat y ^ (n + 1) < 2 ^ (w * x.length) := lt_of_le_of_lt h1 h2
          exact_mod_cast this
      obtain ⟨r', hr', hr''⟩ := hm.ok hin
      rw [show U.mul oc r y = .ok r' from hr']
      simp only
      have := ih (n + 1) r' hr'' c (by omega)
      rwa [BitVec.ofNat_add] at this
    · rw [if_neg (fun h => c (hlog.1 (hc.1 h)))]
      rw [BitVec.toNat_ofNat, Nat.mod_eq_of_lt (by omega)]
      congr 2
      omega

theorem ilogStart_spec (oc : Bool) (hx : toNat x ≠ 0) (hy : toNat y ≠ 0) (hbits : bits x < 2 ^ 32) :
    ∃ r, U.ilogStart oc x y =
        .ok (BitVec.ofNat 32 ((toNat x).log2 / ((toNat y).log2 + 1)), r) ∧
      ExactU x.length ((toNat y ^ ((toNat x).log2 / ((toNat y).log2 + 1)) : Nat) : Int) r := by
  have hge : bits x ≥ w + w := by
    have := Nat.mul_le_mul_left w (show 2 ≤ x.length by omega)
    rw [bits]; omega
  have h1 : ilog2 false x = .ok (toNat x).log2 := by
    rw [ilog2, checkedIlog2_spec hw false he h4, Ord.val]
    simp [hx, unwrapOrPanic]
  have h2 : ilog2 false y = .ok (toNat y).log2 := by
    rw [ilog2, checkedIlog2_spec hw false (by omega) (by omega), Ord.val]
    simp [hy, unwrapOrPanic]
  rw [U.ilogStart, if_pos hge, h1, h2]
  simp only [Res.bind_ok]
  have hlt : (toNat x).log2 / ((toNat y).log2 + 1) < 2 ^ 32 := by
    have := (Nat.log2_lt hx).2 (toNat_lt x)
    exact lt_of_le_of_lt (Nat.div_le_self _ _) (by omega)
  have hp := (powOverU hw (x := y) (length_ne (n := 0) (by omega)) hlt).check.op
    (powWrapU hw (length_ne (n := 0) (by omega)) hlt) oc
  have hin : InU (w * y.length) ((toNat y : Int) ^ ((toNat x).log2 / ((toNat y).log2 + 1))) := by
    constructor
    · positivity
    · have h1 := ilog_start_le hy hx
      have h2 := toNat_lt x
      rw [bits, hl] at h2
      have := lt_of_le_of_lt h1 h2
      exact_mod_cast this
  obtain ⟨r, hr, hr'⟩ := hp.ok hin
  rw [← hl] at hr'
  refine ⟨r, ?_, by push_cast; exact hr'⟩
  rw [show U.pow oc y _ = _ from hr, Res.bind_ok]

/-- The early exit. -/
theorem ilog_guard : (x == ofU8 x.length 0 || Ord.le false y (ofU8 x.length 0) || Ord.lt false x y) =
    decide (toNat x = 0 ∨ toNat y = 0 ∨ toNat x < toNat y) := by
  obtain ⟨o1, o2⟩ := ofU8U (w := w) (N := x.length) (v := 0) (by omega) (Nat.two_pow_pos w)
  have o2' : toNat (ofU8 x.length 0 : Limbs w) = 0 := by exact_mod_cast o2
  have h1 : (x == ofU8 x.length 0) = true ↔ toNat x = 0 := by
    rw [beq_iff_eq]
    constructor
    · intro h; rw [h, o2']
    · intro h; exact toNat_inj (by rw [o1]) (by rw [h, o2'])
  have h2 := le_val hw hl he h4 hl.symm o1
  have h3 : Ord.lt false x y = true ↔ toNat x < toNat y := by
    rw [Ord.lt_iff hw false hl he (by omega)]; simp [Ord.val]
  rw [Bool.eq_iff_iff, Bool.or_eq_true, Bool.or_eq_true, h1, h2, h3, o2']
  simp [or_assoc]

theorem checkedIlogU (oc : Bool) (hb : toNat y ≠ 1) (hbits : bits x < 2 ^ 32) (rounds : Nat)
    (hr : bits x ≤ rounds) :
    U.checkedIlog oc rounds x y =
      if toNat x = 0 ∨ toNat y = 0 ∨ toNat x < toNat y then some (.ok none)
      else if DivPanics w x.length (toNat x) (toNat y) then some .panic
      else some (.ok (some (Nat.log (toNat y) (toNat x)))) := by
  rw [U.checkedIlog, ilog_guard hw hl he h4]
  simp only [decide_eq_true_eq]
  by_cases c : toNat x = 0 ∨ toNat y = 0 ∨ toNat x < toNat y
  · rw [if_pos c, if_pos c]
  · rw [if_neg c, if_neg c]
    simp only [not_or, Nat.not_lt] at c
    obtain ⟨c1, c2, c3⟩ := c
    obtain ⟨r, h1, h2⟩ := ilogStart_spec hw hl he h4 oc c1 c2 hbits
    rw [h1]
    simp only
    have hlogb : Nat.log (toNat y) (toNat x) < bits x := by
      apply (Nat.log_lt_iff_lt_pow (by omega) c1).2
      exact lt_of_lt_of_le (toNat_lt x) (Nat.pow_le_pow_left (by omega) _)
    by_cases p : DivPanics w x.length (toNat x) (toNat y)
    · rw [if_pos p]
      obtain ⟨m, rfl⟩ : ∃ m, rounds = m + 1 := ⟨rounds - 1, by omega⟩
      rw [U.ilogLoop, (U.div_spec hw hl he h4 c2 oc).1 p]
      rfl
    · rw [if_neg p, ilogLoop_spec hw hl he h4 oc (by omega) p hbits rounds _ r h2
        ((Nat.le_log_iff_pow_le (by omega) c1).2 (ilog_start_le c2 c1)) c3
        (lt_of_lt_of_le (lt_of_lt_of_le hlogb hr) (Nat.le_add_left _ _))]
      rfl

/-- With base 1 the loop only ends by the overflow of its counter. -/
theorem ilogLoop_one (oc : Bool) (hb : toNat y = 1) (hx : toNat x ≠ 0)
    (hp : ¬ DivPanics w x.length (toNat x) (toNat y)) (rounds : Nat) (n : BitVec 32) (r : Limbs w)
    (hr : ExactU x.length 1 r) :
    U.ilogLoop oc x y rounds n r =
      if oc = true ∧ 2 ^ 32 ≤ n.toNat + rounds then some .panic else none := by
  induction rounds generalizing n r with
  | zero =>
    have := n.isLt
    rw [if_neg (by omega)]
    rfl
  | succ rounds ih =>
    obtain ⟨q, hq, q1, q2⟩ := (U.div_spec hw hl he h4 (by omega) oc).2 hp
    have hrv : toNat r = 1 := by exact_mod_cast hr.2
    have hqv : toNat q = toNat x := by
      rw [hb] at q2; simp at q2; exact_mod_cast q2
    have hc := le_val hw hl he h4 hr.1 q1
    rw [hrv, hqv] at hc
    rw [U.ilogLoop, hq]
    simp only
    rw [if_pos (hc.2 (by omega))]
    have hm := (checkedMulU hw (x := r) (y := y) (by rw [hr.1, hl]) (by rw [hr.1]; exact he)
      (by rw [hr.1]; exact h4)).op (Mul.wrapU r y (by omega)) oc
    rw [hr.1, hrv, hb] at hm
    have hin : InU (w * x.length) (((1 : Nat) : Int) * ((1 : Nat) : Int)) := by
      have h2 := toNat_lt x
      have : 1 < 2 ^ (w * x.length) := by
        have := toNat_lt y; rw [hb, bits, ← hl] at this; exact this
      constructor
      · simp
      · simpa using (by exact_mod_cast this : (1 : Int) < 2 ^ (w * x.length))
    obtain ⟨r', hr', hr''⟩ := hm.ok hin
    rw [show U.mul oc r y = .ok r' from hr']
    simp only
    have hr1 : ExactU x.length 1 r' := by simpa using hr''
    have hlt := n.isLt
    cases oc with
    | false => rw [Bool.false_and, if_neg (by decide), ih _ r' hr1]; simp
    | true =>
      rw [Bool.true_and, ih _ r' hr1]
      by_cases hmax : n = BitVec.allOnes 32
      · rw [if_pos (by simp [hmax]), if_pos]
        have : n.toNat = 2 ^ 32 - 1 := by rw [hmax]; rfl
        exact ⟨rfl, by omega⟩
      · rw [if_neg (by simpa using hmax)]
        have hne : n.toNat ≠ 2 ^ 32 - 1 := fun h => hmax (BitVec.eq_of_toNat_eq (by rw [h]; rfl))
        have : (n + 1).toNat = n.toNat + 1 := by
          rw [BitVec.toNat_add]
          show (n.toNat + 1) % 2 ^ 32 = _
          exact Nat.mod_eq_of_lt (by omega)
        rw [this]
        simp only [true_and]
        congr 1
        rw [eq_iff_iff]
        omega

theorem checkedIlogU_one (oc : Bool) (hb : toNat y = 1) (hx : toNat x ≠ 0) (hbits : bits x < 2 ^ 32)
    (rounds : Nat) :
    U.checkedIlog oc rounds x y =
      if oc = true ∧ 2 ^ 32 ≤ (toNat x).log2 + rounds then some .panic else none := by
  rw [U.checkedIlog, ilog_guard hw hl he h4]
  simp only [decide_eq_true_eq]
  rw [if_neg (by omega)]
  obtain ⟨r, h1, h2⟩ := ilogStart_spec hw hl he h4 oc hx (by omega) hbits
  have hl0 : (1 : Nat).log2 = 0 := by decide
  rw [hb, hl0, Nat.zero_add, Nat.div_one] at h1 h2
  rw [Nat.one_pow] at h2
  rw [h1]
  simp only
  have hp : ¬ DivPanics w x.length (toNat x) (toNat y) := by
    apply Clean.noPanic
    intro j
    have : nLimbs w (toNat y) < 2 := by
      rw [hb, nLimbs, bitLen, if_neg (by decide), hl0, Nat.div_lt_iff_lt_mul hw]; omega
    simp [addBack, this]
  have hlog := (Nat.log2_lt hx).2 (toNat_lt x)
  rw [ilogLoop_one hw hl he h4 oc hb hx hp rounds _ r (by exact_mod_cast h2), BitVec.toNat_ofNat,
    Nat.mod_eq_of_lt (by omega)]
  split <;> rfl

end
end I256
