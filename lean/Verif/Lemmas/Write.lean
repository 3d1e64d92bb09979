import Verif.Model.Write
import Verif.Lemmas.Parse
import Verif.Lemmas.DivStep
import Verif.Lemmas.NegAbs
import Verif.Lemmas.DivScalar

/-!
# Lemmas about the formatter
-/

namespace I256

variable {w : Nat}

/-! ## Numerals -/

theorem numeral_of_lt {r n : Nat} (h : n < r) : numeral r n = [digitByte n] := by
  unfold numeral
  by_cases h0 : n = 0
  · rw [if_pos h0, h0]
  · rw [if_neg h0, Nat.digits_of_lt r n h0 h]; rfl

theorem numeral_of_ge {r n : Nat} (hr : 2 ≤ r) (h : r ≤ n) :
    numeral r n = numeral r (n / r) ++ [digitByte (n % r)] := by
  have h1 : n / r ≠ 0 := by
    have := Nat.div_pos h (by omega)
    omega
  unfold numeral
  rw [if_neg (by omega), if_neg h1, Nat.digits_def' (by omega) (by omega)]
  simp

theorem dig_digitByte {d : Nat} (hd : d < 36) :
    digitOf (digitByte d) = some d := by
  unfold digitByte digitOf
  by_cases c : d < 10
  · rw [if_pos c, BitVec.toNat_ofNat, Nat.mod_eq_of_lt (by omega), if_pos (by omega)]
    congr 1; omega
  · rw [if_neg c, BitVec.toNat_ofNat, Nat.mod_eq_of_lt (by omega), if_neg (by omega), if_pos (by omega)]
    congr 1; omega

theorem isDigit_digitByte {r d : Nat} (hr : r ≤ 36) (hd : d < r) :
    isDigit r (digitByte d) = true := by
  unfold isDigit
  rw [dig_digitByte (by omega)]
  simpa using hd

theorem numeral_isDigit {r : Nat} (hr : 2 ≤ r) (hr' : r ≤ 36) (n : Nat) :
    ∀ c ∈ numeral r n, isDigit r c = true := by
  intro c hc
  unfold numeral at hc
  split at hc
  · simp only [List.mem_singleton] at hc
    rw [hc]; exact isDigit_digitByte hr' (by omega)
  · rw [List.mem_reverse, List.mem_map] at hc
    obtain ⟨d, hd, rfl⟩ := hc
    exact isDigit_digitByte hr' (Nat.digits_lt_base (by omega) hd)

theorem numVal_numeral {r : Nat} (hr : 2 ≤ r) (hr' : r ≤ 36) (n : Nat) :
    numVal r (numeral r n) = n := by
  unfold numVal numeral
  split
  · rename_i h
    rw [h]; simp [dig_digitByte]
  · rw [List.map_reverse, List.reverse_reverse, List.map_map]
    have : (Nat.digits r n).map ((fun c => (digitOf c).getD 0) ∘ digitByte) = Nat.digits r n := by
      conv => rhs; rw [← List.map_id (Nat.digits r n)]
      apply List.map_congr_left
      intro d hd
      have := Nat.digits_lt_base (by omega) hd
      simp [dig_digitByte (show d < 36 by omega)]
    rw [this, Nat.ofDigits_digits]

theorem numeral_ne_nil (r n : Nat) : numeral r n ≠ [] := by
  unfold numeral
  split
  · simp
  · rename_i h
    simpa [Nat.digits_eq_nil_iff_eq_zero] using h

/-- The first character of a numeral is not a sign. -/
theorem numeral_head {r : Nat} (hr : 2 ≤ r) (hr' : r ≤ 36) (n : Nat) {c : Byte} {t : List Byte}
    (h : numeral r n = c :: t) : c ≠ 43 ∧ c ≠ 45 := by
  have := numeral_isDigit hr hr' n c (by rw [h]; simp)
  constructor <;> (rintro rfl; revert this; unfold isDigit digitOf; simp)

/-! ## Digits -/

theorem digitToChar_eq (oc : Bool) {d radix : BitVec 32} (hr' : radix.toNat ≤ 36)
    (hd : d.toNat < radix.toNat) : Write.digitToChar oc d radix = .ok (digitByte d.toNat) := by
  have h1 : radix ≤ 10 ↔ radix.toNat ≤ 10 := Iff.rfl
  have h2 : d < 10 ↔ d.toNat < 10 := Iff.rfl
  have n0 : (48 : Byte).toNat = 48 := rfl
  have n1 : (65 : Byte).toNat = 65 := rfl
  have n2 : (10 : Byte).toNat = 10 := rfl
  have hs : (d.setWidth 8).toNat = d.toNat := by
    rw [BitVec.toNat_setWidth]; omega
  unfold Write.digitToChar digitByte
  simp only [h1, h2, Bool.or_eq_true, decide_eq_true_eq]
  by_cases c : d.toNat < 10
  · rw [if_pos (Or.inr c), if_pos c]
    unfold Write.addU8
    rw [if_neg (by rw [hs, n0]; simp; omega)]
    congr 1
    apply BitVec.eq_of_toNat_eq
    rw [BitVec.toNat_add, hs, n0, BitVec.toNat_ofNat, Nat.add_comm]
  · rw [if_neg (by omega), if_neg c]
    unfold Write.addU8 Write.subU8
    rw [if_neg (by rw [hs, n1]; simp; omega)]
    have ha : (d.setWidth 8 + 65).toNat = d.toNat + 65 := by
      rw [BitVec.toNat_add, hs, n1]; omega
    simp only [Res.bind]
    rw [if_neg (by rw [ha, n2]; simp)]
    congr 1
    apply BitVec.eq_of_toNat_eq
    rw [BitVec.toNat_sub, ha, n2, BitVec.toNat_ofNat]
    omega

/-! ## The loop -/

/-- What the loop needs to know about the type: values below `M` are compared and divided as
naturals. -/
structure Write.Good (signed : Bool) (divRem : Limbs w → BitVec w → Res (Limbs w × BitVec w))
    (N M : Nat) (radix : BitVec 32) : Prop where
  cmp : ∀ x : Limbs w, x.length = N → toNat x < M →
    (Ord.lt signed x (Cast.fromU32 N radix) = true ↔ toNat x < radix.toNat)
  div : ∀ x : Limbs w, x.length = N → toNat x < M → ∃ q r, divRem x (radix.setWidth w) = .ok (q, r) ∧
    q.length = N ∧ toNat q = toNat x / radix.toNat ∧ r.toNat = toNat x % radix.toNat

theorem Write.loop_spec (oc : Bool) {signed : Bool}
    {divRem : Limbs w → BitVec w → Res (Limbs w × BitVec w)} {N M : Nat} {radix : BitVec 32}
    (hg : Write.Good signed divRem N M radix) (hr : 2 ≤ radix.toNat) (hr' : radix.toNat ≤ 36)
    (index : Nat) (x : Limbs w) (out : List Byte) (hx : x.length = N) (hM : toNat x < M)
    (h : toNat x < radix.toNat ^ index) (hi : 1 ≤ index) :
    ∃ i x' out', Write.loop oc signed divRem (Cast.fromU32 N radix) radix 1 index x out
        = .ok (i, x', out') ∧
      1 ≤ i ∧ x'.length = N ∧ toNat x' < M ∧ toNat x' < radix.toNat ∧
      digitByte (toNat x') :: out' = numeral radix.toNat (toNat x) ++ out := by
  induction index generalizing x out with
  | zero => omega
  | succ index ih =>
    rw [Write.loop]
    have hc := hg.cmp x hx hM
    unfold Ord.ge
    by_cases c : toNat x < radix.toNat
    · rw [hc.2 c]
      refine ⟨index + 1, x, out, rfl, by omega, hx, hM, c, ?_⟩
      rw [numeral_of_lt c]; rfl
    · have hcf : Ord.lt signed x (Cast.fromU32 N radix) = false := by
        rw [← Bool.not_eq_true]; exact fun q => c (hc.1 q)
      have hi2 : 1 < index + 1 := by
        rcases Nat.eq_zero_or_pos index with h0 | h0
        · rw [h0] at h; simp at h; omega
        · omega
      rw [hcf]
      simp only [Bool.not_false, Bool.true_and, decide_eq_true_eq, if_pos hi2]
      obtain ⟨q, r, e, ql, qv, rv⟩ := hg.div x hx hM
      rw [e]
      simp only [Res.bind]
      have hrl : r.toNat < radix.toNat := by rw [rv]; exact Nat.mod_lt _ (by omega)
      have hrs : (r.setWidth 32).toNat = r.toNat := by rw [BitVec.toNat_setWidth]; omega
      rw [digitToChar_eq oc hr' (by rw [hrs]; exact hrl), hrs]
      simp only
      have hqle : toNat q ≤ toNat x := by rw [qv]; exact Nat.div_le_self _ _
      obtain ⟨i, x', out', l1, l2, l3, l4, l5, l6⟩ := ih q (digitByte r.toNat :: out) ql (by omega)
        (by rw [qv]; apply Nat.div_lt_of_lt_mul; rw [Nat.mul_comm, ← Nat.pow_succ]; exact h) (by omega)
      refine ⟨i, x', out', l1, l2, l3, l4, l5, ?_⟩
      rw [l6, numeral_of_ge hr (show radix.toNat ≤ toNat x by omega), qv, rv]
      simp

theorem getLimb_zero_toNat {x : Limbs w} (hx : x ≠ []) : (getLimb x 0).toNat = toNat x % 2 ^ w := by
  cases x with
  | nil => exact absurd rfl hx
  | cons a l =>
    have := a.isLt
    rw [toNat_cons]
    simp only [getLimb, List.getD_cons_zero]
    rw [Nat.add_mul_mod_self_left, Nat.mod_eq_of_lt this]

theorem Write.toStrRadix_spec (oc : Bool) {signed : Bool}
    {divRem : Limbs w → BitVec w → Res (Limbs w × BitVec w)} {M : Nat} {radix : BitVec 32}
    {x : Limbs w} (hw : 32 ≤ w) (hx : x ≠ []) (hg : Write.Good signed divRem x.length M radix)
    (hr : 2 ≤ radix.toNat) (hr' : radix.toNat ≤ 36) (hM : toNat x < M) (len : Nat)
    (hlen : bits x + signed.toNat ≤ len)
    (hneg : (signed && Ord.lt signed x (ofU8 x.length 0)) = false) :
    Write.toStrRadix oc signed divRem len x radix = .ok (numeral radix.toNat (toNat x)) := by
  unfold Write.toStrRadix
  have h1 : radix < 2 ↔ radix.toNat < 2 := Iff.rfl
  have h2 : 36 < radix ↔ 36 < radix.toNat := Iff.rfl
  have h0 : (decide (radix < 2) || decide (36 < radix)) = false := by
    simp only [h1, h2]
    simp
    omega
  have hN : 0 < x.length := List.length_pos_iff.2 hx
  have hbp : 32 ≤ bits x := by
    unfold bits
    calc 32 ≤ w * 1 := by omega
      _ ≤ w * x.length := Nat.mul_le_mul_left _ hN
  rw [h0, if_neg (by decide), if_neg (by omega), hneg]
  simp only [Bool.false_eq_true, if_false]
  obtain ⟨i, x', out', l1, l2, l3, l4, l5, l6⟩ := Write.loop_spec oc hg hr hr' len x [] rfl hM
    (lt_of_lt_of_le (toNat_lt x) (le_trans (Nat.pow_le_pow_left hr _)
      (Nat.pow_le_pow_right (by omega) (by omega)))) (by omega)
  rw [l1]
  simp only [Res.bind]
  rw [(hg.cmp x' l3 l4).2 l5]
  simp only [Bool.not_true, Bool.false_eq_true, if_false]
  have hx' : x' ≠ [] := length_ne (n := 0) (by omega)
  have hd : ((getLimb x' 0).setWidth 32).toNat = toNat x' := by
    have h32 : 2 ^ 32 ≤ 2 ^ w := Nat.pow_le_pow_right (by omega) hw
    rw [BitVec.toNat_setWidth, getLimb_zero_toNat hx', Nat.mod_eq_of_lt (b := 2 ^ w) (by omega)]
    omega
  rw [digitToChar_eq oc hr' (by rw [hd]; exact l5), hd]
  simp only
  rw [l6]
  simp

section
variable {x : Limbs w} {radix : BitVec 32} (hw : w = 32 ∨ w = 64) (h4 : 4 ≤ x.length)
  (he : x.length % 2 = 0) (hr : 2 ≤ radix.toNat) (hr' : radix.toNat ≤ 36)
include hw h4 he hr hr'

theorem U.good (oc : Bool) :
    Write.Good false (U.divRemULimb (w := w) oc) x.length (2 ^ bits x) radix := by
  have h32 : 32 ≤ w := by omega
  have hrad := setWidth_radix h32 radix
  refine ⟨fun y hy hM => ?_, fun y hy hM => ?_⟩
  · obtain ⟨l, v⟩ := fromU_spec (w := w) (N := x.length) hw h4 .b32 radix
    change (toNat (Cast.fromU32 x.length radix : Limbs w) : Int) = (radix.toNat : Int) at v
    change (Cast.fromU32 x.length radix : Limbs w).length = x.length at l
    rw [Ord.lt_iff (by omega) false (hy.trans l.symm) (by omega) (by omega)]
    simp only [Ord.val, Bool.false_eq_true, if_false, v]
    omega
  · have hn : radix.setWidth w ≠ 0 := by
      intro q
      rw [q] at hrad
      simp at hrad
      omega
    obtain ⟨q, r, e, ql, qv, rv⟩ := Div.limb_spec hn y
    rw [hrad] at qv rv
    refine ⟨q, r, ?_, ql.trans hy, qv, rv⟩
    have hz : isZeroScalar (radix.setWidth w) = false := by simpa [isZeroScalar] using hn
    have hw' : U.wrappingDivRemULimb y (radix.setWidth w) = .ok (q, r) := e
    have hc : U.checkedDivRemULimb y (radix.setWidth w) = .ok (some (q, r)) := by
      rw [U.checkedDivRemULimb, hz, checkedBy_false, hw', Res.map_ok]
    rw [U.divRemULimb, hc, hw']; cases oc <;> rfl

theorem U.toStrRadix_spec (oc : Bool) (len : Nat) (hlen : bits x ≤ len) :
    U.toStrRadix oc len x radix = .ok (numeral radix.toNat (toNat x)) :=
  Write.toStrRadix_spec oc (by omega) (length_ne (n := 0) (by omega)) (U.good hw h4 he hr hr' oc) hr hr'
    (toNat_lt x) len hlen rfl

theorem I.good (hB : 128 < bits x) (oc : Bool) :
    Write.Good true (I.divRemULimb (w := w) oc) x.length (2 ^ (bits x - 1)) radix := by
  have h32 : 32 ≤ w := by omega
  have hrad := setWidth_radix h32 radix
  have h2 : 2 ^ bits x = 2 * 2 ^ (bits x - 1) := by
    rw [← pow_succ', show bits x - 1 + 1 = bits x by omega]
  have hnn : ∀ y : Limbs w, y.length = x.length → toNat y < 2 ^ (bits x - 1) → toInt y = toNat y := by
    intro y hy hM
    have hby : bits y = bits x := by unfold bits; rw [hy]
    unfold toInt
    rw [if_pos (by rw [hby, h2]; omega)]
  refine ⟨fun y hy hM => ?_, fun y hy hM => ?_⟩
  · obtain ⟨l, v⟩ := fromU_specS (w := w) (N := x.length) hw h4 hB .b32 radix
    change toInt (Cast.fromU32 x.length radix : Limbs w) = (radix.toNat : Int) at v
    change (Cast.fromU32 x.length radix : Limbs w).length = x.length at l
    rw [Ord.lt_iff (by omega) true (hy.trans l.symm) (by omega) (by omega)]
    simp only [Ord.val, if_true, v, hnn y hy hM]
    omega
  · have hn : radix.setWidth w ≠ 0 := by
      intro q
      rw [q] at hrad
      simp at hrad
      omega
    obtain ⟨q, r, e, hq, hrr⟩ := limbU (x := y) (by omega) (by omega) (by omega) hn oc
    rw [hrad, hnn y hy hM] at hq hrr
    have hqv : toInt q = ((toNat y / radix.toNat : Nat) : Int) := by rw [hq.2]; push_cast; rfl
    refine ⟨q, r, ?_, hq.1.trans hy, ?_, ?_⟩
    · have hz : isZeroScalar (radix.setWidth w) = false := by simpa [isZeroScalar] using hn
      have hc : I.checkedDivRemULimb oc y (radix.setWidth w) = .ok (some (q, r)) := by
        rw [I.checkedDivRemULimb, hz, checkedBy_false, e, Res.map_ok]
      rw [I.divRemULimb, hc, e]; cases oc <;> rfl
    · have hql := toNat_lt q
      have hbq : bits q = bits x := by unfold bits; rw [hq.1, hy]
      rw [hbq] at hql
      have hd : toNat y / radix.toNat ≤ toNat y := Nat.div_le_self _ _
      unfold toInt at hqv
      rw [hbq] at hqv
      split at hqv
      · exact_mod_cast hqv
      · rw [← natCast_two_pow] at hqv
        generalize toNat y / radix.toNat = t at *
        omega
    · exact_mod_cast hrr

end

/-! ## Signed numbers -/

theorem numeralS_neg {r : Nat} {z : Int} (h : z < 0) : numeralS r z = 45#8 :: numeral r z.natAbs :=
  if_pos h

theorem numeralS_nonneg {r : Nat} {z : Int} (h : 0 ≤ z) : numeralS r z = numeral r z.toNat := by
  rw [numeralS, if_neg (by omega)]
  congr 1
  omega

section
variable {x : Limbs w} {radix : BitVec 32} (hw : w = 32 ∨ w = 64) (h4 : 4 ≤ x.length)
  (he : x.length % 2 = 0) (hB : 128 < bits x)
include hw h4 he

theorem lt_zero_eq : Ord.lt true x (ofU8 x.length 0) = decide (toInt x < 0) := by
  obtain ⟨hl, hv⟩ := ofU8S (w := w) (N := x.length) (v := 0) (by omega) (by omega) (Nat.two_pow_pos w)
  rw [Bool.eq_iff_iff, Ord.lt_iff (by omega) true hl.symm (by omega) (by omega)]
  simp only [Ord.val, if_true, hv]
  simp

include hB

theorem I.toStrRadix_nonneg (hr : 2 ≤ radix.toNat) (hr' : radix.toNat ≤ 36) (oc : Bool) (len : Nat)
    (hlen : bits x + 1 ≤ len) (h0 : 0 ≤ toInt x) :
    I.toStrRadix oc len x radix = .ok (numeralS radix.toNat (toInt x)) := by
  have hM : toNat x < 2 ^ (bits x - 1) := by
    have h2 : 2 ^ bits x = 2 * 2 ^ (bits x - 1) := by
      rw [← pow_succ', show bits x - 1 + 1 = bits x by omega]
    have hS := (toInt_InS x).2
    have hc := toInt_cases x
    rw [← natCast_two_pow, h2] at hS hc
    omega
  rw [I.toStrRadix, Write.toStrRadix_spec oc (by omega) (length_ne (n := 0) (by omega))
    (I.good hw h4 he hr hr' hB oc) hr hr' hM len (by simpa using hlen)
    (by rw [lt_zero_eq hw h4 he]; simpa using h0), numeralS_nonneg h0]
  congr 2
  rcases toInt_cases x with h | h <;> omega

/-- A negative number is never below the smallest digit, so the loop does not run. -/
theorem I.toStrRadix_neg (hr : 2 ≤ radix.toNat) (hr' : radix.toNat ≤ 36) (oc : Bool) (len : Nat)
    (hlen : bits x + 1 ≤ len) (h0 : toInt x < 0) :
    I.toStrRadix oc len x radix =
      (Write.digitToChar oc ((getLimb x 0).setWidth 32) radix).bind fun c => .ok [45#8, c] := by
  have h1 : radix < 2 ↔ radix.toNat < 2 := Iff.rfl
  have h2 : 36 < radix ↔ 36 < radix.toNat := Iff.rfl
  have hg : (decide (radix < 2) || decide (36 < radix)) = false := by
    simp only [h1, h2]
    simp
    omega
  obtain ⟨l, v⟩ := fromU_specS (w := w) (N := x.length) hw h4 hB .b32 radix
  change toInt (Cast.fromU32 x.length radix : Limbs w) = (radix.toNat : Int) at v
  change (Cast.fromU32 x.length radix : Limbs w).length = x.length at l
  have hlt : Ord.lt true x (Cast.fromU32 x.length radix) = true := by
    rw [Ord.lt_iff (by omega) true l.symm (by omega) (by omega)]
    simp only [Ord.val, if_true, v]
    omega
  have hz : Ord.lt true x (ofU8 x.length 0) = true := by
    rw [lt_zero_eq hw h4 he]; simpa using h0
  obtain ⟨n, rfl⟩ : ∃ n, len = n + 1 := ⟨len - 1, by omega⟩
  rw [I.toStrRadix, Write.toStrRadix, hg, if_neg (by decide), if_neg (by simpa using by omega)]
  simp only [hz, Bool.and_true, if_true, Write.loop, Ord.ge, hlt, Bool.not_true, Bool.false_and,
    Bool.false_eq_true, if_false, Res.bind]

/-- No negative number comes out right. -/
theorem I.toStrRadix_neg_ne (hr : 2 ≤ radix.toNat) (hr' : radix.toNat ≤ 36) (oc : Bool) (len : Nat)
    (hlen : bits x + 1 ≤ len) (h0 : toInt x < 0) :
    I.toStrRadix oc len x radix ≠ .ok (numeralS radix.toNat (toInt x)) := by
  rw [I.toStrRadix_neg hw h4 he hB hr hr' oc len hlen h0, numeralS_neg h0]
  intro hq
  cases hc : Write.digitToChar oc ((getLimb x 0).setWidth 32) radix with
  | panic => rw [hc] at hq; cases hq
  | ok c =>
    rw [hc] at hq
    simp only [Res.bind, Res.ok.injEq, List.cons.injEq, true_and] at hq
    by_cases hd : (toInt x).natAbs < radix.toNat
    · rw [numeral_of_lt hd] at hq
      simp only [List.cons.injEq, and_true] at hq
      obtain ⟨d, hdx⟩ : ∃ d : Nat, toInt x = -(d : Int) := ⟨(toInt x).natAbs, by omega⟩
      have hda : (toInt x).natAbs = d := by omega
      rw [hda] at hq hd
      have hlow : ((getLimb x 0).setWidth 32).toNat = 2 ^ 32 - d := by
        have h1 := getLimb_toNat x 0
        rcases toInt_cases x with h | h
        · omega
        have hp : (2 : Int) ^ bits x = 2 ^ 32 * (2 ^ (bits x - 32) : Nat) := by
          have h3 := pow_add (2 : Int) 32 (bits x - 32)
          rw [show 32 + (bits x - 32) = bits x by omega] at h3
          rw [h3]
          push_cast
          rfl
        rw [hp] at h
        rw [BitVec.toNat_setWidth, h1]
        simp only [Nat.mul_zero, pow_zero, Nat.div_one]
        rcases hw with rfl | rfl <;> omega
      generalize hg : (getLimb x 0).setWidth 32 = g at hc hlow
      have h8 : (g.setWidth 8).toNat = 256 - d := by
        rw [BitVec.toNat_setWidth, hlow]; omega
      have e1 : radix ≤ 10 ↔ radix.toNat ≤ 10 := Iff.rfl
      have e2 : g < 10 ↔ g.toNat < 10 := Iff.rfl
      have n0 : (48 : Byte).toNat = 48 := rfl
      have n1 : (65 : Byte).toNat = 65 := rfl
      have n2 : (10 : Byte).toNat = 10 := rfl
      have hv : c.toNat = 48 - d ∧ radix.toNat ≤ 10 ∨ c.toNat = 55 - d := by
        unfold Write.digitToChar at hc
        simp only [e1, e2, Bool.or_eq_true, decide_eq_true_eq] at hc
        split at hc
        · unfold Write.addU8 at hc
          split at hc
          · cases hc
          · left
            cases hc
            rw [BitVec.toNat_add, h8, n0]
            omega
        · unfold Write.addU8 Write.subU8 at hc
          split at hc
          · cases hc
          · simp only [Res.bind] at hc
            split at hc
            · cases hc
            · right
              cases hc
              rw [BitVec.toNat_sub, BitVec.toNat_add, h8, n1, n2]
              omega
      have hw8 : c.toNat = if d < 10 then 48 + d else 55 + d := by
        rw [hq, digitByte, BitVec.toNat_ofNat]
        split <;> omega
      split at hw8 <;> omega
    · rw [numeral_of_ge hr (by omega)] at hq
      have hl := congrArg List.length hq
      have hp := List.length_pos_iff.2 (numeral_ne_nil radix.toNat ((toInt x).natAbs / radix.toNat))
      simp only [List.length_append, List.length_cons, List.length_nil] at hl
      omega

end

/-! ## The formatting traits -/

section
variable {x : Limbs w} (hw : w = 32 ∨ w = 64) (h4 : 4 ≤ x.length) (he : x.length % 2 = 0)
include hw h4 he

theorem U.fmtDisplay_eq (oc : Bool) (f : Write.Flags) :
    U.fmtDisplay oc f x = .ok (numeral 10 (toNat x)) :=
  U.toStrRadix_spec (radix := 10) hw h4 he (by decide) (by decide) oc _ le_rfl

theorem U.fmtBinary_eq (oc : Bool) (f : Write.Flags) :
    U.fmtBinary oc f x = .ok (Write.pad f (ascii "0b") (numeral 2 (toNat x))) := by
  rw [U.fmtBinary, U.toStrRadix_spec hw h4 he (by decide) (by decide) oc _ le_rfl]; rfl

theorem U.fmtOctal_eq (oc : Bool) (f : Write.Flags) :
    U.fmtOctal oc f x = .ok (Write.pad f (ascii "0o") (numeral 8 (toNat x))) := by
  rw [U.fmtOctal, U.toStrRadix_spec hw h4 he (by decide) (by decide) oc _ le_rfl]; rfl

theorem U.fmtLowerHex_eq (oc : Bool) (f : Write.Flags) :
    U.fmtLowerHex oc f x = .ok (Write.pad f (ascii "0x") ((numeral 16 (toNat x)).map lowerByte)) := by
  rw [U.fmtLowerHex, U.toStrRadix_spec hw h4 he (by decide) (by decide) oc _ le_rfl]; rfl

omit hw h4 he in
theorem toUpper_of_digit {c : Byte} (h : ∃ d < 36, c = digitByte d) : Write.toUpper c = c := by
  obtain ⟨d, hd, rfl⟩ := h
  unfold Write.toUpper
  rw [if_neg]
  rintro ⟨h1, -⟩
  have h1 : 97 ≤ (digitByte d).toNat := h1
  rw [digitByte, BitVec.toNat_ofNat] at h1
  split at h1 <;> omega

omit hw h4 he in
theorem numeral_mem {r n : Nat} (hr : 2 ≤ r) {c : Byte} (h : c ∈ numeral r n) :
    ∃ d < r, c = digitByte d := by
  unfold numeral at h
  split at h
  · exact ⟨0, by omega, by simpa using h⟩
  · rw [List.mem_reverse, List.mem_map] at h
    obtain ⟨d, hd, rfl⟩ := h
    exact ⟨d, Nat.digits_lt_base (by omega) hd, rfl⟩

theorem U.fmtUpperHex_eq (oc : Bool) (f : Write.Flags) :
    U.fmtUpperHex oc f x = .ok (Write.pad f (ascii "0x") (numeral 16 (toNat x))) := by
  rw [U.fmtUpperHex, U.toStrRadix_spec hw h4 he (by decide) (by decide) oc _ le_rfl]
  have : (numeral 16 (toNat x)).map Write.toUpper = numeral 16 (toNat x) := by
    conv => rhs; rw [← List.map_id (numeral 16 (toNat x))]
    apply List.map_congr_left
    intro c hc
    obtain ⟨d, hd, e⟩ := numeral_mem (by decide) hc
    exact toUpper_of_digit ⟨d, by omega, e⟩
  change Res.ok (Write.pad f (ascii "0x") ((numeral 16 (toNat x)).map Write.toUpper)) = _
  rw [this]

theorem I.abs_val : (I.unsignedAbs x).length = x.length ∧ toNat (I.unsignedAbs x) = (toInt x).natAbs := by
  obtain ⟨l, v⟩ := unsignedAbsU (w := w) (by omega) (x := x) (by omega) he
  rw [← Int.natCast_natAbs] at v
  exact ⟨l, by exact_mod_cast v⟩

omit he in
theorem I.fmtSign_eq (f : Write.Flags) : I.fmtSign f x =
    if toInt x < 0 then ascii "-" else if f.signPlus then ascii "+" else [] := by
  unfold I.fmtSign
  simp only [isNegative_iff (show 0 < w by omega) (length_ne (n := 0) (show x.length > 0 by omega))]

theorem I.fmtDisplay_eq (oc : Bool) (f : Write.Flags) : I.fmtDisplay oc f x =
    .ok ((if toInt x < 0 then ascii "-" else if f.signPlus then ascii "+" else []) ++
      numeral 10 (toInt x).natAbs) := by
  obtain ⟨l, v⟩ := I.abs_val hw h4 he
  rw [I.fmtDisplay, U.fmtDisplay_eq hw (by omega) (by omega), v, I.fmtSign_eq hw h4]
  rfl

theorem U.fmtLowerExp_eq (oc : Bool) (f : Write.Flags) :
    U.fmtLowerExp oc f x = Write.exp 101 (numeral 10 (toNat x)) := by
  rw [U.fmtLowerExp, U.toStrRadix_spec hw h4 he (by decide) (by decide) oc _ le_rfl]; rfl

theorem U.fmtUpperExp_eq (oc : Bool) (f : Write.Flags) :
    U.fmtUpperExp oc f x = Write.exp 69 (numeral 10 (toNat x)) := by
  rw [U.fmtUpperExp, U.toStrRadix_spec hw h4 he (by decide) (by decide) oc _ le_rfl]; rfl

theorem I.fmtLowerExp_eq (oc : Bool) (f : Write.Flags) : I.fmtLowerExp oc f x =
    (Write.exp 101 (numeral 10 (toInt x).natAbs)).map
      ((if toInt x < 0 then ascii "-" else if f.signPlus then ascii "+" else []) ++ ·) := by
  obtain ⟨l, v⟩ := I.abs_val hw h4 he
  rw [I.fmtLowerExp, U.fmtLowerExp_eq hw (by omega) (by omega), v, I.fmtSign_eq hw h4]

theorem I.fmtUpperExp_eq (oc : Bool) (f : Write.Flags) : I.fmtUpperExp oc f x =
    (Write.exp 69 (numeral 10 (toInt x).natAbs)).map
      ((if toInt x < 0 then ascii "-" else if f.signPlus then ascii "+" else []) ++ ·) := by
  obtain ⟨l, v⟩ := I.abs_val hw h4 he
  rw [I.fmtUpperExp, U.fmtUpperExp_eq hw (by omega) (by omega), v, I.fmtSign_eq hw h4]

end

theorem exp_spec (e : Byte) (n : Nat) : ∃ s, Write.exp e (numeral 10 n) = .ok s ∧ SciDenotes e s n ∧
    (s = sciForm e n ↔ 10 ≤ n ∧ n % 10 ≠ 0) := by
  have hv := numVal_numeral (r := 10) (by decide) (by decide) n
  have hdg := numeral_isDigit (r := 10) (by decide) (by decide) n
  have hne := numeral_ne_nil 10 n
  have hlt : n < 10 → numeral 10 n = [digitByte n] := numeral_of_lt
  have hge : 10 ≤ n → numeral 10 n = numeral 10 (n / 10) ++ [digitByte (n % 10)] :=
    numeral_of_ge (by decide)
  unfold sciForm
  cases hs : numeral 10 n with
  | nil => exact absurd hs hne
  | cons d ds =>
    rw [hs] at hv hdg
    refine ⟨_, rfl, ⟨d, ds, ds.length, rfl, hdg, by rw [hv]⟩, ?_⟩
    simp only [List.tail_cons, List.take_succ_cons, List.take_zero, List.length_cons,
      Nat.add_sub_cancel]
    by_cases h10 : n < 10
    · rw [hlt h10] at hs
      obtain ⟨rfl, rfl⟩ := List.cons.inj hs
      simp
      omega
    · rw [hge (by omega)] at hs
      obtain ⟨t, ht⟩ : ∃ t, ds = t ++ [digitByte (n % 10)] := by
        cases hq : numeral 10 (n / 10) with
        | nil => exact absurd hq (numeral_ne_nil _ _)
        | cons a l => rw [hq] at hs; exact ⟨l, (List.cons.inj hs).2.symm⟩
      subst ht
      have h48 : digitByte (n % 10) = 48#8 ↔ n % 10 = 0 := by
        have : n % 10 < 10 := Nat.mod_lt _ (by decide)
        generalize n % 10 = m at *
        rw [← BitVec.toNat_inj, digitByte, if_pos this]
        simp
        omega
      simp only [List.reverse_append, List.reverse_cons, List.reverse_nil, List.nil_append,
        List.cons_append, List.dropWhile_cons, beq_iff_eq, h48]
      by_cases h0 : n % 10 = 0
      · simp only [h0, if_true]
        refine ⟨fun h => ?_, fun h => absurd rfl h.2⟩
        exfalso
        have hl := congrArg List.length h
        have hp : ∀ p, (List.dropWhile p t.reverse).length ≤ t.length := fun p => by
          simpa using (List.dropWhile_suffix (l := t.reverse) p).length_le
        generalize hu : List.dropWhile _ t.reverse = u at hl
        have h7 : u.length ≤ t.length := by rw [← hu]; exact hp _
        split at hl <;> simp at hl <;> omega
      · simp [h0]
        omega

/-! ## Padding -/

theorem pad_eq_padIntegral (f : Write.Flags) (hp : f.signPlus = false)
    (hf : f.width = none ∨ (f.alternate = false ∧ f.zero = false)) (pre digits : List Byte) :
    Write.pad f pre digits = padIntegral f false pre digits := by
  unfold Write.pad padIntegral
  rcases hf with h | ⟨h1, h2⟩
  · simp [h, hp]
  · cases h : f.width <;> simp [h1, h2, hp]

theorem padIntegral_short (f : Write.Flags) (neg : Bool) (digits : List Byte)
    (h : f.width.getD 0 ≤ digits.length) : padIntegral f neg [] digits =
      (if neg then ascii "-" else if f.signPlus then ascii "+" else []) ++ digits := by
  unfold padIntegral
  simp only [ite_self, List.append_nil]
  rw [show ∀ n, f.width.getD 0 - (n + digits.length) = 0 by intro n; omega]
  simp

/-! ## Reading back -/

theorem numeral_no_zero {r n : Nat} (hr : 2 ≤ r) (hr' : r ≤ 36) {t : List Byte}
    (h : numeral r n = 48#8 :: t) : n = 0 ∧ t = [] := by
  induction n using Nat.strongRecOn generalizing t with
  | _ n ih =>
    by_cases c : n < r
    · rw [numeral_of_lt c] at h
      obtain ⟨h1, h2⟩ := List.cons.inj h
      refine ⟨?_, h2.symm⟩
      have := dig_digitByte (show n < 36 by omega)
      rw [h1] at this
      have h0 : digitOf 48#8 = some 0 := by decide
      rw [h0] at this
      exact (Option.some.inj this).symm
    · have hd : 0 < n / r := Nat.div_pos (by omega) (by omega)
      rw [numeral_of_ge hr (by omega)] at h
      cases hq : numeral r (n / r) with
      | nil => exact absurd hq (numeral_ne_nil _ _)
      | cons a l =>
        rw [hq] at h
        obtain ⟨rfl, -⟩ := List.cons.inj h
        have := (ih (n / r) (Nat.div_lt_self (by omega) (by omega)) hq).1
        omega

theorem digitPart_numeral {r : Nat} (hr : 2 ≤ r) (hr' : r ≤ 36) (n : Nat) :
    digitPart r (numeral r n) = numeral r n := digitPart_eq_self (numeral_isDigit hr hr' n)

section
variable {x : Limbs w} {radix : BitVec 32} (hw : w = 32 ∨ w = 64) (h4 : 4 ≤ x.length)
include hw h4

omit hw h4 in
theorem ParsesU_numeral {r : Nat} (hr : 2 ≤ r) (hr' : r ≤ 36) {p : Parsed (Limbs w)}
    (h : ParsesU x.length r (numeral r (toNat x)) p) : p = .ok x := by
  cases hn : numeral r (toNat x) with
  | nil => exact absurd hn (numeral_ne_nil _ _)
  | cons c t =>
    obtain ⟨h1, h2⟩ := numeral_head hr hr' _ hn
    rw [hn] at h
    unfold ParsesU at h
    simp only [h1, h2, if_false] at h
    rw [← hn] at h
    have hu : InU (w * x.length) (numVal r (digitPart r (numeral r (toNat x)))) := by
      rw [digitPart_numeral hr hr', numVal_numeral hr hr']
      exact ⟨by omega, toNat_lt_int x⟩
    obtain ⟨v, e, l, hv⟩ := h.2.2 hu (digitPart_numeral hr hr' _)
    rw [numVal_numeral hr hr'] at hv
    rw [e, toNat_inj l (by exact_mod_cast hv)]

theorem U.fromStrRadix_numeral (hr : 2 ≤ radix.toNat) (hr' : radix.toNat ≤ 36) :
    U.fromStrRadix x.length (numeral radix.toNat (toNat x)) radix = .ok (.ok x) := by
  obtain ⟨p, e, h⟩ := U.fromStrRadix_spec (w := w) hw h4 hr hr' (numeral radix.toNat (toNat x))
    (fun q => (numeral_head hr hr' _ q).1 (by decide))
  rw [e, ParsesU_numeral hr hr' h]

theorem U.fromStr_numeral (hB : 128 ≤ bits x) (p32 : Bool) :
    U.fromStr p32 x.length (numeral 10 (toNat x)) = .ok (.ok x) := by
  obtain ⟨p, e, h, -⟩ := U.fromStr_spec (w := w) hw h4 hB p32 (numeral 10 (toNat x))
  rw [e, ParsesU_numeral (r := 10) (by decide) (by decide) (h (Or.inr ?_))]
  cases hn : numeral 10 (toNat x) with
  | nil => exact absurd hn (numeral_ne_nil _ _)
  | cons c t =>
    have := (numeral_head (r := 10) (by decide) (by decide) _ hn).2
    simpa using this

/-- The text of a signed number, with a plus sign if `sp`. -/
def signedText (r : Nat) (sp : Bool) (z : Int) : List Byte :=
  (if z < 0 then ascii "-" else if sp then ascii "+" else []) ++ numeral r z.natAbs

omit hw h4 in
theorem ParsesS_numeral {r : Nat} (hr : 2 ≤ r) (hr' : r ≤ 36) (sp : Bool) {p : Parsed (Limbs w)}
    (h : ParsesS x.length r (signedText r sp (toInt x)) p) : p = .ok x := by
  have key : ∀ (sgn : Int) (over : ErrKind), sgn * ((toInt x).natAbs : Int) = toInt x →
      ReadsS x.length r sgn over (numeral r (toInt x).natAbs) p → p = .ok x := by
    intro sgn over hs hR
    have hS : InS (w * x.length) (sgn * numVal r (digitPart r (numeral r (toInt x).natAbs))) := by
      rw [digitPart_numeral hr hr', numVal_numeral hr hr', hs]
      exact toInt_InS x
    obtain ⟨v, e, l, hv⟩ := hR.2.2 hS (digitPart_numeral hr hr' _)
    rw [numVal_numeral hr hr', hs] at hv
    rw [e, toInt_inj l hv]
  unfold signedText at h
  split at h
  · rename_i h0
    change ParsesS x.length r (45 :: numeral r (toInt x).natAbs) p at h
    unfold ParsesS at h
    simp only [numeral_ne_nil, if_false] at h
    exact key (-1) .negOverflow (by omega) h
  · rename_i h0
    split at h
    · change ParsesS x.length r (43 :: numeral r (toInt x).natAbs) p at h
      unfold ParsesS at h
      simp only [numeral_ne_nil, if_false, if_true] at h
      exact key 1 .posOverflow (by omega) h
    · cases hn : numeral r (toInt x).natAbs with
      | nil => exact absurd hn (numeral_ne_nil _ _)
      | cons c t =>
        obtain ⟨h1, h2⟩ := numeral_head hr hr' _ hn
        rw [hn] at h
        unfold ParsesS at h
        simp only [List.nil_append, h1, h2, if_false] at h
        rw [← hn] at h
        exact key 1 .posOverflow (by omega) h

theorem signedText_not_gap {r : Nat} (hr : 2 ≤ r) (hr' : r ≤ 36) (sp : Bool) :
    ¬ GapText w x.length r (signedText r sp (toInt x)) := by
  rintro ⟨t, ht, hg, -⟩
  have hS := (toInt_InS x).1
  have h5 := signed_pow (N := x.length) hw (by omega)
  have hcase : toInt x < 0 ∧ t = numeral r (toInt x).natAbs := by
    unfold signedText at ht
    split at ht
    · exact ⟨by assumption, (List.cons.inj ht).2.symm⟩
    · split at ht
      · exact absurd (List.cons.inj ht).1 (by decide)
      · exact absurd rfl (numeral_head hr hr' _ ht).2
  obtain ⟨h0, rfl⟩ := hcase
  rw [digitPart_numeral hr hr'] at hg
  have hv := numVal_numeral hr hr' (toInt x).natAbs
  have hne := numeral_ne_nil r (toInt x).natAbs
  rw [← List.dropLast_concat_getLast hne, numVal_concat] at hv
  change -(2 : Int) ^ (w * x.length) ≤ _ at hS
  rw [Nat.mul_comm] at hg
  omega

theorem I.fromStrRadix_text (hr : 2 ≤ radix.toNat) (hr' : radix.toNat ≤ 36) (sp : Bool) :
    I.fromStrRadix x.length (signedText radix.toNat sp (toInt x)) radix = .ok (.ok x) := by
  have hns : ∀ c : Byte, signedText radix.toNat sp (toInt x) = [c] → c ≠ 43 ∧ c ≠ 45 := by
    intro c hc
    unfold signedText at hc
    split at hc
    · exact absurd (List.cons.inj hc).2 (numeral_ne_nil _ _)
    · split at hc
      · exact absurd (List.cons.inj hc).2 (numeral_ne_nil _ _)
      · exact numeral_head hr hr' _ hc
  obtain ⟨p, e, h⟩ := I.fromStrRadix_spec (w := w) hw h4 hr hr' (signedText radix.toNat sp (toInt x))
    (fun q => (hns _ q).1 (by decide)) (fun q => (hns _ q).2 (by decide))
    (signedText_not_gap hw h4 hr hr' sp)
  rw [e, ParsesS_numeral hr hr' sp h]

theorem I.fromStr_text (hB : 128 ≤ bits x) (p32 sp : Bool) :
    I.fromStr p32 x.length (signedText 10 sp (toInt x)) = .ok (.ok x) := by
  obtain ⟨p, e, h⟩ := I.fromStr_spec (w := w) hw h4 hB p32 (signedText 10 sp (toInt x))
    (fun _ => signedText_not_gap hw h4 (by decide) (by decide) sp)
  rw [e, ParsesS_numeral (by decide) (by decide) sp h]

end

/-- The character that the signed `to_str_radix` writes after the sign of a negative number. -/
theorem I.toStrRadix_neg_char {w : Nat} {x : Limbs w} {radix : BitVec 32} (hw : w = 32 ∨ w = 64)
    (h4 : 4 ≤ x.length) (he : x.length % 2 = 0) (hB : 128 < bits x) (hr : 2 ≤ radix.toNat)
    (hr' : radix.toNat ≤ 36) (oc : Bool) (len : Nat) (hlen : bits x + 1 ≤ len) (h0 : toInt x < 0) :
    let b := (toInt x % 256).toNat
    let d := (toInt x % 2 ^ 32).toNat
    let off := if radix.toNat ≤ 10 ∨ d < 10 then 48 else 65
    I.toStrRadix oc len x radix =
      if oc = true ∧ 256 ≤ b + off then .panic
      else .ok [45#8, BitVec.ofNat 8 (b + if off = 48 then 48 else 55)] := by
  rw [I.toStrRadix_neg hw h4 he hB hr hr' oc _ hlen h0]
  have hl := getLimb_toNat x 0
  simp only [Nat.mul_zero, pow_zero, Nat.div_one] at hl
  have hm := toInt_modEq x
  have h32 : ((getLimb x 0).setWidth 32).toNat = (toInt x % 2 ^ 32).toNat := by
    have hd : (2 : Int) ^ 32 ∣ 2 ^ (w * x.length) := pow_dvd_pow 2 (by
      have := Nat.mul_le_mul_left w h4
      omega)
    have h1 := (hm.of_dvd hd)
    have h2 : ((toNat x : Int) % 2 ^ 32) = toInt x % 2 ^ 32 := h1.symm
    rw [BitVec.toNat_setWidth, hl, ← h2]
    rcases hw with rfl | rfl <;> omega
  generalize hg : (getLimb x 0).setWidth 32 = g at *
  have h8 : (g.setWidth 8).toNat = (toInt x % 256).toNat := by
    rw [BitVec.toNat_setWidth, h32]
    omega
  have e1 : radix ≤ 10 ↔ radix.toNat ≤ 10 := Iff.rfl
  have e2 : g < 10 ↔ g.toNat < 10 := Iff.rfl
  have n0 : (48 : Byte).toNat = 48 := rfl
  have n1 : (65 : Byte).toNat = 65 := rfl
  have n2 : (10 : Byte).toNat = 10 := rfl
  have hb : (toInt x % 256).toNat < 256 := by omega
  unfold Write.digitToChar Write.addU8 Write.subU8
  simp only [e1, e2, Bool.or_eq_true, decide_eq_true_eq, h32, h8, n0, n1, Bool.and_eq_true]
  generalize (toInt x % 256).toNat = b at *
  generalize (toInt x % 2 ^ 32).toNat = d at *
  by_cases c : radix.toNat ≤ 10 ∨ d < 10
  · simp only [if_pos c]
    by_cases hp : oc = true ∧ 256 ≤ b + 48
    · rw [if_pos hp, if_pos hp]
      rfl
    · rw [if_neg hp, if_neg hp]
      have : g.setWidth 8 + 48 = BitVec.ofNat 8 (b + 48) := by
        apply BitVec.eq_of_toNat_eq
        rw [BitVec.toNat_add, h8, n0, BitVec.toNat_ofNat]
      rw [this]
      rfl
  · simp only [if_neg c]
    by_cases hp : oc = true ∧ 256 ≤ b + 65
    · rw [if_pos hp, if_pos hp]
      rfl
    · have ha : (g.setWidth 8 + 65).toNat = (b + 65) % 256 := by
        rw [BitVec.toNat_add, h8, n1]
      rw [if_neg hp, if_neg hp]
      simp only [Res.bind_ok]
      rw [if_neg (by
        rintro ⟨ho, hlt⟩
        rw [ha, n2] at hlt
        have : ¬ 256 ≤ b + 65 := fun q => hp ⟨ho, q⟩
        omega)]
      have : g.setWidth 8 + 65 - 10 = BitVec.ofNat 8 (b + 55) := by
        apply BitVec.eq_of_toNat_eq
        rw [BitVec.toNat_sub, ha, n2, BitVec.toNat_ofNat]
        omega
      rw [this]
      rfl

end I256
