import Mathlib.Data.List.TakeWhile
import Mathlib.Data.Nat.Digits.Lemmas
import Verif.Model.Parse
import Verif.Lemmas.Scalar
import Verif.Lemmas.MulApi
import Verif.Lemmas.Casts

/-!
# Lemmas about the parser
-/

namespace I256

variable {w : Nat}

/-! ## Digits -/

/-- Value of a digit character. -/
def dig (c : Byte) : Nat := (digitOf c).getD 0

theorem dig_lt {r : Nat} {c : Byte} (h : isDigit r c = true) : dig c < r := by
  unfold isDigit at h
  unfold dig
  split at h
  · rename_i d hd; rw [hd]; simpa using h
  · cases h

theorem charToDigit_eq (c : Byte) (radix : BitVec 32) (hr : 2 ≤ radix.toNat)
    (hr' : radix.toNat ≤ 36) :
    Parse.charToDigit c radix =
      if isDigit radix.toNat c then some (BitVec.ofNat 32 (dig c)) else none := by
  have hc : c.toNat < 256 := c.isLt
  have l1 : (48 ≤ c ∧ c ≤ 57) ↔ (48 ≤ c.toNat ∧ c.toNat ≤ 57) := Iff.rfl
  have l2 : (65 ≤ c ∧ c ≤ 90) ↔ (65 ≤ c.toNat ∧ c.toNat ≤ 90) := Iff.rfl
  have l3 : (97 ≤ c ∧ c ≤ 122) ↔ (97 ≤ c.toNat ∧ c.toNat ≤ 122) := Iff.rfl
  have n1 : (48 : Byte).toNat = 48 := rfl
  have n2 : (65 : Byte).toNat = 65 := rfl
  have n3 : (97 : Byte).toNat = 97 := rfl
  have n4 : (10 : Byte).toNat = 10 := rfl
  have h10 : radix ≤ 10 ↔ radix.toNat ≤ 10 := Iff.rfl
  have key : ∀ (e : BitVec 32) (d : Option Nat),
      (∀ v, d = some v → e.toNat = v ∧ v < 36) → (d = none → 36 ≤ e.toNat) →
      (if e < radix then some e else none) =
        if (match d with | some d => decide (d < radix.toNat) | none => false) = true then
          some (BitVec.ofNat 32 (d.getD 0)) else none := by
    intro e d h1 h2
    cases d with
    | none =>
      have := h2 rfl
      rw [if_neg (by rw [BitVec.lt_def]; omega), if_neg (by simp)]
    | some v =>
      obtain ⟨h3, h4⟩ := h1 v rfl
      have he : e = BitVec.ofNat 32 v := by
        apply BitVec.eq_of_toNat_eq
        rw [BitVec.toNat_ofNat, Nat.mod_eq_of_lt (by omega), h3]
      simp only [BitVec.lt_def, h3, decide_eq_true_eq, Option.getD_some, ← he]
  have key10 : ∀ (e : BitVec 32) (d : Option Nat), radix.toNat ≤ 10 →
      (∀ v, d = some v → (v < 10 ∨ e.toNat < 10) → e.toNat = v) → (d = none → 10 ≤ e.toNat) →
      (if e < radix then some e else none) =
        if (match d with | some d => decide (d < radix.toNat) | none => false) = true then
          some (BitVec.ofNat 32 (d.getD 0)) else none := by
    intro e d hr h1 h2
    cases d with
    | none =>
      have := h2 rfl
      rw [if_neg (by rw [BitVec.lt_def]; omega), if_neg (by simp)]
    | some v =>
      have h3 := h1 v rfl
      simp only [BitVec.lt_def, decide_eq_true_eq, Option.getD_some]
      by_cases c : v < radix.toNat
      · have h4 := h3 (by omega)
        have he : e = BitVec.ofNat 32 v := by
          apply BitVec.eq_of_toNat_eq
          rw [BitVec.toNat_ofNat, Nat.mod_eq_of_lt (by omega), h4]
        rw [if_pos c, if_pos (by omega), he]
      · rw [if_neg c, if_neg]
        intro hc
        have := h3 (by omega)
        omega
  unfold Parse.charToDigit isDigit dig
  simp only [h10, l1, l2, l3]
  split
  · rename_i hr10
    apply key10 _ _ hr10
    · intro v hv
      have hs : (BitVec.setWidth 32 (c - 48)).toNat = (256 - 48 + c.toNat) % 256 := by
        rw [BitVec.toNat_setWidth, BitVec.toNat_sub]
        simp only [n1]
        omega
      rw [hs]
      unfold digitOf at hv
      repeat' split at hv
      all_goals first | (cases hv; done) | (injection hv with hv; omega)
    · intro hv
      have hs : (BitVec.setWidth 32 (c - 48)).toNat = (256 - 48 + c.toNat) % 256 := by
        rw [BitVec.toNat_setWidth, BitVec.toNat_sub]
        simp only [n1]
        omega
      rw [hs]
      unfold digitOf at hv
      repeat' split at hv
      all_goals first | (cases hv; done) | omega
  · apply key
    · intro v hv
      unfold digitOf at hv
      rw [BitVec.toNat_setWidth]
      repeat' split at hv
      · rename_i h; injection hv with hv
        rw [if_pos h, BitVec.toNat_sub]; simp only [n1, n2, n3, n4]; omega
      · rename_i h1 h; injection hv with hv
        rw [if_neg h1, if_pos h, BitVec.toNat_add, BitVec.toNat_sub]
        simp only [n1, n2, n3, n4]; omega
      · rename_i h1 h2 h; injection hv with hv
        rw [if_neg h1, if_neg h2, if_pos h, BitVec.toNat_add, BitVec.toNat_sub]
        simp only [n1, n2, n3, n4]; omega
      · cases hv
    · intro hv
      unfold digitOf at hv
      rw [BitVec.toNat_setWidth]
      repeat' split at hv
      · cases hv
      · cases hv
      · cases hv
      · rename_i h1 h2 h3
        rw [if_neg h1, if_neg h2, if_neg h3]
        decide

/-! ## Numbers -/

/-- The accumulation of the parser on naturals. -/
def horner (r : Nat) (a : Nat) (s : List Byte) : Nat := s.foldl (fun a c => a * r + dig c) a

theorem horner_eq (r a : Nat) (s : List Byte) : horner r a s = a * r ^ s.length + numVal r s := by
  induction s generalizing a with
  | nil => simp [horner, numVal]
  | cons c cs ih =>
    have h : horner r a (c :: cs) = horner r (a * r + dig c) cs := rfl
    rw [h, ih]
    have e : numVal r (c :: cs) = numVal r cs + dig c * r ^ cs.length := by
      unfold numVal
      rw [List.map_cons, List.reverse_cons, Nat.ofDigits_append]
      simp only [List.length_reverse, List.length_map, Nat.ofDigits_singleton]
      rw [Nat.mul_comm (r ^ _)]; rfl
    rw [e, List.length_cons, Nat.pow_succ]
    ring

theorem numVal_eq_horner (r : Nat) (s : List Byte) : numVal r s = horner r 0 s := by
  rw [horner_eq]; simp

theorem le_horner {r : Nat} (hr : 1 ≤ r) (a : Nat) (s : List Byte) : a ≤ horner r a s := by
  induction s generalizing a with
  | nil => exact Nat.le_refl a
  | cons c cs ih =>
    refine le_trans ?_ (ih (a * r + dig c))
    nlinarith

theorem numVal_lt {r : Nat} (s : List Byte) (h : ∀ c ∈ s, isDigit r c = true) :
    numVal r s < r ^ s.length := by
  induction s using List.reverseRecOn with
  | nil => simp [numVal]
  | append_singleton s c ih =>
    have h1 := ih fun c hc => h c (by simp [hc])
    have h2 := dig_lt (h c (by simp))
    have e : numVal r (s ++ [c]) = numVal r s * r + dig c := by
      rw [numVal_eq_horner, numVal_eq_horner, horner, List.foldl_append]; rfl
    rw [e, List.length_append, List.length_singleton, Nat.pow_succ]
    have : (numVal r s + 1) * r ≤ r ^ s.length * r := Nat.mul_le_mul_right _ h1
    rw [Nat.add_mul] at this
    omega

theorem numVal_concat (r : Nat) (s : List Byte) (c : Byte) :
    numVal r (s ++ [c]) = numVal r s * r + dig c := by
  rw [numVal_eq_horner, numVal_eq_horner, horner, List.foldl_append]; rfl

theorem digitPart_isDigit (r : Nat) (s : List Byte) : ∀ c ∈ digitPart r s, isDigit r c = true := by
  intro c hc
  exact List.mem_takeWhile_imp hc

theorem digitPart_cons {r : Nat} {c : Byte} (cs : List Byte) (h : isDigit r c = true) :
    digitPart r (c :: cs) = c :: digitPart r cs := List.takeWhile_cons_of_pos h

theorem digitPart_cons_neg {r : Nat} {c : Byte} (cs : List Byte) (h : ¬ isDigit r c = true) :
    digitPart r (c :: cs) = [] := List.takeWhile_cons_of_neg h

theorem digitPart_eq_self {r : Nat} {s : List Byte} (h : ∀ c ∈ s, isDigit r c = true) :
    digitPart r s = s := List.takeWhile_eq_self_iff.2 h

theorem digitPart_length_le (r : Nat) (s : List Byte) : (digitPart r s).length ≤ s.length :=
  (List.takeWhile_prefix _).length_le

/-! ## The loops -/

theorem setWidth_digit {r : Nat} (hw : 32 ≤ w) (c : Byte) (hr : r ≤ 36) (h : isDigit r c = true) :
    ((BitVec.ofNat 32 (dig c)).setWidth w).toNat = dig c := by
  have h1 := dig_lt h
  have h2 : 2 ^ 32 ≤ 2 ^ w := Nat.pow_le_pow_right (by omega) hw
  rw [BitVec.toNat_setWidth, BitVec.toNat_ofNat, Nat.mod_eq_of_lt (a := dig c) (by omega),
    Nat.mod_eq_of_lt (by omega)]

theorem setWidth_radix (hw : 32 ≤ w) (radix : BitVec 32) :
    (radix.setWidth w).toNat = radix.toNat := by
  have h2 : 2 ^ 32 ≤ 2 ^ w := Nat.pow_le_pow_right (by omega) hw
  have := radix.isLt
  rw [BitVec.toNat_setWidth, Nat.mod_eq_of_lt (by omega)]

section
variable {N : Nat} {radix : BitVec 32}

theorem uncheckedLoop_spec (hw : 32 ≤ w) (hr : 2 ≤ radix.toNat) (hr' : radix.toNat ≤ 36)
    {mul add : Limbs w → BitVec w → Limbs w} {sgn : Int}
    (hstep : ∀ (v : Limbs w) (z : Int) (d : BitVec w), WrapU N z v →
      WrapU N (z * radix.toNat + sgn * d.toNat) (add (mul v (radix.setWidth w)) d))
    (ds : List Byte) (v : Limbs w) (z : Int) (hv : WrapU N z v) :
    (digitPart radix.toNat ds = ds → ∃ u, Parse.uncheckedLoop mul add radix ds v = .ok u ∧
      WrapU N (z * radix.toNat ^ ds.length + sgn * numVal radix.toNat ds) u) ∧
    (digitPart radix.toNat ds ≠ ds →
      Parse.uncheckedLoop mul add radix ds v = .err .invalidDigit) := by
  induction ds generalizing v z with
  | nil => exact ⟨fun _ => ⟨v, rfl, by simpa [numVal] using hv⟩, fun h => absurd rfl h⟩
  | cons c cs ih =>
    rw [Parse.uncheckedLoop, charToDigit_eq c radix hr hr']
    by_cases h : isDigit radix.toNat c = true
    · rw [if_pos h, digitPart_cons cs h]
      have h1 := hstep v z ((BitVec.ofNat 32 (dig c)).setWidth w) hv
      rw [setWidth_digit hw c hr' h] at h1
      obtain ⟨i1, i2⟩ := ih _ _ h1
      refine ⟨fun e => ?_, fun e => i2 fun e' => e (by rw [e'])⟩
      obtain ⟨u, u1, u2⟩ := i1 (List.cons_inj_right c |>.1 e)
      refine ⟨u, u1, ?_⟩
      have e1 : numVal radix.toNat (c :: cs) = dig c * radix.toNat ^ cs.length
          + numVal radix.toNat cs := by
        rw [numVal_eq_horner, ← horner_eq, horner, List.foldl_cons, Nat.zero_mul, Nat.zero_add]
        rfl
      rw [e1, List.length_cons, pow_succ]
      push_cast
      convert u2 using 1
      ring
    · rw [if_neg h, digitPart_cons_neg cs h]
      exact ⟨fun e => (by cases e), fun _ => rfl⟩

/-- The checked loop when the accumulator never meets the gap. -/
theorem checkedLoop_spec (hw : 32 ≤ w) (hr : 2 ≤ radix.toNat) (hr' : radix.toNat ≤ 36)
    {mul add : Limbs w → BitVec w → Option (Limbs w)} {over : ErrKind}
    {E : Nat → Limbs w → Prop} {P : Nat → Prop} (hP : ∀ a b, a ≤ b → P b → P a)
    (hstep : ∀ (v : Limbs w) (a : Nat) (d : BitVec w), E a v →
      (P (a * radix.toNat + d.toNat) → ∃ u t, mul v (radix.setWidth w) = some u ∧ add u d = some t ∧
        E (a * radix.toNat + d.toNat) t) ∧
      (¬ P (a * radix.toNat + d.toNat) → mul v (radix.setWidth w) = none ∨
        ∃ u, mul v (radix.setWidth w) = some u ∧ add u d = none))
    (ds : List Byte) (v : Limbs w) (a : Nat) (hv : E a v) (ha : P a) :
    let A := horner radix.toNat a (digitPart radix.toNat ds)
    (¬ P A → Parse.checkedLoop over mul add radix ds v = .err over) ∧
    (P A → digitPart radix.toNat ds ≠ ds →
      Parse.checkedLoop over mul add radix ds v = .err .invalidDigit) ∧
    (P A → digitPart radix.toNat ds = ds →
      ∃ u, Parse.checkedLoop over mul add radix ds v = .ok u ∧ E A u) := by
  induction ds generalizing v a with
  | nil => exact ⟨fun h => absurd ha h, fun _ h => absurd rfl h, fun _ _ => ⟨v, rfl, hv⟩⟩
  | cons c cs ih =>
    rw [Parse.checkedLoop, charToDigit_eq c radix hr hr']
    by_cases h : isDigit radix.toNat c = true
    · rw [if_pos h, digitPart_cons cs h]
      simp only
      have h1 := hstep v a ((BitVec.ofNat 32 (dig c)).setWidth w) hv
      rw [setWidth_digit hw c hr' h] at h1
      have hA : horner radix.toNat a (c :: digitPart radix.toNat cs) =
        horner radix.toNat (a * radix.toNat + dig c) (digitPart radix.toNat cs) := rfl
      rw [hA]
      by_cases hp : P (a * radix.toNat + dig c)
      · obtain ⟨u, t, h2, h3, h4⟩ := h1.1 hp
        rw [h2]
        simp only
        rw [h3]
        simp only
        obtain ⟨i1, i2, i3⟩ := ih t _ h4 hp
        exact ⟨i1, fun q e => i2 q fun e' => e (by rw [e']), fun q e => i3 q (List.cons_inj_right c |>.1 e)⟩
      · have hn : ¬ P (horner radix.toNat (a * radix.toNat + dig c) (digitPart radix.toNat cs)) :=
          fun q => hp (hP _ _ (le_horner (by omega) _ _) q)
        refine ⟨fun _ => ?_, fun q => absurd q hn, fun q => absurd q hn⟩
        rcases h1.2 hp with h2 | ⟨u, h2, h3⟩
        · rw [h2]
        · rw [h2]
          simp only
          rw [h3]
    · rw [if_neg h, digitPart_cons_neg cs h]
      exact ⟨fun q => absurd ha q, fun _ _ => rfl, fun _ e => (by cases e)⟩

end

/-! ## Steps -/

theorem ofU8_zero (N : Nat) (hN : 1 ≤ N) : ExactU N (0 : Nat) (ofU8 N 0 : Limbs w) := by
  refine ⟨extU_length hN _, ?_⟩
  rw [ofU8, extU_toNat]; simp

theorem overflowDigits_bound {N : Nat} (hw : w = 32 ∨ w = 64) (radix : BitVec 32)
    (hr' : radix.toNat ≤ 36) (hr : 1 ≤ radix.toNat) (hN : 1 ≤ N) (signed : Bool) (k : Nat)
    (hk : k ≤ Parse.overflowDigits (N * w / 8) radix signed) :
    radix.toNat ^ k ≤ 2 ^ (w * N - signed.toNat) := by
  have hb : 8 * (N * w / 8) = w * N := by rcases hw with rfl | rfl <;> omega
  have h32 : 32 ≤ w * N := by rcases hw with rfl | rfl <;> omega
  unfold Parse.overflowDigits at hk
  have h16 : radix ≤ 16 ↔ radix.toNat ≤ 16 := Iff.rfl
  have hs : signed.toNat ≤ 1 := Bool.toNat_le signed
  by_cases c : radix.toNat ≤ 16
  · rw [if_pos (h16.2 c)] at hk
    calc radix.toNat ^ k ≤ 16 ^ k := Nat.pow_le_pow_left c k
      _ = 2 ^ (4 * k) := by rw [Nat.pow_mul]
      _ ≤ 2 ^ (w * N - signed.toNat) := Nat.pow_le_pow_right (by omega) (by omega)
  · rw [if_neg (fun q => c (h16.1 q))] at hk
    calc radix.toNat ^ k ≤ 64 ^ k := Nat.pow_le_pow_left (by omega) k
      _ = 2 ^ (6 * k) := by rw [Nat.pow_mul]
      _ ≤ 2 ^ (w * N - signed.toNat) := Nat.pow_le_pow_right (by omega) (by omega)

section
variable {N : Nat} {radix : BitVec 32} (hw : w = 32 ∨ w = 64) (hN : 4 ≤ N)
  (hr : 2 ≤ radix.toNat) (hr' : radix.toNat ≤ 36)
include hw hN hr hr'

theorem U.body_spec (ds : List Byte) :
    ReadsU N radix.toNat .posOverflow ds (Parse.body (U.parseOps (w := w)) false N radix false ds) := by
  have h32 : 32 ≤ w := by omega
  have hrad := setWidth_radix h32 radix
  have h0 := ofU8_zero (w := w) N (by omega)
  unfold Parse.body
  simp only [Bool.and_false, if_false, Bool.false_eq_true]
  split
  · rename_i hc
    have hk : ds.length ≤ _ := of_decide_eq_true hc
    have hb := overflowDigits_bound hw radix hr' (by omega) (by omega) false ds.length hk
    have hin : InU (w * N) (numVal radix.toNat (digitPart radix.toNat ds)) := by
      refine ⟨by omega, ?_⟩
      have h1 := numVal_lt _ (digitPart_isDigit radix.toNat ds)
      have h2 : radix.toNat ^ (digitPart radix.toNat ds).length ≤ radix.toNat ^ ds.length :=
        Nat.pow_le_pow_right (by omega) (digitPart_length_le _ _)
      have h3 : numVal radix.toNat (digitPart radix.toNat ds) < 2 ^ (w * N) := by
        simp only [Bool.toNat_false, Nat.sub_zero] at hb
        omega
      exact_mod_cast h3
    have hs := uncheckedLoop_spec (N := N) (mul := U.wrappingMulULimb) (add := U.wrappingAddULimb)
      (sgn := 1) h32 hr hr' (by
        intro v z d hv
        have h1 := Mul.wrapU v [radix.setWidth w] (by simp)
        rw [show toNat [radix.setWidth w] = (radix.setWidth w).toNat by simp, hrad, hv.1] at h1
        have h2 := Add.limbWrapU (by omega) (length_ne (n := 0) (h1.1.trans_gt (by omega))) d
        rw [h1.1] at h2
        apply h2.congr
        rw [one_mul]
        exact (h1.modEq.add_right _).trans ((hv.modEq.mul_right _).add_right _))
      ds _ _ h0.wrap
    refine ⟨fun q => absurd hin q, fun _ q => hs.2 q, fun q e => ?_⟩
    obtain ⟨u, u1, u2⟩ := hs.1 e
    refine ⟨u, u1, ?_⟩
    rw [e] at q
    apply WrapU.exact _ q
    simpa using u2
  · have hs := checkedLoop_spec (over := .posOverflow) (mul := U.checkedMulULimb)
      (add := U.checkedAddULimb) (E := fun a v => ExactU N (a : Int) v)
      (P := fun a => InU (w * N) (a : Int)) h32 hr hr'
      (by
        rintro a b hab ⟨_, h⟩
        refine ⟨by omega, ?_⟩
        have : (a : Int) ≤ b := by exact_mod_cast hab
        omega)
      (by
        intro v a d hv
        have h1 := (Mul.overU v [radix.setWidth w] (by simp)).check
        rw [show toNat [radix.setWidth w] = (radix.setWidth w).toNat by simp, hrad, hv.1, hv.2] at h1
        change CheckU N _ (U.checkedMulULimb v _) at h1
        by_cases c : InU (w * N) ((a : Int) * radix.toNat)
        · obtain ⟨u, u1, u2⟩ := h1.1 c
          have h2 := (Add.limbOverU (by omega) (length_ne (n := 0) (u2.1.trans_gt (by omega))) d).check
          rw [u2.1, u2.2] at h2
          change CheckU N _ (U.checkedAddULimb u d) at h2
          push_cast
          refine ⟨fun q => ?_, fun q => Or.inr ⟨u, u1, h2.2 q⟩⟩
          obtain ⟨t, t1, t2⟩ := h2.1 q
          exact ⟨u, t, u1, t1, t2⟩
        · refine ⟨fun q => absurd ?_ c, fun _ => Or.inl (h1.2 c)⟩
          have : ((a * radix.toNat + d.toNat : Nat) : Int) = (a : Int) * radix.toNat + d.toNat := by
            push_cast; rfl
          rw [this] at q
          exact ⟨by positivity, lt_of_le_of_lt (by omega) q.2⟩)
      ds _ 0 h0 ⟨by omega, by positivity⟩
    simp only [← numVal_eq_horner] at hs
    refine ⟨hs.1, hs.2.1, fun q e => ?_⟩
    have := hs.2.2 q e
    rwa [e] at this

omit hr hr' in
theorem I.checkedMulULimb_spec {x : Limbs w} (hx : x.length = N) (n : BitVec w) :
    (¬ Mul.Gap w N (toInt x * n.toNat) → CheckS N (toInt x * n.toNat) (I.checkedMulULimb x n)) ∧
    (Mul.Gap w N (toInt x * n.toNat) → ∃ v, I.checkedMulULimb x n = some v ∧
      ExactS N (toInt x * n.toNat + 2 ^ (w * N)) v) := by
  subst hx
  have hx0 : x ≠ [] := length_ne (n := 3) (by omega)
  have h := Mul.overflowingFullS_spec (by omega) hx0 (extU_length (by omega : 1 ≤ x.length) n).symm
  rw [extU_toInt (by omega) (by omega)] at h
  change WrapS x.length _ (I.overflowingMulULimb x n).1 ∧
    ((I.overflowingMulULimb x n).2 = true ↔ _) at h
  refine ⟨fun g => (OverS.of_gap h g).check, fun hg => ?_⟩
  have hf : (I.overflowingMulULimb x n).2 = false := by
    rw [← Bool.not_eq_true]
    exact fun hc => (h.2.1 hc).2 hg
  refine ⟨(I.overflowingMulULimb x n).1, ?_, h.1.1, ?_⟩
  · unfold I.checkedMulULimb mkChecked
    rw [hf]; rfl
  · have hpos : 0 < w * x.length := Nat.mul_pos (by omega) (by omega)
    have h2 : (2 : Int) ^ (w * x.length) = 2 * 2 ^ (w * x.length - 1) := by
      rw [← pow_succ', show w * x.length - 1 + 1 = w * x.length by omega]
    have h3 : (2 : Int) ^ (w * (x.length - 1)) ≤ 2 ^ (w * x.length - 1) := by
      rw [pow_pred_mul (by omega) (by omega)]
      exact pow_le_pow_right₀ (by omega) (by omega)
    rw [h.1.2, ← Int.add_bmod_right, natCast_two_pow, bmod_of_InS]
    unfold Mul.Gap at hg
    unfold InS
    omega

omit hN hr hr' in
theorem signed_pow (hN : 1 ≤ N) : (2 : Int) ^ (w * N) = 2 * 2 ^ (w * N - 1) := by
  have : 0 < w * N := Nat.mul_pos (by omega) (by omega)
  rw [← pow_succ', show w * N - 1 + 1 = w * N by omega]

/-- The short strings. -/
theorem I.unchecked_spec (ds : List Byte) (negative : Bool)
    (hk : ds.length ≤ Parse.overflowDigits (N * w / 8) radix true) :
    InS (w * N) ((if negative then -1 else 1) * (numVal radix.toNat (digitPart radix.toNat ds) : Int)) ∧
    ReadsS N radix.toNat (if negative then -1 else 1) (if negative then .negOverflow else .posOverflow) ds
      (Parse.uncheckedLoop I.wrappingMulULimb
        (if negative then I.wrappingSubULimb else I.wrappingAddULimb) radix ds (ofU8 N 0 : Limbs w)) := by
  have h32 : 32 ≤ w := by omega
  have hrad := setWidth_radix h32 radix
  have h0 := ofU8_zero (w := w) N (by omega)
  have hb := overflowDigits_bound hw radix hr' (by omega) (by omega) true ds.length hk
  have hin : InS (w * N) ((if negative then -1 else 1) *
      (numVal radix.toNat (digitPart radix.toNat ds) : Int)) := by
    have h1 := numVal_lt _ (digitPart_isDigit radix.toNat ds)
    have h2 : radix.toNat ^ (digitPart radix.toNat ds).length ≤ radix.toNat ^ ds.length :=
      Nat.pow_le_pow_right (by omega) (digitPart_length_le _ _)
    have h3 : numVal radix.toNat (digitPart radix.toNat ds) < 2 ^ (w * N - 1) := by
      simp only [Bool.toNat_true] at hb
      omega
    have h4 : (numVal radix.toNat (digitPart radix.toNat ds) : Int) < 2 ^ (w * N - 1) := by
      exact_mod_cast h3
    have h5 := signed_pow (N := N) hw (by omega)
    unfold InS
    cases negative <;> simp <;> omega
  refine ⟨hin, ?_⟩
  have hs := uncheckedLoop_spec (N := N) (mul := I.wrappingMulULimb)
    (add := if negative then I.wrappingSubULimb else I.wrappingAddULimb)
    (sgn := if negative then -1 else 1) h32 hr hr' (by
      intro v z d hv
      have h1 := Mul.wrapU v [radix.setWidth w] (by simp)
      rw [show toNat [radix.setWidth w] = (radix.setWidth w).toNat by simp, hrad, hv.1] at h1
      cases negative
      · have h2 := Add.limbWrapU (by omega) (length_ne (n := 0) (h1.1.trans_gt (by omega))) d
        rw [h1.1] at h2
        apply h2.congr
        simp only [if_false, Bool.false_eq_true]
        rw [one_mul]
        exact (h1.modEq.add_right _).trans ((hv.modEq.mul_right _).add_right _)
      · have h2 := Sub.limbWrapU (by omega) (length_ne (n := 0) (h1.1.trans_gt (by omega))) d
        rw [h1.1] at h2
        apply h2.congr
        simp only [if_true]
        rw [neg_one_mul, ← sub_eq_add_neg]
        exact (h1.modEq.sub_right _).trans ((hv.modEq.mul_right _).sub_right _))
    ds _ _ h0.wrap
  refine ⟨fun q => absurd hin q, fun _ q => hs.2 q, fun q e => ?_⟩
  obtain ⟨u, u1, u2⟩ := hs.1 e
  refine ⟨u, u1, ?_⟩
  rw [e] at q
  apply WrapS.exact _ q
  simpa using u2.wrapS

theorem I.body_pos_spec (ds : List Byte) :
    ReadsS N radix.toNat 1 .posOverflow ds
      (Parse.body (I.parseOps (w := w)) true N radix false ds) := by
  have h32 : 32 ≤ w := by omega
  have hrad := setWidth_radix h32 radix
  have h0 := ofU8_zero (w := w) N (by omega)
  have h5 := signed_pow (N := N) hw (by omega)
  unfold Parse.body
  simp only [Bool.and_false, if_false, Bool.false_eq_true]
  split
  · rename_i hc
    exact (I.unchecked_spec hw hN hr hr' ds false (of_decide_eq_true hc)).2
  · have hs := checkedLoop_spec (over := .posOverflow) (mul := I.checkedMulULimb)
      (add := I.checkedAddULimb) (E := fun a v => ExactS N (a : Int) v)
      (P := fun a => InS (w * N) (a : Int)) h32 hr hr'
      (by
        rintro a b hab ⟨_, h⟩
        have : (a : Int) ≤ b := by exact_mod_cast hab
        unfold InS
        omega)
      (by
        intro v a d hv
        have hng : ¬ Mul.Gap w N (toInt v * (radix.setWidth w).toNat) := by
          rw [hv.2, hrad]
          rintro ⟨g, _⟩
          have : (0 : Int) ≤ (a : Int) * radix.toNat := by positivity
          have : (0 : Int) < 2 ^ (w * N - 1) := by positivity
          omega
        have h1 := (I.checkedMulULimb_spec hw hN hv.1 (radix.setWidth w)).1 hng
        rw [hv.2, hrad] at h1
        have hnn : (0 : Int) ≤ (a : Int) * radix.toNat := by positivity
        push_cast
        by_cases c : InS (w * N) ((a : Int) * radix.toNat)
        · obtain ⟨u, u1, u2⟩ := h1.1 c
          have h2 := (Add.uLimbOverS (by omega) (u2.1.trans_ge (by omega)) d).check
          rw [u2.1, u2.2] at h2
          change CheckS N _ (I.checkedAddULimb u d) at h2
          refine ⟨fun q => ?_, fun q => Or.inr ⟨u, u1, h2.2 q⟩⟩
          obtain ⟨t, t1, t2⟩ := h2.1 q
          exact ⟨u, t, u1, t1, t2⟩
        · refine ⟨fun q => absurd ?_ c, fun _ => Or.inl (h1.2 c)⟩
          unfold InS at q ⊢
          omega)
      ds _ 0 ⟨h0.1, by
        have := h0.exactS (n := 0) (by decide) (by
          have : 0 < w * N := Nat.mul_pos (by omega) (by omega)
          omega)
        exact this.2⟩ (by unfold InS; have : (0:Int) < 2 ^ (w * N) := by positivity
                          push_cast; omega)
    simp only [← numVal_eq_horner] at hs
    unfold ReadsS
    simp only [one_mul]
    refine ⟨hs.1, hs.2.1, fun q e => ?_⟩
    have := hs.2.2 q e
    rwa [e] at this

/-- After the gap has been entered the next digit is an overflow. -/
theorem I.checkedLoop_wrong (cs : List Byte) (v : Limbs w) (z : Int) (hv : ExactS N z v)
    (hz : 2 ^ (w * N) ≤ 4 * z) :
    (cs = [] → Parse.checkedLoop .negOverflow I.checkedMulULimb I.checkedSubULimb radix cs v = .ok v) ∧
    (digitPart radix.toNat cs ≠ [] →
      Parse.checkedLoop .negOverflow I.checkedMulULimb I.checkedSubULimb radix cs v
        = .err .negOverflow) ∧
    (cs ≠ [] → digitPart radix.toNat cs = [] →
      Parse.checkedLoop .negOverflow I.checkedMulULimb I.checkedSubULimb radix cs v
        = .err .invalidDigit) := by
  have h32 : 32 ≤ w := by omega
  have hrad := setWidth_radix h32 radix
  have hp : (0 : Int) < 2 ^ (w * N) := by positivity
  cases cs with
  | nil => exact ⟨fun _ => rfl, fun h => absurd rfl h, fun h => absurd rfl h⟩
  | cons c cs =>
    rw [Parse.checkedLoop, charToDigit_eq c radix hr hr']
    by_cases h : isDigit radix.toNat c = true
    · rw [if_pos h, digitPart_cons cs h]
      refine ⟨fun e => (by cases e), fun _ => ?_, fun _ e => (by cases e)⟩
      simp only
      have hpos : 2 * z ≤ z * radix.toNat := by
        have : (2 : Int) ≤ radix.toNat := by exact_mod_cast hr
        nlinarith
      have hng : ¬ Mul.Gap w N (toInt v * (radix.setWidth w).toNat) := by
        rw [hv.2, hrad]
        rintro ⟨g, _⟩
        have : (0 : Int) < 2 ^ (w * N - 1) := by positivity
        omega
      have h1 := (I.checkedMulULimb_spec hw hN hv.1 (radix.setWidth w)).1 hng
      rw [hv.2, hrad] at h1
      rw [h1.2 (by unfold InS; omega)]
    · rw [if_neg h, digitPart_cons_neg cs h]
      exact ⟨fun e => (by cases e), fun e => absurd rfl e, fun _ _ => rfl⟩

/-- The product of the digits before the last one with the base lies in the gap. -/
def GapEnd (w N r a : Nat) (p : List Byte) : Prop :=
  p ≠ [] ∧ Mul.Gap w N (-((horner r a p.dropLast * r : Nat) : Int))

theorem I.checkedLoop_neg (ds : List Byte) (v : Limbs w) (a : Nat) (hv : ExactS N (-(a : Int)) v) :
    let p := digitPart radix.toNat ds
    let A := horner radix.toNat a p
    let res := Parse.checkedLoop .negOverflow I.checkedMulULimb I.checkedSubULimb radix ds v
    (¬ GapEnd w N radix.toNat a p →
      (¬ InS (w * N) (-(A : Int)) → res = .err .negOverflow) ∧
      (InS (w * N) (-(A : Int)) → p ≠ ds → res = .err .invalidDigit) ∧
      (InS (w * N) (-(A : Int)) → p = ds → ∃ u, res = .ok u ∧ ExactS N (-(A : Int)) u)) ∧
    (GapEnd w N radix.toNat a p →
      (p ≠ ds → res = .err .invalidDigit) ∧
      (p = ds → ∃ u, res = .ok u ∧ ExactS N (2 ^ (w * N) - (A : Int)) u)) := by
  have h32 : 32 ≤ w := by omega
  have hrad := setWidth_radix h32 radix
  have h5 := signed_pow (N := N) hw (by omega)
  induction ds generalizing v a with
  | nil => exact ⟨fun _ => ⟨fun h => absurd hv.inS h, fun _ h => absurd rfl h, fun _ _ => ⟨v, rfl, hv⟩⟩,
      fun h => absurd rfl h.1⟩
  | cons c cs ih =>
    simp only
    rw [Parse.checkedLoop, charToDigit_eq c radix hr hr']
    by_cases h : isDigit radix.toNat c = true
    · rw [if_pos h, digitPart_cons cs h]
      simp only
      have hd := setWidth_digit h32 c hr' h
      have hd' := dig_lt h
      have hA : horner radix.toNat a (c :: digitPart radix.toNat cs) =
        horner radix.toNat (a * radix.toNat + dig c) (digitPart radix.toNat cs) := rfl
      have hAle := le_horner (r := radix.toNat) (by omega) (a * radix.toNat + dig c)
        (digitPart radix.toNat cs)
      have hAle' : ((a : Int) * radix.toNat + dig c) ≤
          (horner radix.toNat (a * radix.toNat + dig c) (digitPart radix.toNat cs) : Int) := by
        exact_mod_cast hAle
      rw [hA]
      have hm := I.checkedMulULimb_spec hw hN hv.1 (radix.setWidth w)
      rw [hv.2, hrad] at hm
      have hz : -(a : Int) * radix.toNat = -((a * radix.toNat : Nat) : Int) := by push_cast; ring
      rw [hz] at hm
      have hnn : (0 : Int) ≤ ((a * radix.toNat : Nat) : Int) := by positivity
      -- the gap condition one step further
      have hge : digitPart radix.toNat cs ≠ [] →
          (GapEnd w N radix.toNat a (c :: digitPart radix.toNat cs) ↔
            GapEnd w N radix.toNat (a * radix.toNat + dig c) (digitPart radix.toNat cs)) := by
        intro hne
        unfold GapEnd
        rw [List.dropLast_cons_of_ne_nil hne]
        exact ⟨fun q => ⟨hne, q.2⟩, fun q => ⟨by simp, q.2⟩⟩
      have hge0 : digitPart radix.toNat cs = [] →
          (GapEnd w N radix.toNat a (c :: digitPart radix.toNat cs) ↔
            Mul.Gap w N (-((a * radix.toNat : Nat) : Int))) := by
        intro hne
        unfold GapEnd
        rw [hne]
        exact ⟨fun q => q.2, fun q => ⟨by simp, q⟩⟩
      by_cases g : Mul.Gap w N (-((a * radix.toNat : Nat) : Int))
      · -- the product is in the gap
        obtain ⟨u, u1, u2⟩ := hm.2 g
        rw [u1]
        simp only
        have h2 := (Sub.uLimbOverS (by omega) (u2.1.trans_ge (by omega))
          ((BitVec.ofNat 32 (dig c)).setWidth w)).check
        rw [u2.1, u2.2, hd] at h2
        change CheckS N _ (I.checkedSubULimb u _) at h2
        have hG : (2 : Int) ^ (w * (N - 1)) * 2 ^ 31 ≤ 2 ^ (w * N - 1) := by
          rw [pow_pred_mul (by omega) (by omega), pow_add]
          exact mul_le_mul_of_nonneg_left (pow_le_pow_right₀ (by omega) (by omega)) (by positivity)
        have hG1 : (2 : Int) ^ 96 ≤ 2 ^ (w * (N - 1)) := by
          apply pow_le_pow_right₀ (by omega)
          have := Nat.mul_le_mul (show 32 ≤ w by omega) (show 3 ≤ N - 1 by omega)
          omega
        norm_num at hG hG1
        obtain ⟨g1, g2⟩ := g
        have hd36 : (dig c : Int) < 36 := by omega
        have hin : InS (w * N) (-((a * radix.toNat : Nat) : Int) + 2 ^ (w * N) - (dig c : Int)) := by
          unfold InS
          omega
        obtain ⟨t, t1, t2⟩ := h2.1 hin
        rw [t1]
        simp only
        obtain ⟨w1, w2, w3⟩ := I.checkedLoop_wrong hw hN hr hr' cs t _ t2 (by omega)
        have hnot : ¬ InS (w * N) (-(horner radix.toNat (a * radix.toNat + dig c)
            (digitPart radix.toNat cs) : Int)) := by
          unfold InS
          have : ((a * radix.toNat : Nat) : Int) = (a : Int) * radix.toNat := by push_cast; rfl
          omega
        by_cases hne : digitPart radix.toNat cs = []
        · refine ⟨fun q => absurd ((hge0 hne).2 ⟨g1, g2⟩) q, fun _ => ⟨fun e => ?_, fun e => ?_⟩⟩
          · exact w3 (fun e' => e (by rw [e']; rfl)) hne
          · have e' : cs = [] := by
              rw [hne] at e
              exact (List.cons_inj_right c |>.1 e).symm
            refine ⟨t, w1 e', ?_⟩
            rw [hne]
            refine ⟨t2.1, t2.2.trans ?_⟩
            simp only [horner, List.foldl_nil]
            push_cast
            ring
        · rw [w2 hne]
          refine ⟨fun _ => ⟨fun _ => rfl, fun q => absurd q hnot, fun q => absurd q hnot⟩, fun q => ?_⟩
          -- the gap cannot be met a second time: the next product is far beyond it
          exfalso
          have q2 := ((hge hne).1 q).2.2
          have h3 : a * radix.toNat ≤ horner radix.toNat (a * radix.toNat + dig c)
              (digitPart radix.toNat cs).dropLast :=
            le_trans (by omega) (le_horner (by omega) _ _)
          have h4 : ((a * radix.toNat * 2 : Nat) : Int) ≤ ((horner radix.toNat (a * radix.toNat + dig c)
              (digitPart radix.toNat cs).dropLast * radix.toNat : Nat) : Int) := by
            exact_mod_cast Nat.mul_le_mul h3 hr
          push_cast at h4 q2 g1
          omega
      · have hc := hm.1 g
        by_cases c1 : InS (w * N) (-((a * radix.toNat : Nat) : Int))
        · obtain ⟨u, u1, u2⟩ := hc.1 c1
          rw [u1]
          simp only
          have h2 := (Sub.uLimbOverS (by omega) (u2.1.trans_ge (by omega))
            ((BitVec.ofNat 32 (dig c)).setWidth w)).check
          rw [u2.1, u2.2, hd] at h2
          change CheckS N _ (I.checkedSubULimb u _) at h2
          by_cases c2 : InS (w * N) (-((a * radix.toNat : Nat) : Int) - (dig c : Int))
          · obtain ⟨t, t1, t2⟩ := h2.1 c2
            rw [t1]
            simp only
            have t3 : ExactS N (-((a * radix.toNat + dig c : Nat) : Int)) t :=
              ⟨t2.1, t2.2.trans (by push_cast; ring)⟩
            obtain ⟨i1, i2⟩ := ih t _ t3
            have hiff : GapEnd w N radix.toNat a (c :: digitPart radix.toNat cs) ↔
                GapEnd w N radix.toNat (a * radix.toNat + dig c) (digitPart radix.toNat cs) := by
              by_cases hne : digitPart radix.toNat cs = []
              · exact ⟨fun q => absurd ((hge0 hne).1 q) g, fun q => absurd hne q.1⟩
              · exact hge hne
            rw [hiff]
            refine ⟨fun q => ⟨(i1 q).1, fun q1 e => (i1 q).2.1 q1 fun e' => e (by rw [e']),
              fun q1 e => (i1 q).2.2 q1 (List.cons_inj_right c |>.1 e)⟩,
              fun q => ⟨fun e => (i2 q).1 fun e' => e (by rw [e']),
                fun e => (i2 q).2 (List.cons_inj_right c |>.1 e)⟩⟩
          · rw [h2.2 c2]
            have hnot : ¬ InS (w * N) (-(horner radix.toNat (a * radix.toNat + dig c)
                (digitPart radix.toNat cs) : Int)) := by
              have : ((a * radix.toNat : Nat) : Int) = (a : Int) * radix.toNat := by push_cast; rfl
              unfold InS at c2 ⊢
              omega
            refine ⟨fun _ => ⟨fun _ => rfl, fun q => absurd q hnot, fun q => absurd q hnot⟩, fun q => ?_⟩
            exfalso
            by_cases hne : digitPart radix.toNat cs = []
            · exact g ((hge0 hne).1 q)
            · have q2 := ((hge hne).1 q).2.2
              have h3 : a * radix.toNat + dig c ≤ horner radix.toNat (a * radix.toNat + dig c)
                  (digitPart radix.toNat cs).dropLast := le_horner (by omega) _ _
              have h4 : (((a * radix.toNat + dig c) * 2 : Nat) : Int) ≤
                  ((horner radix.toNat (a * radix.toNat + dig c)
                    (digitPart radix.toNat cs).dropLast * radix.toNat : Nat) : Int) := by
                exact_mod_cast Nat.mul_le_mul h3 hr
              have hG : (2 : Int) ^ (w * (N - 1)) ≤ 2 ^ (w * N - 1) := by
                rw [pow_pred_mul (by omega) (by omega), pow_add]
                exact le_mul_of_one_le_right (by positivity) (one_le_pow₀ (by omega))
              unfold InS at c2
              push_cast at h4 q2 c2
              omega
        · rw [hc.2 c1]
          have hnot : ¬ InS (w * N) (-(horner radix.toNat (a * radix.toNat + dig c)
              (digitPart radix.toNat cs) : Int)) := by
            have : ((a * radix.toNat : Nat) : Int) = (a : Int) * radix.toNat := by push_cast; rfl
            unfold InS at c1 ⊢
            omega
          refine ⟨fun _ => ⟨fun _ => rfl, fun q => absurd q hnot, fun q => absurd q hnot⟩, fun q => ?_⟩
          exfalso
          by_cases hne : digitPart radix.toNat cs = []
          · exact g ((hge0 hne).1 q)
          · have q2 := ((hge hne).1 q).2.2
            have h3 : a * radix.toNat ≤ horner radix.toNat (a * radix.toNat + dig c)
                (digitPart radix.toNat cs).dropLast :=
              le_trans (by omega) (le_horner (by omega) _ _)
            have h4 : ((a * radix.toNat * 2 : Nat) : Int) ≤
                ((horner radix.toNat (a * radix.toNat + dig c)
                  (digitPart radix.toNat cs).dropLast * radix.toNat : Nat) : Int) := by
              exact_mod_cast Nat.mul_le_mul h3 hr
            have hG : (2 : Int) ^ (w * (N - 1)) ≤ 2 ^ (w * N - 1) := by
              rw [pow_pred_mul (by omega) (by omega), pow_add]
              exact le_mul_of_one_le_right (by positivity) (one_le_pow₀ (by omega))
            unfold InS at c1
            push_cast at h4 q2 c1
            omega
    · rw [if_neg h, digitPart_cons_neg cs h]
      exact ⟨fun _ => ⟨fun q => absurd hv.inS q, fun _ _ => rfl, fun _ e => (by cases e)⟩,
        fun q => absurd rfl q.1⟩

/-- The digits end in the gap. -/
theorem GapEnd_iff (p : List Byte) : GapEnd w N radix.toNat 0 p ↔
    Mul.Gap w N (-((radix.toNat * numVal radix.toNat p.dropLast : Nat) : Int)) := by
  unfold GapEnd
  rw [← numVal_eq_horner, Nat.mul_comm]
  refine ⟨fun q => q.2, fun q => ⟨?_, q⟩⟩
  rintro rfl
  have : (0 : Int) < 2 ^ (w * N - 1) := by positivity
  have h := q.1
  simp [numVal] at h
  omega

theorem I.body_neg_spec (ds : List Byte) :
    (¬ Mul.Gap w N (-((radix.toNat * numVal radix.toNat (digitPart radix.toNat ds).dropLast : Nat) : Int)) →
      ReadsS N radix.toNat (-1) .negOverflow ds
        (Parse.body (I.parseOps (w := w)) true N radix true ds)) ∧
    (Mul.Gap w N (-((radix.toNat * numVal radix.toNat (digitPart radix.toNat ds).dropLast : Nat) : Int)) →
      (digitPart radix.toNat ds ≠ ds →
        Parse.body (I.parseOps (w := w)) true N radix true ds = .err .invalidDigit) ∧
      (digitPart radix.toNat ds = ds →
        ∃ u, Parse.body (I.parseOps (w := w)) true N radix true ds = .ok u ∧
          ExactS N (2 ^ (w * N) - (numVal radix.toNat ds : Int)) u)) := by
  have h0 := ofU8_zero (w := w) N (by omega)
  have h5 := signed_pow (N := N) hw (by omega)
  rw [← GapEnd_iff hw hN hr hr']
  unfold Parse.body
  simp only [Bool.and_true, if_true]
  split
  · rename_i hc
    have h := I.unchecked_spec hw hN hr hr' ds true (of_decide_eq_true hc)
    refine ⟨fun _ => h.2, fun q => ?_⟩
    exfalso
    have h1 := h.1
    obtain ⟨q1, q2, _⟩ := q
    obtain ⟨s, c, hs⟩ : ∃ s c, digitPart radix.toNat ds = s ++ [c] :=
      ⟨_, _, (List.dropLast_concat_getLast q1).symm⟩
    rw [hs] at h1 q2
    rw [numVal_concat] at h1
    rw [List.dropLast_concat, ← numVal_eq_horner] at q2
    unfold InS at h1
    push_cast at h1 q2
    simp at h1
    omega
  · have hs := I.checkedLoop_neg hw hN hr hr' ds (ofU8 N 0 : Limbs w) 0 ⟨h0.1, by
        have := h0.exactS (n := 0) (by decide) (by
          have : 0 < w * N := Nat.mul_pos (by omega) (by omega)
          omega)
        simpa using this.2⟩
    simp only [← numVal_eq_horner] at hs
    have hloop : Parse.checkedLoop .negOverflow I.parseOps.cMul I.parseOps.cSub radix ds (ofU8 N 0 : Limbs w) =
        Parse.checkedLoop .negOverflow I.checkedMulULimb I.checkedSubULimb radix ds (ofU8 N 0) := rfl
    rw [hloop]
    unfold ReadsS
    simp only [neg_one_mul]
    refine ⟨fun q => ⟨(hs.1 q).1, (hs.1 q).2.1, fun q1 e => ?_⟩, fun q => ⟨(hs.2 q).1, fun e => ?_⟩⟩
    · have := (hs.1 q).2.2 q1 e
      rwa [e] at this
    · have := (hs.2 q).2 e
      rwa [e] at this

theorem radix_ok : (decide (radix < 2) || decide (36 < radix)) = false := by
  have h1 : radix < 2 ↔ radix.toNat < 2 := Iff.rfl
  have h2 : 36 < radix ↔ 36 < radix.toNat := Iff.rfl
  simp only [h1, h2]
  simp
  omega

/-- The unsigned parser on every string other than a sole `+`. -/
theorem U.fromStrRadix_spec (s : List Byte) (hs : s ≠ [43]) :
    ∃ p, U.fromStrRadix N s radix = .ok p ∧ ParsesU (w := w) N radix.toNat s p := by
  unfold U.fromStrRadix Parse.fromStrRadix
  rw [if_neg (by rw [radix_ok hw hN hr hr']; decide)]
  cases s with
  | nil => exact ⟨_, rfl, rfl⟩
  | cons c t =>
    simp only [ParsesU, Bool.and_false, Bool.false_eq_true, if_false]
    by_cases c1 : c = 43
    · simp only [if_pos c1]
      refine ⟨_, rfl, ?_⟩
      rw [if_neg (by rintro rfl; exact hs (by rw [c1]))]
      exact U.body_spec hw hN hr hr' t
    · by_cases c2 : c = 45
      · simp only [if_neg c1, if_pos c2]
        exact ⟨_, rfl, rfl⟩
      · simp only [if_neg c1, if_neg c2]
        exact ⟨_, rfl, U.body_spec hw hN hr hr' (c :: t)⟩

/-- The signed parser on every string other than a sole sign and outside the gap. -/
theorem I.fromStrRadix_spec (s : List Byte) (hs : s ≠ [43]) (hs' : s ≠ [45])
    (hg : ¬ GapText w N radix.toNat s) :
    ∃ p, I.fromStrRadix N s radix = .ok p ∧ ParsesS (w := w) N radix.toNat s p := by
  unfold I.fromStrRadix Parse.fromStrRadix
  rw [if_neg (by rw [radix_ok hw hN hr hr']; decide)]
  cases s with
  | nil => exact ⟨_, rfl, rfl⟩
  | cons c t =>
    simp only [ParsesS, Bool.and_true, decide_eq_true_eq]
    by_cases c1 : c = 43
    · simp only [if_pos c1]
      refine ⟨_, rfl, ?_⟩
      rw [if_neg (by rintro rfl; exact hs (by rw [c1]))]
      exact I.body_pos_spec hw hN hr hr' t
    · by_cases c2 : c = 45
      · simp only [if_neg c1, if_pos c2]
        refine ⟨_, rfl, ?_⟩
        rw [if_neg (by rintro rfl; exact hs' (by rw [c2]))]
        exact (I.body_neg_spec hw hN hr hr' t).1 fun q => hg ⟨t, by rw [c2], q⟩
      · simp only [if_neg c1, if_neg c2]
        exact ⟨_, rfl, I.body_pos_spec hw hN hr hr' (c :: t)⟩

/-- The signed parser in the gap. -/
theorem I.fromStrRadix_gap (t : List Byte) (hg : GapText w N radix.toNat (45 :: t)) :
    (digitPart radix.toNat t ≠ t →
      I.fromStrRadix N (45 :: t) radix = .ok (.err .invalidDigit : Parsed (Limbs w))) ∧
    (digitPart radix.toNat t = t → ∃ u : Limbs w, I.fromStrRadix N (45 :: t) radix = .ok (.ok u) ∧
      ExactS N (2 ^ (w * N) - (numVal radix.toNat t : Int)) u) := by
  obtain ⟨t', ht, hg⟩ := hg
  obtain rfl : t = t' := (List.cons.inj ht).2
  obtain ⟨h1, h2⟩ := (I.body_neg_spec hw hN hr hr' t).2 hg
  unfold I.fromStrRadix Parse.fromStrRadix
  rw [if_neg (by rw [radix_ok hw hN hr hr']; decide)]
  simp only [Bool.and_true, decide_true, if_true,
    if_neg (show ¬ ((45 : Byte) = 43) by decide)]
  refine ⟨fun e => by rw [h1 e], fun e => ?_⟩
  obtain ⟨u, u1, u2⟩ := h2 e
  exact ⟨u, by rw [u1], u2⟩

end

/-! ## `FromStr` -/

/-- Digits of the standard library parser. -/
def primDigits (signed : Bool) (n : Nat) (neg : Bool) (ds : List Byte) : Parsed (BitVec n) :=
  if ds = [] || !ds.all (isDigit 10) then .err .invalidDigit
  else
    let z : Int := if neg then -(numVal 10 ds : Int) else numVal 10 ds
    if z < (if signed then -2 ^ (n - 1) else 0) then .err .negOverflow
    else if (if signed then 2 ^ (n - 1) else 2 ^ n) ≤ z then .err .posOverflow
    else .ok (BitVec.ofInt n z)

theorem primFromStr_eq (signed : Bool) (n : Nat) (s : List Byte) :
    Parse.primFromStr signed n s = match s with
      | [] => .err .empty
      | c :: cs => if c = 43 then primDigits signed n false cs
        else if c = 45 && signed then primDigits signed n true cs
        else primDigits signed n false (c :: cs) := by
  cases s <;> rfl

theorem all_iff_digitPart {r : Nat} {ds : List Byte} :
    ds.all (isDigit r) = true ↔ digitPart r ds = ds := by
  rw [List.all_eq_true]
  exact List.takeWhile_eq_self_iff.symm

theorem primDigitsU {N n : Nat} {f : BitVec n → Limbs w} (hf : ∀ v, ExactU N (v.toNat : Int) (f v))
    (hn : n ≤ w * N) (ds : List Byte) (hd : ds ≠ []) (hlen : 10 ^ ds.length ≤ 2 ^ n) :
    ReadsU N 10 .posOverflow ds (Parse.Parsed.map f (primDigits false n false ds)) := by
  have h1 := numVal_lt _ (digitPart_isDigit 10 ds)
  have h2 : 10 ^ (digitPart 10 ds).length ≤ 10 ^ ds.length :=
    Nat.pow_le_pow_right (by omega) (digitPart_length_le _ _)
  have h3 : 2 ^ n ≤ 2 ^ (w * N) := Nat.pow_le_pow_right (by omega) hn
  have hin : InU (w * N) (numVal 10 (digitPart 10 ds)) := by
    refine ⟨by omega, ?_⟩
    exact_mod_cast (show numVal 10 (digitPart 10 ds) < 2 ^ (w * N) by omega)
  unfold primDigits
  refine ⟨fun q => absurd hin q, fun _ e => ?_, fun _ e => ?_⟩
  · rw [if_pos]
    · rfl
    · have : ds.all (isDigit 10) = false := by
        rw [← Bool.not_eq_true, all_iff_digitPart]; exact e
      simp [this]
  · rw [if_neg (by simp [hd, all_iff_digitPart.2 e])]
    rw [e] at h1 hin
    have h4 : (numVal 10 ds : Int) < 2 ^ n := by exact_mod_cast (show numVal 10 ds < 2 ^ n by omega)
    simp only [Bool.false_eq_true, if_false]
    rw [if_neg (by omega), if_neg (by omega)]
    refine ⟨_, rfl, ?_⟩
    have h5 := hf (BitVec.ofInt n (numVal 10 ds))
    rwa [BitVec.ofInt_natCast, BitVec.toNat_ofNat, Nat.mod_eq_of_lt (by omega)] at h5

theorem primDigitsS {N n : Nat} {f : BitVec n → Limbs w} (hf : ∀ v, ExactS N v.toInt (f v))
    (hn : n ≤ w * N) (h0 : 0 < n) (ds : List Byte) (hd : ds ≠ [])
    (hlen : 10 ^ ds.length ≤ 2 ^ (n - 1)) (neg : Bool) :
    ReadsS N 10 (if neg then -1 else 1) (if neg then .negOverflow else .posOverflow) ds
      (Parse.Parsed.map f (primDigits true n neg ds)) := by
  have h1 := numVal_lt _ (digitPart_isDigit 10 ds)
  have h2 : 10 ^ (digitPart 10 ds).length ≤ 10 ^ ds.length :=
    Nat.pow_le_pow_right (by omega) (digitPart_length_le _ _)
  have h3 : 2 ^ (n - 1) ≤ 2 ^ (w * N - 1) := Nat.pow_le_pow_right (by omega) (by omega)
  have h5 : (2 : Int) ^ (w * N) = 2 * 2 ^ (w * N - 1) := by
    rw [← pow_succ', show w * N - 1 + 1 = w * N by omega]
  have h6 : (2 : Int) ^ n = 2 * 2 ^ (n - 1) := by
    rw [← pow_succ', show n - 1 + 1 = n by omega]
  have h7 : (numVal 10 (digitPart 10 ds) : Int) < 2 ^ (w * N - 1) := by
    exact_mod_cast (show numVal 10 (digitPart 10 ds) < 2 ^ (w * N - 1) by omega)
  have hin : InS (w * N) ((if neg then -1 else 1) * (numVal 10 (digitPart 10 ds) : Int)) := by
    unfold InS
    cases neg <;> simp <;> omega
  unfold primDigits
  refine ⟨fun q => absurd hin q, fun _ e => ?_, fun _ e => ?_⟩
  · rw [if_pos]
    · rfl
    · have : ds.all (isDigit 10) = false := by
        rw [← Bool.not_eq_true, all_iff_digitPart]; exact e
      simp [this]
  · rw [if_neg (by simp [hd, all_iff_digitPart.2 e])]
    rw [e] at h1 hin
    have h4 : (numVal 10 ds : Int) < 2 ^ (n - 1) := by
      exact_mod_cast (show numVal 10 ds < 2 ^ (n - 1) by omega)
    simp only [if_true]
    have hz : (if neg = true then -(numVal 10 ds : Int) else numVal 10 ds) =
        (if neg then -1 else 1) * (numVal 10 ds : Int) := by cases neg <;> simp
    have hr : -2 ^ (n - 1) < (if neg then -1 else 1) * (numVal 10 ds : Int) ∧
        (if neg then -1 else 1) * (numVal 10 ds : Int) < 2 ^ (n - 1) := by
      cases neg <;> simp <;> omega
    rw [hz, if_neg (by omega), if_neg (by omega)]
    refine ⟨_, rfl, ?_⟩
    have h8 := hf (BitVec.ofInt n ((if neg then -1 else 1) * (numVal 10 ds : Int)))
    rwa [BitVec.toInt_ofInt, bmod_of_InS (by unfold InS; omega)] at h8

section
variable {N : Nat} (hw : w = 32 ∨ w = 64) (hN : 4 ≤ N)
include hw hN

theorem U.primFromStr_spec {n : Nat} {f : BitVec n → Limbs w} (hf : ∀ v, ExactU N (v.toNat : Int) (f v))
    (hn : n ≤ w * N) (s : List Byte) (hlen : 10 ^ s.length ≤ 2 ^ n) :
    (s.head? ≠ some 45 → ParsesU N 10 s (Parse.Parsed.map f (Parse.primFromStr false n s))) ∧
    (s.head? = some 45 → Parse.Parsed.map f (Parse.primFromStr false n s) = .err .invalidDigit) := by
  rw [primFromStr_eq]
  cases s with
  | nil => exact ⟨fun _ => rfl, fun h => by cases h⟩
  | cons c t =>
    simp only [ParsesU, Bool.and_false, Bool.false_eq_true, if_false, List.head?_cons,
      Option.some.injEq, ne_eq]
    by_cases c1 : c = 43
    · simp only [if_pos c1]
      refine ⟨fun _ => ?_, fun h => by rw [c1] at h; exact absurd h (by decide)⟩
      by_cases ht : t = []
      · rw [if_pos ht, ht]; rfl
      · rw [if_neg ht]
        apply primDigitsU hf hn t ht
        exact le_trans (Nat.pow_le_pow_right (by omega) (by simp)) hlen
    · simp only [if_neg c1]
      refine ⟨fun c2 => ?_, fun c2 => ?_⟩
      · simp only [if_neg c2]
        exact primDigitsU hf hn (c :: t) (by simp) hlen
      · have : digitPart 10 (c :: t) ≠ c :: t := by
          rw [digitPart_cons_neg t (by rw [c2]; decide)]; simp
        exact (primDigitsU hf hn (c :: t) (by simp) hlen).2.1 (by
          rw [digitPart_cons_neg t (by rw [c2]; decide)]
          exact ⟨by simp [numVal], by simp [numVal]⟩) this

theorem I.primFromStr_spec {n : Nat} {f : BitVec n → Limbs w} (hf : ∀ v, ExactS N v.toInt (f v))
    (hn : n ≤ w * N) (h0 : 0 < n) (s : List Byte) (hlen : 10 ^ s.length ≤ 2 ^ (n - 1)) :
    ParsesS N 10 s (Parse.Parsed.map f (Parse.primFromStr true n s)) := by
  rw [primFromStr_eq]
  cases s with
  | nil => rfl
  | cons c t =>
    simp only [ParsesS, Bool.and_true, decide_eq_true_eq]
    have hlt : 10 ^ t.length ≤ 2 ^ (n - 1) :=
      le_trans (Nat.pow_le_pow_right (by omega) (by simp)) hlen
    by_cases c1 : c = 43
    · simp only [if_pos c1]
      by_cases ht : t = []
      · rw [if_pos ht, ht]; rfl
      · rw [if_neg ht]
        exact primDigitsS hf hn h0 t ht hlt false
    · simp only [if_neg c1]
      by_cases c2 : c = 45
      · simp only [if_pos c2]
        by_cases ht : t = []
        · rw [if_pos ht, ht]; rfl
        · rw [if_neg ht]
          exact primDigitsS hf hn h0 t ht hlt true
      · simp only [if_neg c2]
        exact primDigitsS hf hn h0 (c :: t) (by simp) hlen false

theorem U.fromStr_spec (hB : 128 ≤ w * N) (p32 : Bool) (s : List Byte) :
    ∃ p, U.fromStr p32 N s = .ok p ∧
      ((39 ≤ s.length ∨ s.head? ≠ some 45) → ParsesU (w := w) N 10 s p) ∧
      (s.length < 39 → s.head? = some 45 → p = .err .invalidDigit) := by
  unfold U.fromStr
  have hmono : ∀ {a b : Nat}, a ≤ b → 10 ^ a ≤ 10 ^ b := fun h => Nat.pow_le_pow_right (by omega) h
  by_cases c1 : (p32 && decide (s.length < 20)) = true
  · rw [if_pos c1]
    simp at c1
    have h := U.primFromStr_spec hw hN (f := Cast.fromU64 N) (fun v => fromU_spec hw hN .b64 v)
      (by omega) s (le_trans (hmono (show s.length ≤ 19 by omega)) (by decide))
    exact ⟨_, rfl, fun q => h.1 (by rcases q with q | q; · omega
                                    · exact q), fun _ => h.2⟩
  · rw [if_neg c1]
    by_cases c2 : s.length < 39
    · rw [if_pos c2]
      have h := U.primFromStr_spec hw hN (f := Cast.fromU128 N) (fun v => fromU_spec hw hN .b128 v)
        hB s (le_trans (hmono (show s.length ≤ 38 by omega)) (by decide))
      exact ⟨_, rfl, fun q => h.1 (by rcases q with q | q; · omega
                                      · exact q), fun _ => h.2⟩
    · rw [if_neg c2]
      obtain ⟨p, h1, h2⟩ := U.fromStrRadix_spec (w := w) (radix := 10) hw hN (by decide) (by decide) s
        (by rintro rfl; simp at c2)
      exact ⟨p, h1, fun _ => h2, fun q => absurd q c2⟩

theorem I.fromStr_spec (hB : 128 ≤ w * N) (p32 : Bool) (s : List Byte)
    (hg : 39 ≤ s.length → ¬ GapText w N 10 s) :
    ∃ p, I.fromStr p32 N s = .ok p ∧ ParsesS (w := w) N 10 s p := by
  unfold I.fromStr
  have hmono : ∀ {a b : Nat}, a ≤ b → 10 ^ a ≤ 10 ^ b := fun h => Nat.pow_le_pow_right (by omega) h
  by_cases c1 : (p32 && decide (s.length < 19)) = true
  · rw [if_pos c1]
    simp at c1
    exact ⟨_, rfl, I.primFromStr_spec hw hN (f := Cast.fromI64 N) (fun v => fromI_spec hw hN .b64 v)
      (by omega) (by decide) s (le_trans (hmono (show s.length ≤ 18 by omega)) (by decide))⟩
  · rw [if_neg c1]
    by_cases c2 : s.length < 39
    · rw [if_pos c2]
      exact ⟨_, rfl, I.primFromStr_spec hw hN (f := Cast.fromI128 N) (fun v => fromI_spec hw hN .b128 v)
        hB (by decide) s (le_trans (hmono (show s.length ≤ 38 by omega)) (by decide))⟩
    · rw [if_neg c2]
      exact I.fromStrRadix_spec (w := w) (radix := 10) hw hN (by decide) (by decide) s
        (by rintro rfl; simp at c2) (by rintro rfl; simp at c2) (hg (by omega))

end

end I256
