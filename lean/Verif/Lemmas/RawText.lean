import Verif.SpecRawText
import Verif.Model.RawText
import Verif.Lemmas.RawScalar
import Verif.Lemmas.RawCasts
import Verif.Lemmas.RawMul
import Verif.Lemmas.Write

/-! # Lemmas on the literal text conversions -/

namespace I256

variable {w : Nat}

namespace Raw

open Div (Cfg)

section
variable {σ : Type} {fuel : Nat} {cond : σ → Res Bool} {body : σ → Res σ} {s t : σ}

theorem loopM_done (h : cond s = .ok false) : loopM fuel cond body s = .ok s := by
  rw [loopM.eq_def, h, Res.mbind_ok]
  simp

theorem loopM_step (h : cond s = .ok true) :
    loopM (fuel + 1) cond body s = (body s).bind (loopM fuel cond body) := by
  rw [loopM.eq_def, h, Res.mbind_ok]
  simp only [if_true]
  rfl

end

/-! ## The formatter -/

theorem add_u8 (cf : Cfg) (a b : Byte) : Div.add cf a b = I256.Write.addU8 cf.oc a b := by
  unfold Div.add Raw.add I256.Write.addU8
  cases cf.oc
  · rfl
  · by_cases h : a.toNat + b.toNat < 256
    · rw [if_pos rfl, if_pos h, if_neg (by simpa using h)]
    · rw [if_pos rfl, if_neg h, if_pos (by simpa using h)]

theorem sub_u8 (cf : Cfg) (a b : Byte) : Div.sub cf a b = I256.Write.subU8 cf.oc a b := by
  unfold Div.sub Raw.sub I256.Write.subU8
  cases cf.oc
  · rfl
  · by_cases h : b.toNat ≤ a.toNat
    · rw [if_pos rfl, if_pos h, if_neg (by simpa using h)]
    · rw [if_pos rfl, if_neg h, if_pos (by simpa using h)]

namespace Write

theorem digitToChar_eq (cf : Cfg) (d r : BitVec 32) :
    digitToChar cf d r = I256.Write.digitToChar cf.oc d r := by
  unfold digitToChar I256.Write.digitToChar
  rw [add_u8, add_u8]
  split
  · rfl
  · exact congrArg _ (funext fun c => sub_u8 cf c 10)

theorem set_take {b : List Byte} {i : Nat} (h : i < b.length) (out : List Byte) (c : Byte) :
    set_ (b.take (i + 1) ++ out) i c = .ok (b.take i ++ c :: out) := by
  have hl : (b.take i).length = i := by simp; omega
  rw [set_ok (by simp; omega), List.take_succ_eq_append_getElem h, List.append_assoc,
    List.set_append_right _ _ (by omega), hl, Nat.sub_self]
  rfl

/-- The limbs keep their number and the written part grows as the index goes down. -/
theorem loop_inv {oc signed : Bool} {divRem : Limbs w → BitVec w → Res (Limbs w × BitVec w)}
    {limit : Limbs w} {radix : BitVec 32} {start N : Nat}
    (hq : ∀ x q r, x.length = N → divRem x (radix.setWidth w) = .ok (q, r) → q.length = N)
    {index : Nat} {x : Limbs w} {out : List Byte} (hx : x.length = N) (hs : start ≤ index)
    {s : Nat × Limbs w × List Byte}
    (h : I256.Write.loop oc signed divRem limit radix start index x out = .ok s) :
    s.2.1.length = N ∧ s.1 + s.2.2.length = index + out.length ∧ start ≤ s.1 := by
  induction index generalizing x out with
  | zero =>
    rw [I256.Write.loop] at h
    cases h
    exact ⟨hx, rfl, hs⟩
  | succ index ih =>
    rw [I256.Write.loop] at h
    split at h
    · rename_i hc
      cases e : divRem x (radix.setWidth w) with
      | panic => rw [e] at h; cases h
      | ok qr =>
        cases e2 : I256.Write.digitToChar oc (qr.2.setWidth 32) radix with
        | panic => rw [e] at h; simp only [Res.bind, e2] at h; cases h
        | ok c =>
          rw [e] at h
          simp only [Res.bind, e2] at h
          rw [Bool.and_eq_true, decide_eq_true_eq] at hc
          obtain ⟨h1, h2, h3⟩ := ih (hq x qr.1 qr.2 hx e) (by omega) h
          refine ⟨h1, ?_, h3⟩
          rw [h2, List.length_cons]
          omega
    · cases h
      exact ⟨hx, rfl, hs⟩

/-- The condition of the loop. -/
def goes (be signed : Bool) (limit : Limbs w) (start : Nat) (s : Limbs w × Nat × List Byte) :
    Res Bool := do
  let lt ← Ord.lt be signed s.1 limit
  .ok (!lt && decide (start < s.2.1))

/-- The body of the loop. -/
def step (cf : Cfg) (divRem : Limbs w → BitVec w → Res (Limbs w × BitVec w)) (radix : BitVec 32)
    (s : Limbs w × Nat × List Byte) : Res (Limbs w × Nat × List Byte) := do
  let index ← usub s.2.1 1
  let qr ← divRem s.1 (radix.setWidth w)
  let c ← digitToChar cf (qr.2.setWidth 32) radix
  let buffer ← set_ s.2.2 index c
  .ok (qr.1, index, buffer)

theorem loop_ok (cf : Cfg) (be : Bool) {signed : Bool}
    {divRem divRem' : Limbs w → BitVec w → Res (Limbs w × BitVec w)} {N : Nat} {limit : Limbs w}
    {radix : BitVec 32} {start : Nat}
    (hd : ∀ x : Limbs w, x.length = N → divRem (mem be x) (radix.setWidth w) =
      (divRem' x (radix.setWidth w)).map fun r => (mem be r.1, r.2))
    (hq : ∀ x q r, x.length = N → divRem' x (radix.setWidth w) = .ok (q, r) → q.length = N)
    (hlt : ∀ x : Limbs w, x.length = N →
      Ord.lt be signed (mem be x) (mem be limit) = .ok (I256.Ord.lt signed x limit))
    (buffer : List Byte) {fuel index : Nat} {x : Limbs w} {out : List Byte} (hx : x.length = N)
    (hi : index ≤ buffer.length) (hf : index ≤ fuel) :
    loopM fuel (goes be signed (mem be limit) start) (step cf divRem radix)
      (mem be x, index, buffer.take index ++ out) =
    (I256.Write.loop cf.oc signed divRem' limit radix start index x out).map
      (fun s => (mem be s.2.1, s.1, buffer.take s.1 ++ s.2.2)) := by
  induction index generalizing x out fuel with
  | zero =>
    rw [loopM_done (by simp only [goes, hlt x hx, Res.mbind_ok]; simp), I256.Write.loop, Res.map_ok]
  | succ index ih =>
    obtain ⟨fuel, rfl⟩ : ∃ f, fuel = f + 1 := ⟨fuel - 1, by omega⟩
    rw [I256.Write.loop, I256.Ord.ge]
    by_cases hc : (!I256.Ord.lt signed x limit && decide (start < index + 1)) = true
    · have hb : step cf divRem radix (mem be x, index + 1, buffer.take (index + 1) ++ out) =
          (divRem' x (radix.setWidth w)).bind fun qr =>
          (I256.Write.digitToChar cf.oc (qr.2.setWidth 32) radix).bind fun c =>
          .ok (mem be qr.1, index, buffer.take index ++ c :: out) := by
        simp only [step, usub, if_pos (Nat.le_add_left 1 index), Nat.add_sub_cancel, Res.mbind_ok,
          hd x hx]
        cases divRem' x (radix.setWidth w) with
        | panic => rfl
        | ok qr =>
          simp only [Res.map_ok, Res.mbind_ok, Res.bind_ok, digitToChar_eq]
          cases I256.Write.digitToChar cf.oc (qr.2.setWidth 32) radix with
          | panic => rfl
          | ok c =>
            simp only [Res.mbind_ok, Res.bind_ok, set_take (show index < buffer.length by omega)]
      rw [loopM_step (by simp only [goes, hlt x hx, Res.mbind_ok, hc]), if_pos hc, hb]
      cases e : divRem' x (radix.setWidth w) with
      | panic => rfl
      | ok qr =>
        simp only [Res.bind_ok]
        cases e2 : I256.Write.digitToChar cf.oc (qr.2.setWidth 32) radix with
        | panic => rfl
        | ok c =>
          simp only [Res.bind_ok]
          exact ih (fuel := fuel) (hq x qr.1 qr.2 hx e) (by omega) (by omega)
    · rw [Bool.not_eq_true] at hc
      rw [loopM_done (by simp only [goes, hlt x hx, Res.mbind_ok, hc]), hc, if_neg (by simp), Res.map_ok]

theorem drop_take {b : List Byte} {i : Nat} (h : i ≤ b.length) (out : List Byte) :
    (b.take i ++ out).drop i = out := by
  rw [List.drop_append_of_le_length (by simp; omega)]
  simp

theorem finish_ok (cf : Cfg) (be signed negative : Bool) {limit x : Limbs w} {radix : BitVec 32}
    (hlt : Ord.lt be signed (mem be x) (mem be limit) = .ok (I256.Ord.lt signed x limit))
    (hx : 0 < x.length) {buffer : List Byte} {index : Nat} {out : List Byte}
    (hs : (if negative then 2 else 1) ≤ index) (hi : index + out.length = buffer.length) :
    finish cf be signed negative (mem be limit) radix (mem be x) index (buffer.take index ++ out) =
      (if !I256.Ord.lt signed x limit then .panic
      else
        (I256.Write.digitToChar cf.oc ((I256.getLimb x 0).setWidth 32) radix).bind fun c =>
        .ok (if negative then 45#8 :: c :: out else c :: out)).map
      (fun s => (buffer.take (buffer.length - s.length) ++ s, s)) := by
  rw [finish, hlt, Res.mbind_ok]
  cases I256.Ord.lt signed x limit
  · rfl
  · rw [assert, if_pos rfl, Res.mbind_ok]
    obtain ⟨i, rfl⟩ : ∃ i, index = i + 1 := ⟨index - 1, by split at hs <;> omega⟩
    rw [usub, if_pos (by omega), Res.mbind_ok, getLimb_ok be hx, Res.mbind_ok, digitToChar_eq]
    simp only [Bool.not_true, Bool.false_eq_true, if_false]
    cases I256.Write.digitToChar cf.oc ((I256.getLimb x 0).setWidth 32) radix with
    | panic => rfl
    | ok c =>
      simp only [Res.mbind_ok, Res.bind_ok, Nat.add_sub_cancel, set_take (show i < buffer.length by omega)]
      cases negative with
      | false =>
        simp only [Bool.false_eq_true, if_false, Res.map_ok, List.length_cons]
        rw [if_pos (by simp; omega), drop_take (by omega), show buffer.length - (out.length + 1) = i by omega]
      | true =>
        simp only [if_true] at hs ⊢
        obtain ⟨j, rfl⟩ : ∃ j, i = j + 1 := ⟨i - 1, by omega⟩
        simp only [usub, if_pos (Nat.le_add_left 1 j), Nat.add_sub_cancel, Res.mbind_ok,
          set_take (show j < buffer.length by omega), Res.map_ok, List.length_cons]
        rw [if_pos (by simp; omega), drop_take (by omega),
          show buffer.length - (out.length + 1 + 1) = j by omega]
        rfl

theorem toStrRadix_ok (h8 : 8 ∣ w) (hw : 2 ≤ w) (cf : Cfg) (be signed : Bool)
    {divRem divRem' : Limbs w → BitVec w → Res (Limbs w × BitVec w)} {x : Limbs w}
    {radix : BitVec 32} (h4 : 4 ≤ x.length) (he : x.length % 2 = 0) (h128 : 128 ∣ w * x.length)
    (hd : ∀ y : Limbs w, y.length = x.length → divRem (mem be y) (radix.setWidth w) =
      (divRem' y (radix.setWidth w)).map fun r => (mem be r.1, r.2))
    (hq : 2 ≤ radix.toNat → radix.toNat ≤ 36 →
      ∀ y q r, y.length = x.length → divRem' y (radix.setWidth w) = .ok (q, r) → q.length = x.length)
    (buffer : List Byte) :
    toStrRadix cf be signed divRem (mem be x) buffer radix =
      (I256.Write.toStrRadix cf.oc signed divRem' buffer.length x radix).map
        (fun s => (buffer.take (buffer.length - s.length) ++ s, s)) := by
  have e1 : (!(decide (2 ≤ radix) && decide (radix ≤ 36))) =
      (decide (radix < 2) || decide (36 < radix)) := by
    rw [Bool.not_and, ← decide_not, ← decide_not]
    have := @BitVec.not_le 32
    simp only [this]
  have hbits : bits (mem be x) = bits x := by simp [bits]
  have hzl : (ofU8 x.length 0 : Limbs w).length = x.length :=
    extU_length (by omega) _
  have hll : (I256.Cast.fromU32 x.length radix : Limbs w).length = x.length := by
    simp [I256.Cast.fromU32, I256.Cast.put]
    omega
  rw [toStrRadix, I256.Write.toStrRadix, e1, hbits, mem_length]
  by_cases hc : (decide (radix < 2) || decide (36 < radix)) = true
  · rw [if_pos hc, if_pos hc]
    rfl
  rw [if_neg hc, if_neg hc]
  have hr : 2 ≤ radix.toNat ∧ radix.toNat ≤ 36 := by
    have n1 : radix < 2 ↔ radix.toNat < 2 := Iff.rfl
    have n2 : 36 < radix ↔ 36 < radix.toNat := Iff.rfl
    simp only [Bool.or_eq_true, decide_eq_true_eq, n1, n2] at hc
    omega
  by_cases hb : buffer.length < bits x + signed.toNat
  · rw [if_pos hb, if_pos hb]
    rfl
  rw [if_neg hb, if_neg hb]
  have hneg : isNegative be signed (mem be x) =
      .ok (signed && I256.Ord.lt signed x (ofU8 x.length 0)) := by
    unfold isNegative
    cases signed
    · rfl
    · simp only [if_true, mem_length, Bool.true_and]
      rw [fromU8_ok be 0 (by omega) h128, Res.mbind_ok,
        Ord.lt_ok h8 be true hzl.symm he (length_ne (n := 0) (by omega))]
  rw [hneg, Res.mbind_ok, Cast.fromU32_ok be h4 h128, Res.mbind_ok]
  generalize hn : (signed && I256.Ord.lt signed x (ofU8 x.length 0)) = negative
  have hlt : ∀ y : Limbs w, y.length = x.length →
      Ord.lt be signed (mem be y) (mem be (I256.Cast.fromU32 x.length radix)) =
        .ok (I256.Ord.lt signed y (I256.Cast.fromU32 x.length radix)) := fun y hy =>
    Ord.lt_ok h8 be signed (hy.trans hll.symm) (by omega) (length_ne (n := 0) (by omega))
  have hL := loop_ok cf be (start := if negative then 2 else 1) hd (hq hr.1 hr.2) hlt buffer
    (fuel := buffer.length) (out := []) rfl (le_refl _) (le_refl _)
  rw [List.take_length, List.append_nil] at hL
  refine (congrArg (fun r => Res.bind r _) hL).trans ?_
  have hbs : 2 ≤ bits x := by
    unfold bits
    calc 2 ≤ 2 * 1 := by omega
      _ ≤ w * x.length := Nat.mul_le_mul hw (by omega)
  cases e : I256.Write.loop cf.oc signed divRem' (I256.Cast.fromU32 x.length radix) radix
      (if negative then 2 else 1) buffer.length x [] with
  | panic =>
    simp only [e]
    rfl
  | ok s =>
    obtain ⟨h1, h2, h3⟩ := loop_inv (hq hr.1 hr.2) rfl (by split <;> omega) e
    simp only [e]
    simp only [Res.map_ok, Res.bind_ok]
    rw [finish_ok cf be signed negative (hlt s.2.1 h1) (by omega) h3 (by simpa using h2)]

end Write

/-! ## The parser -/

namespace Parse

theorem charToDigit_ok (cf : Cfg) (c : Byte) (radix : BitVec 32) :
    charToDigit cf c radix = .ok (I256.Parse.charToDigit c radix) := by
  have n0 : (48 : Byte).toNat = 48 := rfl
  have n1 : (65 : Byte).toNat = 65 := rfl
  have n2 : (97 : Byte).toNat = 97 := rfl
  have n3 : (10 : Byte).toNat = 10 := rfl
  have n4 : (57 : Byte).toNat = 57 := rfl
  have n5 : (90 : Byte).toNat = 90 := rfl
  have n6 : (122 : Byte).toNat = 122 := rfl
  have hs : ∀ b : Byte, b.toNat ≤ c.toNat → Div.sub cf c b = .ok (c - b) := by
    intro b h
    rw [sub_u8, I256.Write.subU8, if_neg (by simp; omega)]
  have ha : ∀ a : Byte, a.toNat ≤ 100 → Div.add cf a 10 = .ok (a + 10) := by
    intro a h
    rw [add_u8, I256.Write.addU8, if_neg (by simp [n3]; omega)]
  unfold charToDigit I256.Parse.charToDigit
  by_cases c1 : radix ≤ 10
  · rw [if_pos c1]
    simp only [if_pos c1]
  rw [if_neg c1]
  simp only [if_neg c1]
  by_cases c2 : 48 ≤ c ∧ c ≤ 57
  · have h2 : 48 ≤ c.toNat := c2.1
    rw [if_pos c2, hs 48 h2, Res.mbind_ok]
    simp only [if_pos c2]
  rw [if_neg c2]
  simp only [if_neg c2]
  by_cases c3 : 65 ≤ c ∧ c ≤ 90
  · have h2 : 65 ≤ c.toNat := c3.1
    have h3 : c.toNat ≤ 90 := c3.2
    rw [if_pos c3, hs 65 h2, Res.bind_ok, ha _ (by rw [BitVec.toNat_sub, n1]; omega), Res.mbind_ok]
    simp only [if_pos c3]
  rw [if_neg c3]
  simp only [if_neg c3]
  by_cases c4 : 97 ≤ c ∧ c ≤ 122
  · have h2 : 97 ≤ c.toNat := c4.1
    have h3 : c.toNat ≤ 122 := c4.2
    rw [if_pos c4, hs 97 h2, Res.bind_ok, ha _ (by rw [BitVec.toNat_sub, n2]; omega), Res.mbind_ok]
    simp only [if_pos c4]
  rw [if_neg c4, Res.mbind_ok]
  simp only [if_neg c4]

/-- What the loops need to know about the methods: they agree with the functional ones and keep the
number of limbs. -/
structure Good (be : Bool) (N : Nat) (ops : Ops w) (ops' : I256.Parse.Ops w) : Prop where
  wMul : ∀ x n, x.length = N → ops.wMul (mem be x) n = .ok (mem be (ops'.wMul x n)) ∧
    (ops'.wMul x n).length = N
  wAdd : ∀ x n, x.length = N → ops.wAdd (mem be x) n = .ok (mem be (ops'.wAdd x n)) ∧
    (ops'.wAdd x n).length = N
  wSub : ∀ x n, x.length = N → ops.wSub (mem be x) n = .ok (mem be (ops'.wSub x n)) ∧
    (ops'.wSub x n).length = N
  cMul : ∀ x n, x.length = N → ops.cMul (mem be x) n = .ok ((ops'.cMul x n).map (mem be)) ∧
    ∀ v, ops'.cMul x n = some v → v.length = N
  cAdd : ∀ x n, x.length = N → ops.cAdd (mem be x) n = .ok ((ops'.cAdd x n).map (mem be)) ∧
    ∀ v, ops'.cAdd x n = some v → v.length = N
  cSub : ∀ x n, x.length = N → ops.cSub (mem be x) n = .ok ((ops'.cSub x n).map (mem be)) ∧
    ∀ v, ops'.cSub x n = some v → v.length = N

/-- The end of a loop. -/
def out (s : Nat × Limbs w × Option ErrKind) : Res (Parsed (Limbs w)) :=
  match s.2.2 with
  | some e => .ok (.err e)
  | none => .ok (.ok s.2.1)

theorem at_split (pre cs : List Byte) (c : Byte) : at_ (pre ++ c :: cs) pre.length = .ok c := by
  rw [at_ok (by simp)]
  simp

theorem unchecked_ok (cf : Cfg) (be : Bool) {N : Nat} {mul add : Limbs w → BitVec w → Res (Limbs w)}
    {mul' add' : Limbs w → BitVec w → Limbs w}
    (hm : ∀ x n, x.length = N → mul (mem be x) n = .ok (mem be (mul' x n)) ∧ (mul' x n).length = N)
    (ha : ∀ x n, x.length = N → add (mem be x) n = .ok (mem be (add' x n)) ∧ (add' x n).length = N)
    (digits : List Byte) (radix : BitVec 32) (pre cs : List Byte) (hd : digits = pre ++ cs)
    (x : Limbs w) (hx : x.length = N) {fuel : Nat} (hf : cs.length ≤ fuel) :
    (loop fuel (fun s => s.2.2.isNone && decide (s.1 < digits.length))
      (uncheckedBody cf mul add digits radix) (pre.length, mem be x, none)).bind out =
      .ok (I256.Parse.Parsed.map (mem be) (I256.Parse.uncheckedLoop mul' add' radix cs x)) := by
  induction cs generalizing pre x fuel with
  | nil =>
    rw [loop_done (by simp [hd])]
    rfl
  | cons c cs ih =>
    obtain ⟨fuel, rfl⟩ : ∃ f, fuel = f + 1 := ⟨fuel - 1, by simp at hf; omega⟩
    have hc : (fun s : Nat × Limbs w × Option ErrKind => s.2.2.isNone && decide (s.1 < digits.length))
        (pre.length, mem be x, none) = true := by simp [hd]
    have hb : uncheckedBody cf mul add digits radix (pre.length, mem be x, none) =
        .ok (match I256.Parse.charToDigit c radix with
          | none => (pre.length, mem be x, some .invalidDigit)
          | some d => ((pre ++ [c]).length,
              mem be (add' (mul' x (radix.setWidth w)) (d.setWidth w)), none)) := by
      unfold uncheckedBody
      simp only [hd, at_split, Res.mbind_ok, charToDigit_ok]
      cases I256.Parse.charToDigit c radix with
      | none => rfl
      | some d =>
        obtain ⟨e1, e2⟩ := hm x (radix.setWidth w) hx
        obtain ⟨e3, -⟩ := ha _ (d.setWidth w) e2
        simp only [e1, e3, Res.mbind_ok, List.length_append, List.length_cons, List.length_nil,
          Nat.zero_add]
    rw [loop_step (cond := fun s => s.2.2.isNone && decide (s.1 < digits.length)) hc hb, I256.Parse.uncheckedLoop]
    cases I256.Parse.charToDigit c radix with
    | none =>
      rw [loop_done (by simp)]
      rfl
    | some d =>
      obtain ⟨-, e2⟩ := hm x (radix.setWidth w) hx
      obtain ⟨-, e4⟩ := ha _ (d.setWidth w) e2
      exact ih (pre ++ [c]) (by simp [hd]) _ e4 (by simpa using hf)

theorem checked_ok (cf : Cfg) (be : Bool) {N : Nat} (ov : ErrKind)
    {mul add : Limbs w → BitVec w → Res (Option (Limbs w))}
    {mul' add' : Limbs w → BitVec w → Option (Limbs w)}
    (hm : ∀ x n, x.length = N → mul (mem be x) n = .ok ((mul' x n).map (mem be)) ∧
      ∀ v, mul' x n = some v → v.length = N)
    (ha : ∀ x n, x.length = N → add (mem be x) n = .ok ((add' x n).map (mem be)) ∧
      ∀ v, add' x n = some v → v.length = N)
    (digits : List Byte) (radix : BitVec 32) (pre cs : List Byte) (hd : digits = pre ++ cs)
    (x : Limbs w) (hx : x.length = N) {fuel : Nat} (hf : cs.length ≤ fuel) :
    (loop fuel (fun s => s.2.2.isNone && decide (s.1 < digits.length))
      (checkedBody cf ov mul add digits radix) (pre.length, mem be x, none)).bind out =
      .ok (I256.Parse.Parsed.map (mem be) (I256.Parse.checkedLoop ov mul' add' radix cs x)) := by
  induction cs generalizing pre x fuel with
  | nil =>
    rw [loop_done (by simp [hd])]
    rfl
  | cons c cs ih =>
    obtain ⟨fuel, rfl⟩ : ∃ f, fuel = f + 1 := ⟨fuel - 1, by simp at hf; omega⟩
    have hc : (fun s : Nat × Limbs w × Option ErrKind => s.2.2.isNone && decide (s.1 < digits.length))
        (pre.length, mem be x, none) = true := by simp [hd]
    have hb : checkedBody cf ov mul add digits radix (pre.length, mem be x, none) =
        .ok (match I256.Parse.charToDigit c radix with
          | none => (pre.length, mem be x, some .invalidDigit)
          | some d =>
            match mul' x (radix.setWidth w) with
            | none => (pre.length, mem be x, some ov)
            | some v =>
              match add' v (d.setWidth w) with
              | none => (pre.length, mem be x, some ov)
              | some r => ((pre ++ [c]).length, mem be r, none)) := by
      unfold checkedBody
      simp only [hd, at_split, Res.mbind_ok, charToDigit_ok]
      cases I256.Parse.charToDigit c radix with
      | none => rfl
      | some d =>
        obtain ⟨e1, e2⟩ := hm x (radix.setWidth w) hx
        simp only [e1, Res.mbind_ok]
        cases em : mul' x (radix.setWidth w) with
        | none => rfl
        | some v =>
          obtain ⟨e3, -⟩ := ha v (d.setWidth w) (e2 v em)
          simp only [Option.map_some, e3, Res.mbind_ok]
          cases add' v (d.setWidth w) with
          | none => rfl
          | some r => simp
    rw [loop_step (cond := fun s => s.2.2.isNone && decide (s.1 < digits.length)) hc hb, I256.Parse.checkedLoop]
    cases I256.Parse.charToDigit c radix with
    | none =>
      rw [loop_done (by simp)]
      rfl
    | some d =>
      simp only
      obtain ⟨-, e2⟩ := hm x (radix.setWidth w) hx
      cases em : mul' x (radix.setWidth w) with
      | none =>
        rw [loop_done (by simp)]
        rfl
      | some v =>
        simp only
        obtain ⟨-, e4⟩ := ha v (d.setWidth w) (e2 v em)
        cases ea : add' v (d.setWidth w) with
        | none =>
          rw [loop_done (by simp)]
          rfl
        | some r => exact ih (pre ++ [c]) (by simp [hd]) _ (e4 r ea) (by simpa using hf)

section
variable {be : Bool} {N : Nat} {ops : Ops w} {ops' : I256.Parse.Ops w} (hg : Good be N ops ops')
  (hN : 0 < N) (h128 : 128 ∣ w * N)
include hg hN h128

theorem body_ok (cf : Cfg) (signed : Bool) (pre cs : List Byte) (radix : BitVec 32) (negative : Bool) :
    body cf be ops signed N (pre ++ cs) radix pre.length negative =
      .ok (I256.Parse.Parsed.map (mem be)
        (I256.Parse.body ops' signed N radix negative cs)) := by
  have hzl : (ofU8 N 0 : Limbs w).length = N := extU_length (by omega) _
  have hu : usub (pre ++ cs).length pre.length = .ok cs.length := by
    rw [usub, if_pos (by simp)]
    simp
  rw [body, hu, Res.mbind_ok]
  unfold I256.Parse.body run
  simp only [fromU8_ok be 0 hN h128, Res.mbind_ok]
  have hf : cs.length ≤ (pre ++ cs).length := by simp
  split
  · exact unchecked_ok cf be hg.wMul hg.wSub _ radix pre cs rfl _ hzl hf
  split
  · exact unchecked_ok cf be hg.wMul hg.wAdd _ radix pre cs rfl _ hzl hf
  split
  · exact checked_ok cf be _ hg.cMul hg.cSub _ radix pre cs rfl _ hzl hf
  · exact checked_ok cf be _ hg.cMul hg.cAdd _ radix pre cs rfl _ hzl hf

theorem fromStrRadix_ok (cf : Cfg) (signed : Bool) (src : List Byte) (radix : BitVec 32) :
    fromStrRadix cf be ops signed N src radix =
      (I256.Parse.fromStrRadix ops' signed N src radix).map (I256.Parse.Parsed.map (mem be)) := by
  rw [fromStrRadix, I256.Parse.fromStrRadix.eq_def]
  split
  · rfl
  · cases src with
    | nil => rfl
    | cons c cs =>
      have b1 := fun n => body_ok hg hN h128 cf signed [c] cs radix n
      have b0 := fun n => body_ok hg hN h128 cf signed [] (c :: cs) radix n
      simp only [List.cons_append, List.nil_append, List.length_cons, List.length_nil,
        Nat.zero_add] at b1 b0
      simp only [List.isEmpty_cons, Bool.false_eq_true, if_false, List.getElem?_cons_zero, b0, b1]
      split
      · rfl
      split
      · rfl
      split
      · rfl
      · rfl

end

end Parse

theorem wrappingOf_ok {be : Bool} {v : Limbs w} (h : 128 ∣ w * v.length) :
    wrappingOf (.ok (mem be v)) = .ok (mem be v) := by
  rw [wrappingOf, Res.mbind_ok, fromNeLimbs_ok (by simpa using h)]

theorem checkedOf_ok {be : Bool} {v : Limbs w × Bool} (h : 128 ∣ w * v.1.length) :
    checkedOf (.ok (mem be v.1, v.2)) = .ok ((mkChecked v).map (mem be)) := by
  rw [checkedOf, Res.mbind_ok, fromNeLimbs_ok (by simpa using h), Res.mbind_ok]
  unfold mkChecked
  cases v.2 <;> rfl

theorem mkChecked_length {N : Nat} {r : Limbs w × Bool} (h : r.1.length = N) :
    ∀ v, mkChecked r = some v → v.length = N := by
  intro v hv
  unfold mkChecked at hv
  split at hv
  · cases hv
    exact h
  · cases hv

section
variable (be : Bool) {N : Nat} (hw : 1 < w) (h2 : 2 ≤ N) (h128 : 128 ∣ w * N)
include hw h2 h128

theorem U.parse_good : Parse.Good be N (U.parseOps (w := w) be) I256.U.parseOps := by
  have w0 : 0 < w := by omega
  refine ⟨?_, ?_, ?_, ?_, ?_, ?_⟩ <;> intro x n hx <;>
    have hx0 : x ≠ [] := length_ne (n := 0) (by omega)
  · have hl : (I256.Mul.wrappingLimb x n).length = N := (Mul.limbWrapU x n).1.trans hx
    refine ⟨?_, hl⟩
    simp only [U.parseOps, Mul.wrappingLimb_ok be w0 x n (by omega)]
    exact wrappingOf_ok (by rwa [hl])
  · have hl : (I256.Add.wrappingLimb x n).length = N := (I256.Add.limbWrapU w0 hx0 n).1.trans hx
    refine ⟨?_, hl⟩
    simp only [U.parseOps, Add.wrappingLimb_ok be x n (by omega)]
    exact wrappingOf_ok (by rwa [hl])
  · have hl : (I256.Sub.wrappingLimb x n).length = N := (I256.Sub.limbWrapU w0 hx0 n).1.trans hx
    refine ⟨?_, hl⟩
    simp only [U.parseOps, Sub.wrappingLimb_ok be x n (by omega)]
    exact wrappingOf_ok (by rwa [hl])
  · have hl : (I256.Mul.overflowingLimb x n).1.length = N := (Mul.limbOverU x n).1.1.trans hx
    refine ⟨?_, mkChecked_length hl⟩
    simp only [U.parseOps, Mul.overflowingLimb_ok be w0 x n (by omega)]
    exact checkedOf_ok (by rwa [hl])
  · have hl : (I256.Add.overflowingLimb x n).1.length = N := (I256.Add.limbOverU w0 hx0 n).1.1.trans hx
    refine ⟨?_, mkChecked_length hl⟩
    simp only [U.parseOps, Add.overflowingLimb_ok be x n (by omega)]
    exact checkedOf_ok (by rwa [hl])
  · have hl : (I256.Sub.overflowingLimb x n).1.length = N := (I256.Sub.limbOverU w0 hx0 n).1.1.trans hx
    refine ⟨?_, mkChecked_length hl⟩
    simp only [U.parseOps, Sub.overflowingLimb_ok be x n (by omega)]
    exact checkedOf_ok (by rwa [hl])

theorem I.parse_good : Parse.Good be N (I.parseOps (w := w) be) I256.I.parseOps := by
  have w0 : 0 < w := by omega
  have hu := U.parse_good be hw h2 h128
  refine ⟨hu.wMul, hu.wAdd, hu.wSub, ?_, ?_, ?_⟩ <;> intro x n hx <;>
    have hx0 : x ≠ [] := length_ne (n := 0) (by omega)
  · have hl : (I256.Mul.overflowingULimbS x n).1.length = N := by
      have h := I256.Mul.overflowingFullS_spec w0 hx0 (extU_length (by omega : 1 ≤ x.length) n).symm
      exact h.1.1.trans hx
    refine ⟨?_, mkChecked_length hl⟩
    simp only [I.parseOps, Mul.overflowingULimbS_ok be w0 x n (by omega)]
    exact checkedOf_ok (by rwa [hl])
  · have hl : (I256.Add.sOverflowingULimb x n).1.length = N :=
      (I256.Add.uLimbOverS hw (by omega) n).1.1.trans hx
    refine ⟨?_, mkChecked_length hl⟩
    simp only [I.parseOps, Add.sOverflowingULimb_ok be x n (by omega)]
    exact checkedOf_ok (by rwa [hl])
  · have hl : (I256.Sub.sOverflowingULimb x n).1.length = N :=
      (I256.Sub.uLimbOverS hw (by omega) n).1.1.trans hx
    refine ⟨?_, mkChecked_length hl⟩
    simp only [I.parseOps, Sub.sOverflowingULimb_ok be x n (by omega)]
    exact checkedOf_ok (by rwa [hl])

theorem U.fromStrRadix_ok (cf : Cfg) (src : List Byte) (radix : BitVec 32) :
    U.fromStrRadix cf be N src radix =
      (I256.U.fromStrRadix (w := w) N src radix).map (I256.Parse.Parsed.map (mem be)) :=
  Parse.fromStrRadix_ok (U.parse_good be hw h2 h128) (by omega) h128 cf false src radix

theorem I.fromStrRadix_ok (cf : Cfg) (src : List Byte) (radix : BitVec 32) :
    I.fromStrRadix cf be N src radix =
      (I256.I.fromStrRadix (w := w) N src radix).map (I256.Parse.Parsed.map (mem be)) :=
  Parse.fromStrRadix_ok (I.parse_good be hw h2 h128) (by omega) h128 cf true src radix

end

section
variable (cf : Cfg) (be : Bool) {x : Limbs w} (hw : w = 32 ∨ w = 64) (h4 : 4 ≤ x.length)
  (he : x.length % 2 = 0) (h128 : 128 ∣ w * x.length)
include hw h4 he h128

theorem U.toStrRadix_ok (buffer : List Byte) (radix : BitVec 32) :
    U.toStrRadix cf be (mem be x) buffer radix =
      (I256.U.toStrRadix cf.oc buffer.length x radix).map
        (fun s => (buffer.take (buffer.length - s.length) ++ s, s)) := by
  have w2 : 2 ≤ w := by omega
  refine Write.toStrRadix_ok (by omega) w2 cf be false h4 he h128 (fun y hy => ?_) ?_ buffer
  · exact U.divRemULimb_ok cf be (by omega) (length_ne (n := 0) (by omega)) (by rwa [hy]) _
  · intro hr hr' y q r hy e
    obtain ⟨q', r', e', hl, -⟩ := (I256.U.good (x := x) hw h4 he hr hr' cf.oc).div y hy
      (by have := toNat_lt y; rwa [show bits y = bits x by unfold bits; rw [hy]] at this)
    rw [e'] at e
    cases e
    exact hl

theorem I.toStrRadix_ok (buffer : List Byte) (radix : BitVec 32) :
    I.toStrRadix cf be (mem be x) buffer radix =
      (I256.I.toStrRadix cf.oc buffer.length x radix).map
        (fun s => (buffer.take (buffer.length - s.length) ++ s, s)) := by
  have w2 : 2 ≤ w := by omega
  refine Write.toStrRadix_ok (by omega) w2 cf be true h4 he h128 (fun y hy => ?_) ?_ buffer
  · exact I.divRemULimb_ok cf be (by omega) (by omega) (by omega) (by omega) (by rwa [hy]) _
  · intro hr hr' y q r hy e
    have hrad := setWidth_radix (show 32 ≤ w by omega) radix
    have hn : radix.setWidth w ≠ 0 := by
      intro q
      rw [q] at hrad
      simp at hrad
      omega
    obtain ⟨q', r', e', hq, -⟩ := limbU (x := y) (by omega) (by omega) (by omega) hn cf.oc
    have hz : isZeroScalar (radix.setWidth w) = false := by simpa [isZeroScalar] using hn
    have hc : I256.I.checkedDivRemULimb cf.oc y (radix.setWidth w) = .ok (some (q', r')) := by
      rw [I256.I.checkedDivRemULimb, hz, checkedBy_false, e', Res.map_ok]
    have : I256.I.divRemULimb cf.oc y (radix.setWidth w) = .ok (q', r') := by
      rw [I256.I.divRemULimb, hc, e']; cases cf.oc <;> rfl
    rw [this] at e
    cases e
    exact hq.1.trans hy

end

/-! ## `FromStr` -/

section
variable (cf : Cfg) (be : Bool) {N : Nat} (hw : w = 32 ∨ w = 64) (hN : 4 ≤ N) (h128 : 128 ∣ w * N)
include hw hN h128

theorem U.fromStr_ok (p32 : Bool) (src : List Byte) :
    U.fromStr cf be p32 N src =
      (I256.U.fromStr (w := w) p32 N src).map (I256.Parse.Parsed.map (mem be)) := by
  unfold U.fromStr I256.U.fromStr
  split
  · cases I256.Parse.primFromStr false 64 src with
    | err e => rfl
    | ok v =>
      simp only [Cast.fromU64_ok be hw hN h128, Res.mbind_ok]
      rfl
  · split
    · cases I256.Parse.primFromStr false 128 src with
      | err e => rfl
      | ok v =>
        simp only [Cast.fromU128_ok be hw hN h128, Res.mbind_ok]
        rfl
    · exact U.fromStrRadix_ok be (by omega) (by omega) h128 cf src 10

theorem I.fromStr_ok (p32 : Bool) (src : List Byte) :
    I.fromStr cf be p32 N src =
      (I256.I.fromStr (w := w) p32 N src).map (I256.Parse.Parsed.map (mem be)) := by
  unfold I.fromStr I256.I.fromStr
  split
  · cases I256.Parse.primFromStr true 64 src with
    | err e => rfl
    | ok v =>
      simp only [Cast.fromI64_ok be hw hN h128, Res.mbind_ok]
      rfl
  · split
    · cases I256.Parse.primFromStr true 128 src with
      | err e => rfl
      | ok v =>
        simp only [Cast.fromI128_ok be hw hN h128, Res.mbind_ok]
        rfl
    · exact I.fromStrRadix_ok be (by omega) (by omega) h128 cf src 10

end

/-! ## The formatting traits -/

namespace Fmt

theorem fill_ok (f : I256.Write.Flags) (count : Nat) (out : List Byte) :
    fill f count out = .ok (out ++ match f.width with
      | some width => (List.replicate (width - count) f.fill).flatten
      | none => []) := by
  unfold fill
  cases f.width with
  | none => simp
  | some width =>
    have h : ∀ (n fuel : Nat) (s : Nat × List Byte), width - count - s.1 = n → n ≤ fuel →
        loop fuel (fun s : Nat × List Byte => decide (s.1 < width - count))
          (fun s => .ok (s.1 + 1, s.2 ++ f.fill)) s =
        .ok (s.1 + n, s.2 ++ (List.replicate n f.fill).flatten) := by
      intro n
      induction n with
      | zero =>
        intro fuel s hs _
        rw [loop_done (by simpa using by omega)]
        simp
      | succ n ih =>
        intro fuel s hs hf
        obtain ⟨fuel, rfl⟩ : ∃ k, fuel = k + 1 := ⟨fuel - 1, by omega⟩
        rw [loop_step (body := fun s : Nat × List Byte => .ok (s.1 + 1, s.2 ++ f.fill))
            (t := (s.1 + 1, s.2 ++ f.fill)) (by simpa using by omega) rfl,
          ih fuel _ (by simp only; omega) (by omega)]
        simp [List.replicate_succ]
        omega
    simp only [h (width - count) (width - count) (0, out) (by simp) le_rfl, Res.mbind_ok]

theorem radixEnd_ok (f : I256.Write.Flags) (pre : List Byte) {bytes : List Byte}
    (h : ∀ b ∈ bytes, b < 128) :
    radixEnd f pre bytes = .ok (some (I256.Write.pad f pre bytes)) := by
  have hu : fromUtf8 bytes = some bytes := by
    unfold fromUtf8
    rw [if_pos (by simpa using h)]
  unfold radixEnd
  simp only [hu, fill_ok, Res.mbind_ok]
  rfl

theorem mapSlice_ok (op : Byte → Byte) (buffer s : List Byte) (h : s.length ≤ buffer.length) :
    mapSlice op (buffer.take (buffer.length - s.length) ++ s) s.length = .ok (s.map op) := by
  have hl : (buffer.take (buffer.length - s.length) ++ s).length = buffer.length := by
    simp
    omega
  unfold mapSlice
  rw [hl, usub_ok h, Res.mbind_ok, List.length_map, hl, if_pos (by omega), ← List.map_drop,
    Write.drop_take (by omega)]

theorem expEnd_ok (e : Byte) {bytes : List Byte} (h : ∀ b ∈ bytes, b < 128) :
    expEnd e bytes = (I256.Write.exp e bytes).map some := by
  cases bytes with
  | nil => rfl
  | cons d ds =>
    have hu : fromUtf8 ds = some ds := by
      unfold fromUtf8
      rw [if_pos (by simpa using fun b hb => h b (List.mem_cons_of_mem _ hb))]
    unfold expEnd
    rw [if_neg (by simp)]
    simp only [List.drop_succ_cons, List.drop_zero, hu]
    rfl

theorem digit_ascii {d : Nat} (h : d < 36) : digitByte d < 128 := by
  have : (digitByte d).toNat < 128 := by
    unfold digitByte
    split <;> rw [BitVec.toNat_ofNat] <;> omega
  exact this

theorem numeral_ascii {r : Nat} (hr : 2 ≤ r) (hr' : r ≤ 36) (n : Nat) :
    ∀ b ∈ numeral r n, b < 128 := by
  intro b hb
  obtain ⟨d, hd, rfl⟩ := numeral_mem hr hb
  exact digit_ascii (by omega)

theorem lower_ascii {b : Byte} (h : b < 128) : I256.Write.toLower b < 128 := by
  have h : b.toNat < 128 := h
  have : (I256.Write.toLower b).toNat < 128 := by
    unfold I256.Write.toLower
    split
    · rename_i hc
      have : b.toNat ≤ 90 := hc.2
      rw [BitVec.toNat_add, show (32 : Byte).toNat = 32 from rfl]
      omega
    · exact h
  exact this

theorem upper_ascii {b : Byte} (h : b < 128) : I256.Write.toUpper b < 128 := by
  have h : b.toNat < 128 := h
  have : (I256.Write.toUpper b).toNat < 128 := by
    unfold I256.Write.toUpper
    split
    · rename_i hc
      have : 97 ≤ b.toNat := hc.1
      rw [BitVec.toNat_sub, show (32 : Byte).toNat = 32 from rfl]
      omega
    · exact h
  exact this

end Fmt

section
variable (cf : Cfg) (be : Bool) (f : I256.Write.Flags) {x : Limbs w} (hw : w = 32 ∨ w = 64)
  (h4 : 4 ≤ x.length) (he : x.length % 2 = 0) (h128 : 128 ∣ w * x.length)
include hw h4 he h128

/-- The numeral fits the buffer. -/
theorem U.toStrRadix_run {radix : BitVec 32} (hr : 2 ≤ radix.toNat) (hr' : radix.toNat ≤ 36) :
    U.toStrRadix cf be (mem be x) (List.replicate (bits (mem be x)) 0) radix =
      .ok ((List.replicate (bits x) (0 : Byte)).take
          (bits x - (numeral radix.toNat (toNat x)).length) ++ numeral radix.toNat (toNat x),
        numeral radix.toNat (toNat x)) := by
  have hb : bits (mem be x) = bits x := by simp [bits]
  rw [hb, U.toStrRadix_ok cf be hw h4 he h128, List.length_replicate,
    I256.U.toStrRadix_spec hw h4 he hr hr' cf.oc _ le_rfl, Res.map_ok]

theorem U.fmtBinary_ok : U.fmtBinary cf be f (mem be x) = (I256.U.fmtBinary cf.oc f x).map some := by
  rw [U.fmtBinary, U.toStrRadix_run cf be hw h4 he h128 (by decide) (by decide), Res.mbind_ok,
    Fmt.radixEnd_ok _ _ (Fmt.numeral_ascii (by decide) (by decide) _), I256.U.fmtBinary_eq hw h4 he]
  rfl

theorem U.fmtOctal_ok : U.fmtOctal cf be f (mem be x) = (I256.U.fmtOctal cf.oc f x).map some := by
  rw [U.fmtOctal, U.toStrRadix_run cf be hw h4 he h128 (by decide) (by decide), Res.mbind_ok,
    Fmt.radixEnd_ok _ _ (Fmt.numeral_ascii (by decide) (by decide) _), I256.U.fmtOctal_eq hw h4 he]
  rfl

theorem U.fmtDisplay_ok : U.fmtDisplay cf be f (mem be x) = (I256.U.fmtDisplay cf.oc f x).map some := by
  rw [U.fmtDisplay, U.toStrRadix_run cf be hw h4 he h128 (by decide) (by decide), Res.mbind_ok,
    I256.U.fmtDisplay_eq hw h4 he, Res.map_ok, Fmt.fromUtf8,
    if_pos (by simpa using Fmt.numeral_ascii (by decide) (by decide) _)]
  rfl

theorem numeral_fits {radix : BitVec 32} (hr : 2 ≤ radix.toNat) :
    (numeral radix.toNat (toNat x)).length ≤ (List.replicate (bits x) (0 : Byte)).length := by
  rw [List.length_replicate]
  have hb : 1 ≤ bits x := by
    unfold bits
    calc 1 ≤ 1 * 1 := by omega
      _ ≤ w * x.length := Nat.mul_le_mul (by omega) (by omega)
  unfold numeral
  split
  · simpa using hb
  · rename_i h0
    rw [List.length_reverse, List.length_map, Nat.digits_length_le_iff (by omega)]
    exact lt_of_lt_of_le (toNat_lt x) (Nat.pow_le_pow_left hr _)

theorem U.fmtLowerHex_ok :
    U.fmtLowerHex cf be f (mem be x) = (I256.U.fmtLowerHex cf.oc f x).map some := by
  have hm := Fmt.mapSlice_ok I256.Write.toLower (List.replicate (bits x) 0) _
    (numeral_fits (x := x) hw h4 he h128 (radix := 16) (by decide))
  rw [List.length_replicate] at hm
  rw [U.fmtLowerHex, U.toStrRadix_run cf be hw h4 he h128 (by decide) (by decide), Res.mbind_ok]
  simp only [hm, Res.mbind_ok]
  rw [Fmt.radixEnd_ok, I256.U.fmtLowerHex,
    I256.U.toStrRadix_spec hw h4 he (by decide) (by decide) cf.oc _ le_rfl]
  · rfl
  · intro b hb
    obtain ⟨c, hc, rfl⟩ := List.mem_map.1 hb
    exact Fmt.lower_ascii (Fmt.numeral_ascii (by decide) (by decide) _ c hc)

theorem U.fmtUpperHex_ok :
    U.fmtUpperHex cf be f (mem be x) = (I256.U.fmtUpperHex cf.oc f x).map some := by
  have hm := Fmt.mapSlice_ok I256.Write.toUpper (List.replicate (bits x) 0) _
    (numeral_fits (x := x) hw h4 he h128 (radix := 16) (by decide))
  rw [List.length_replicate] at hm
  rw [U.fmtUpperHex, U.toStrRadix_run cf be hw h4 he h128 (by decide) (by decide), Res.mbind_ok]
  simp only [hm, Res.mbind_ok]
  rw [Fmt.radixEnd_ok, I256.U.fmtUpperHex,
    I256.U.toStrRadix_spec hw h4 he (by decide) (by decide) cf.oc _ le_rfl]
  · rfl
  · intro b hb
    obtain ⟨c, hc, rfl⟩ := List.mem_map.1 hb
    exact Fmt.upper_ascii (Fmt.numeral_ascii (by decide) (by decide) _ c hc)

theorem U.fmtLowerExp_ok :
    U.fmtLowerExp cf be f (mem be x) = (I256.U.fmtLowerExp cf.oc f x).map some := by
  rw [U.fmtLowerExp, U.toStrRadix_run cf be hw h4 he h128 (by decide) (by decide), Res.mbind_ok,
    Fmt.expEnd_ok _ (Fmt.numeral_ascii (by decide) (by decide) _), I256.U.fmtLowerExp_eq hw h4 he]
  rfl

theorem U.fmtUpperExp_ok :
    U.fmtUpperExp cf be f (mem be x) = (I256.U.fmtUpperExp cf.oc f x).map some := by
  rw [U.fmtUpperExp, U.toStrRadix_run cf be hw h4 he h128 (by decide) (by decide), Res.mbind_ok,
    Fmt.expEnd_ok _ (Fmt.numeral_ascii (by decide) (by decide) _), I256.U.fmtUpperExp_eq hw h4 he]
  rfl

theorem I.fmtSigned_ok {inner : Limbs w → Res (Option (List Byte))} {inner' : Res (List Byte)}
    (h : inner (mem be (I256.I.unsignedAbs x)) = inner'.map some) :
    I.fmtSigned cf be f (mem be x) inner = (inner'.map (I256.I.fmtSign f x ++ ·)).map some := by
  rw [I.fmtSigned, Bits.isNegative_ok be (length_ne (n := 0) (by omega)), Res.mbind_ok,
    I.unsignedAbs_ok cf be (by omega) (by omega) (by omega) he h128, Res.mbind_ok, h]
  cases inner' <;> rfl

theorem I.fmtDisplay_ok : I.fmtDisplay cf be f (mem be x) = (I256.I.fmtDisplay cf.oc f x).map some := by
  obtain ⟨l, -⟩ := I256.I.abs_val hw h4 he
  exact I.fmtSigned_ok cf be f hw h4 he h128
    (U.fmtDisplay_ok cf be f hw (by omega) (by omega) (by rwa [l]))

theorem I.fmtLowerExp_ok :
    I.fmtLowerExp cf be f (mem be x) = (I256.I.fmtLowerExp cf.oc f x).map some := by
  obtain ⟨l, -⟩ := I256.I.abs_val hw h4 he
  exact I.fmtSigned_ok cf be f hw h4 he h128
    (U.fmtLowerExp_ok cf be f hw (by omega) (by omega) (by rwa [l]))

theorem I.fmtUpperExp_ok :
    I.fmtUpperExp cf be f (mem be x) = (I256.I.fmtUpperExp cf.oc f x).map some := by
  obtain ⟨l, -⟩ := I256.I.abs_val hw h4 he
  exact I.fmtSigned_ok cf be f hw h4 he h128
    (U.fmtUpperExp_ok cf be f hw (by omega) (by omega) (by rwa [l]))

omit hw h4 he in
theorem reinterpret_ok : Cast.reinterpret (mem be x) = .ok (mem be x) :=
  fromNeLimbs_ok (by simpa using h128)

theorem I.fmtRadix_ok : I.fmtBinary cf be f (mem be x) = (I256.I.fmtBinary cf.oc f x).map some ∧
    I.fmtOctal cf be f (mem be x) = (I256.I.fmtOctal cf.oc f x).map some ∧
    I.fmtUpperHex cf be f (mem be x) = (I256.I.fmtUpperHex cf.oc f x).map some ∧
    I.fmtLowerHex cf be f (mem be x) = (I256.I.fmtLowerHex cf.oc f x).map some := by
  unfold I.fmtBinary I.fmtOctal I.fmtUpperHex I.fmtLowerHex
  simp only [reinterpret_ok be h128, Res.mbind_ok]
  exact ⟨U.fmtBinary_ok cf be f hw h4 he h128, U.fmtOctal_ok cf be f hw h4 he h128,
    U.fmtUpperHex_ok cf be f hw h4 he h128, U.fmtLowerHex_ok cf be f hw h4 he h128⟩

end

end Raw

theorem Raw.logicalP_map (be : Bool) (p : Parsed (Limbs w)) :
    logicalP be (Parse.Parsed.map (Raw.mem be) p) = p := by
  cases p with
  | ok v => exact congrArg _ (Raw.logical_mem be v)
  | err e => rfl

end I256
