import Verif.Lemmas.WorkText
import Verif.Lemmas.DivClean
import Verif.Props.Samples

/-!
# C112: the work of writing, reading and the logarithm
-/

namespace I256

variable {w : Nat}

open Sample

/-- Writing an unsigned number: no products, and exactly `writeDivs` divisions. -/
theorem C112_write (hw : w = 32 ∨ w = 64) (x : Limbs w) (h4 : 4 ≤ x.length) (he : x.length % 2 = 0) (radix : BitVec 32)
    (hr : 2 ≤ radix.toNat) (hr' : radix.toNat ≤ 36) (oc : Bool) (len : Nat) (hlen : bits x ≤ len) :
    (Count.toStrRadixU oc len x radix).map (·.1) = U.toStrRadix oc len x radix ∧
      Count.toStrRadixU oc len x radix =
        .ok (numeral radix.toNat (toNat x), ⟨0, writeDivs w x.length radix.toNat (toNat x)⟩) :=
  ⟨Count.toStrRadixU_fst .., Count.toStrRadixU_work hw h4 he hr hr' oc len hlen⟩

example := C112_write (by decide) ones (by decide) (by decide) 10 (by decide) (by decide) true 256 (by decide)
example : (Count.toStrRadixU true 256 ones 10).map (·.2) = .ok ⟨0, 194⟩ ∧
    (Count.toStrRadixU true 256 ([1234, 0, 0, 0] : Limbs 64) 10).map (·.2) = .ok ⟨0, 3⟩ := by decide +kernel

/-- In terms of the length of the text: at least one division for each digit but the first, at most one for each of
these digits and each limb of the array. -/
theorem C112_write_bounds {N r n : Nat} (hN : 1 ≤ N) (hr : 2 ≤ r) :
    (numeral r n).length - 1 ≤ writeDivs w N r n ∧ writeDivs w N r n ≤ ((numeral r n).length - 1) * N := by
  induction n using Nat.strongRecOn with
  | _ n ih =>
    by_cases h : n < r
    · rw [Count.writeDivs_lt h, numeral_of_lt h]; simp
    · have h1 := ih (n / r) (Nat.div_lt_self (by omega) (by omega))
      have h2 : 1 ≤ (numeral r (n / r)).length := List.length_pos_iff.2 (numeral_ne_nil _ _)
      obtain ⟨l, hl⟩ : ∃ l, (numeral r (n / r)).length = l + 1 := ⟨_, (Nat.sub_add_cancel h2).symm⟩
      rw [Count.writeDivs_ge hr (by omega), numeral_of_ge hr (by omega), List.length_append, List.length_singleton, hl]
      rw [hl] at h1
      simp only [Nat.add_sub_cancel] at h1 ⊢
      rw [Nat.add_mul]
      split <;> omega

example := C112_write_bounds (w := 64) (N := 4) (r := 10) (n := 2 ^ 256 - 1) (by decide) (by decide)
example : (numeral 10 (2 ^ 256 - 1)).length = 78 := by decide +kernel

/-- Numbers of at most two limbs: exactly one division for each digit but the first. -/
theorem C112_write_small {N r n : Nat} (hr : 2 ≤ r) (hn : n < 2 ^ (w * 2)) :
    writeDivs w N r n = (numeral r n).length - 1 := by
  induction n using Nat.strongRecOn with
  | _ n ih =>
    by_cases h : n < r
    · rw [Count.writeDivs_lt h, numeral_of_lt h]; simp
    · have h1 := ih (n / r) (Nat.div_lt_self (by omega) (by omega)) ((Nat.div_le_self _ _).trans_lt hn)
      have h2 : 1 ≤ (numeral r (n / r)).length := List.length_pos_iff.2 (numeral_ne_nil _ _)
      rw [Count.writeDivs_ge hr (by omega), numeral_of_ge hr (by omega), List.length_append, List.length_singleton,
        if_pos hn, h1]
      omega

example := C112_write_small (w := 64) (N := 4) (r := 10) (n := 1234) (by decide) (by decide)

/-- `Display` of the signed type writes the magnitude. -/
theorem C112_display (hw : w = 32 ∨ w = 64) (x : Limbs w) (h4 : 4 ≤ x.length) (he : x.length % 2 = 0) (oc : Bool)
    (f : Write.Flags) :
    (Count.fmtDisplayS oc f x).map (·.1) = I.fmtDisplay oc f x ∧
      (Count.fmtDisplayS oc f x).map (·.2) = .ok ⟨0, writeDivs w x.length 10 (toInt x).natAbs⟩ := by
  obtain ⟨l, v⟩ := unsignedAbs_natAbs (by omega) (x := x) (by omega) he
  have h1 := Count.toStrRadixU_fst oc (bits (I.unsignedAbs x)) (I.unsignedAbs x) 10
  have h2 := Count.toStrRadixU_work hw (x := I.unsignedAbs x) (radix := 10) (by omega) (by omega) (by decide) (by decide)
    oc (bits (I.unsignedAbs x)) (Nat.le_refl _)
  unfold Count.fmtDisplayS I.fmtDisplay U.fmtDisplay
  rw [← h1, h2]
  refine ⟨rfl, ?_⟩
  simp only [Res.map, v, l]
  rfl

example := C112_display (by decide) top (by decide) (by decide) true {}
example : (Count.fmtDisplayS true {} ([0xfffffffffffffffb, 0xffffffffffffffff, 0xffffffffffffffff,
    0xffffffffffffffff] : Limbs 64)).map (·.2) = .ok ⟨0, 0⟩ := by decide +kernel

/-- Reading an unsigned number: `N` products for each digit that is read, and nothing is read after the digit that
makes the number too large or after the first character that is not a digit. -/
theorem C112_read (hw : w = 32 ∨ w = 64) {N : Nat} (hN : 1 ≤ N) (src : List Byte) (radix : BitVec 32)
    (hr : 2 ≤ radix.toNat) (hr' : radix.toNat ≤ 36) :
    (Count.fromStrRadixU (w := w) N src radix).map (·.1) = U.fromStrRadix N src radix ∧
      (Count.fromStrRadixU (w := w) N src radix).map (·.2) =
        .ok (digitsRead radix.toNat (2 ^ (w * N)) 0 (unsignedPart false src) * N) := by
  refine ⟨Count.fromStrRadixU_fst .., ?_⟩
  have hb := Count.body_workU hw hN hr hr'
  unfold Count.fromStrRadixU Count.fromStrRadix
  have h0 : (decide (radix < 2) || decide (36 < radix)) = false := by
    have h1 : radix < 2 ↔ radix.toNat < 2 := Iff.rfl
    have h2 : 36 < radix ↔ 36 < radix.toNat := Iff.rfl
    simp only [h1, h2, Bool.or_eq_false_iff, decide_eq_false_iff_not]
    omega
  rw [h0, if_neg Bool.false_ne_true]
  cases src with
  | nil => simp [Res.map, unsignedPart, digitsRead]
  | cons c cs =>
    simp only [unsignedPart]
    by_cases h1 : c = 43
    · rw [if_pos h1, if_pos (.inl h1)]
      simp only [Res.map, hb]
    · rw [if_neg h1, Bool.and_false, if_neg Bool.false_ne_true, if_neg (c := c = 43 ∨ _) (fun h => h.elim h1 fun h => Bool.false_ne_true h.2)]
      by_cases h2 : c = 45
      · rw [if_pos h2]
        subst h2
        simp [Res.map, digitsRead, isDigit, digitOf]
      · rw [if_neg h2]
        simp only [Res.map, hb]

example := C112_read (w := 64) (by decide) (N := 4) (by decide) (ascii "+120") 10 (by decide) (by decide)
example : (Count.fromStrRadixU (w := 64) 4 (ascii "+120") 10).map (·.2) = .ok 12 ∧
    (Count.fromStrRadixU (w := 64) 4 (ascii "12x0") 10).map (·.2) = .ok 8 ∧
    (Count.fromStrRadixU (w := 64) 4 (ascii "-120") 10).map (·.2) = .ok 0 := by decide +kernel

/-- No more than the digits of the text are read, however large the number is; all of them are read if the number
fits. -/
theorem C112_read_bounds {r M : Nat} (hr : 1 ≤ r) (hM : 0 < M) (ds : List Byte) :
    digitsRead r M 0 ds ≤ (digitPart r ds).length ∧
      (numVal r (digitPart r ds) < M → digitsRead r M 0 ds = (digitPart r ds).length) ∧
      (M ≤ numVal r (digitPart r ds) → M ≤ numVal r (ds.take (digitsRead r M 0 ds)) ∧
        ∀ k < digitsRead r M 0 ds, numVal r (ds.take k) < M) := by
  have key : ∀ (ds : List Byte) (a : Nat), a < M → digitsRead r M a ds ≤ (digitPart r ds).length ∧
      (M ≤ horner r a (digitPart r ds) → M ≤ horner r a (ds.take (digitsRead r M a ds)) ∧
        ∀ k < digitsRead r M a ds, horner r a (ds.take k) < M) := by
    intro ds
    induction ds with
    | nil => exact fun a ha => ⟨Nat.le_refl 0, fun h => absurd (show M ≤ a from h) (by omega)⟩
    | cons c cs ih =>
      intro a ha
      unfold digitsRead
      by_cases hd : isDigit r c = true
      · rw [if_pos hd, digitPart_cons cs hd]
        change (if a * r + dig c < M then digitsRead r M (a * r + dig c) cs + 1 else 1) ≤ _ ∧
          (_ → _ ≤ horner r a ((c :: cs).take (if a * r + dig c < M then digitsRead r M (a * r + dig c) cs + 1 else 1)) ∧
            ∀ k < (if a * r + dig c < M then digitsRead r M (a * r + dig c) cs + 1 else 1), _)
        by_cases hp : a * r + dig c < M
        · obtain ⟨i1, i2⟩ := ih _ hp
          simp only [if_pos hp]
          refine ⟨by rw [List.length_cons]; omega, fun h => ?_⟩
          obtain ⟨j1, j2⟩ := i2 h
          refine ⟨j1, fun k hk => ?_⟩
          cases k with
          | zero => exact ha
          | succ k => exact j2 k (by omega)
        · simp only [if_neg hp]
          refine ⟨by rw [List.length_cons]; omega, fun _ => ⟨?_, fun k hk => ?_⟩⟩
          · change M ≤ a * r + dig c
            omega
          · obtain rfl : k = 0 := by omega
            exact ha
      · rw [if_neg hd, digitPart_cons_neg cs hd]
        exact ⟨Nat.le_refl 0, fun h => absurd (show M ≤ a from h) (by omega)⟩
  obtain ⟨k1, k2⟩ := key ds 0 hM
  simp only [numVal_eq_horner]
  exact ⟨k1, fun h => Count.digitsRead_all hr 0 ds h, k2⟩

example := C112_read_bounds (r := 10) (M := 2 ^ 256) (by decide) (by decide) (ascii "120")
example : digitsRead 10 100 0 (ascii "1234567") = 3 ∧ digitsRead 10 100 0 (ascii "12x4567") = 2 := by decide +kernel

/-- Reading a signed number: `N` products for each digit if the text is short, as many as for two numbers of full size
if it is longer. -/
theorem C112_read_signed (hw : w = 32 ∨ w = 64) {N : Nat} (hN : 2 ≤ N) (src : List Byte) (radix : BitVec 32)
    (hr : 2 ≤ radix.toNat) (hr' : radix.toNat ≤ 36) :
    let ds := unsignedPart true src
    let c := if ds.length ≤ (if radix.toNat ≤ 16 then 2 * (N * w / 8) - 1 else N * w / 8) then N else N * (N + 1) / 2
    (Count.fromStrRadixS (w := w) N src radix).map (·.1) = I.fromStrRadix N src radix ∧
      ∃ p k, Count.fromStrRadixS (w := w) N src radix = .ok (p, k) ∧ k ≤ (digitPart radix.toNat ds).length * c ∧
        (p ≠ .err .posOverflow → p ≠ .err .negOverflow → k = (digitPart radix.toNat ds).length * c) := by
  intro ds c
  refine ⟨Count.fromStrRadixS_fst .., ?_⟩
  have hb : ∀ (neg : Bool) (ds : List Byte), _ := fun neg ds => Count.body_workS hw (by omega) hr hr' hN neg ds
  have hc : ∀ ds : List Byte, (if ds.length ≤ Parse.overflowDigits (N * w / 8) radix true then N else N * (N + 1) / 2) =
      if ds.length ≤ (if radix.toNat ≤ 16 then 2 * (N * w / 8) - 1 else N * w / 8) then N else N * (N + 1) / 2 := by
    intro ds
    have : Parse.overflowDigits (N * w / 8) radix true =
        if radix.toNat ≤ 16 then 2 * (N * w / 8) - 1 else N * w / 8 := by
      unfold Parse.overflowDigits
      have h : radix ≤ 16 ↔ radix.toNat ≤ 16 := Iff.rfl
      simp only [h, Bool.toNat_true]
      split <;> omega
    rw [this]
  unfold Count.fromStrRadixS Count.fromStrRadix
  have h0 : (decide (radix < 2) || decide (36 < radix)) = false := by
    have h1 : radix < 2 ↔ radix.toNat < 2 := Iff.rfl
    have h2 : 36 < radix ↔ 36 < radix.toNat := Iff.rfl
    simp only [h1, h2, Bool.or_eq_false_iff, decide_eq_false_iff_not]
    omega
  rw [h0, if_neg Bool.false_ne_true]
  cases src with
  | nil => exact ⟨_, _, rfl, Nat.zero_le _, fun _ _ => by simp [ds, unsignedPart, digitPart]⟩
  | cons ch cs =>
    by_cases h1 : ch = 43
    · simp only [if_pos h1]
      have e : ds = cs := if_pos (.inl h1)
      have := hb false cs
      rw [hc] at this
      refine ⟨_, _, rfl, ?_⟩
      simp only [c, e]
      exact this
    · simp only [if_neg h1]
      by_cases h2 : ch = 45
      · have e : ds = cs := if_pos (.inr ⟨h2, rfl⟩)
        have := hb true cs
        rw [hc] at this
        subst h2
        refine ⟨_, _, if_pos rfl, ?_⟩
        simp only [c, e]
        exact this
      · have e : ds = ch :: cs := if_neg fun h => h.elim h1 fun h => h2 h.1
        have := hb false (ch :: cs)
        rw [hc] at this
        refine ⟨_, _, (if_neg fun h => h2 (of_decide_eq_true (Bool.and_eq_true_iff.1 h).1)).trans (if_neg h2), ?_⟩
        simp only [c, e]
        exact this

example := C112_read_signed (w := 64) (by decide) (N := 4) (by decide) (ascii "-120") 10 (by decide) (by decide)
example : (Count.fromStrRadixS (w := 64) 4 (ascii "-120") 10).map (·.2) = .ok 12 ∧
    (Count.fromStrRadixS (w := 64) 4 (List.replicate 64 48 : List Byte) 10).map (·.2) = .ok 640 := by decide +kernel

section
variable {x y : Limbs w} (hw : 0 < w) (hl : x.length = y.length) (he : x.length % 2 = 0) (h4 : 4 ≤ x.length)
  (hbits : bits x < 2 ^ 32)
include hw hl he h4 hbits

/-- The loop of `checked_ilog` starts at the estimate and takes one round, with one division `x / b`, for each further
unit of the result and one to stop: with fewer rounds it has not ended. -/
theorem C112_ilog (oc : Bool) (hb : 2 ≤ toNat y) (hle : toNat y ≤ toNat x)
    (hp : ¬ DivPanics w x.length (toNat x) (toNat y)) (rounds : Nat) :
    U.checkedIlog oc rounds x y =
      if Nat.log (toNat y) (toNat x) - logEstimate (toNat y) (toNat x) + 1 ≤ rounds then
        some (.ok (some (Nat.log (toNat y) (toNat x)))) else none := by
  rw [checkedIlogU_rounds hw hl he h4 oc hb hle hp hbits]
  have h : logEstimate (toNat y) (toNat x) ≤ Nat.log (toNat y) (toNat x) :=
    (Nat.le_log_iff_pow_le (by omega) (by omega)).2 (ilog_start_le (by omega) (by omega))
  congr 1
  simp only [eq_iff_iff]
  omega

/-- Where the division panics (B1) the first round does. -/
theorem C112_ilog_panics (oc : Bool) (hb : 2 ≤ toNat y) (hle : toNat y ≤ toNat x)
    (hp : DivPanics w x.length (toNat x) (toNat y)) (rounds : Nat) :
    U.checkedIlog oc (rounds + 1) x y = some .panic := by
  rw [U.checkedIlog, ilog_guard hw hl he h4]
  simp only [decide_eq_true_eq]
  rw [if_neg (by omega)]
  obtain ⟨r, h1, -⟩ := ilogStart_spec hw hl he h4 oc (show toNat x ≠ 0 by omega) (show toNat y ≠ 0 by omega) hbits
  rw [h1]
  simp only
  rw [U.ilogLoop, (U.div_spec hw hl he h4 (by omega) oc).1 hp]
  rfl

end

example := C112_ilog (x := ones) (y := ([10, 0, 0, 0] : Limbs 64)) (by decide) (by decide) (by decide) (by decide)
  (by decide) true (by decide) (by decide)
  (by
    have h := clean_of_one_limb (w := 64) (k := 0) (x := toNat ones) (by decide)
      (show toNat ([10, 0, 0, 0] : Limbs 64) < 2 ^ 64 by decide)
    rw [pow_zero, mul_one] at h
    exact h.noPanic) 15
example : U.checkedIlog true 15 ones ([10, 0, 0, 0] : Limbs 64) = some (.ok (some 77)) ∧
    U.checkedIlog true 14 ones ([10, 0, 0, 0] : Limbs 64) = none := by decide +kernel

example := C112_ilog_panics (x := ([0, 0, 0, 0x6000000000000000] : Limbs 64)) (y := ([1, 0, 0, 0x2000000000000000] : Limbs 64))
  (by decide) (by decide) (by decide) (by decide) (by decide) true (by decide) (by decide) (by decide +kernel) 0

/-- The estimate is at most the logarithm, and the number of rounds is bounded by the binary logarithms. -/
theorem C112_ilog_bounds {b x : Nat} (hb : 2 ≤ b) (hx : x ≠ 0) :
    logEstimate b x ≤ Nat.log b x ∧
      Nat.log b x - logEstimate b x + 1 ≤ x.log2 / b.log2 - x.log2 / (b.log2 + 1) + 1 := by
  have h1 := (Nat.le_log_iff_pow_le (by omega) hx).2 (ilog_start_le (b := b) (a := x) (by omega) hx)
  have h2 := log_le_div hb hx
  unfold logEstimate
  omega

example := C112_ilog_bounds (b := 10) (x := 2 ^ 256 - 1) (by decide) (by decide)

/-- The bound is attained in base two: for a number of `n` bits the loop makes `n / 2 + 1` divisions, although the result
is `n - 1`, the binary logarithm that the start value has been computed from. -/
theorem C112_ilog_two (x : Nat) :
    Nat.log 2 x = x.log2 ∧ Nat.log 2 x - logEstimate 2 x + 1 = (x.log2 + 1) / 2 + 1 := by
  have h1 : Nat.log 2 x = x.log2 := (Nat.log2_eq_log_two).symm
  have h2 : Nat.log2 2 = 1 := by decide
  unfold logEstimate
  rw [h1, h2]
  omega

example : U.checkedIlog true 129 ones ([2, 0, 0, 0] : Limbs 64) = some (.ok (some 255)) ∧
    U.checkedIlog true 128 ones ([2, 0, 0, 0] : Limbs 64) = none := by decide +kernel

end I256
