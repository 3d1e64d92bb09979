import Verif.SpecSci
import Verif.Lemmas.Align
import Verif.Lemmas.TextBits

/-!
# Lemmas on the exponent form with flags
-/

namespace I256

theorem digit_range {n : Nat} {c : Byte} (h : c ∈ numeral 10 n) : 48 ≤ c.toNat ∧ c.toNat ≤ 57 := by
  obtain ⟨d, hd, rfl⟩ := numeral_mem (by decide) h
  have : (digitByte d).toNat = 48 + d := by
    rw [digitByte, BitVec.toNat_ofNat, if_pos hd]
    omega
  omega

theorem roundEven_bounds (n k : Nat) : n / 10 ^ k ≤ roundEven n k ∧ roundEven n k ≤ n / 10 ^ k + 1 := by
  unfold roundEven
  dsimp only
  split <;> omega

/-- The digits that a precision leaves. -/
theorem rounded_length {n k p : Nat} (hk : (numeral 10 n).length = k + 1) (hp : p < k)
    (hm : roundEven n (k - p) ≠ 10 ^ (p + 1)) : (numeral 10 (roundEven n (k - p))).length = p + 1 := by
  rw [numeral_length 10 _ (by decide)] at hk ⊢
  have hn : n ≠ 0 := by
    rintro rfl
    simp at hk
    omega
  have hl : Nat.log 10 n = k := by omega
  have h1 : 10 ^ k ≤ n := hl ▸ Nat.pow_log_le_self 10 hn
  have h2 : n < 10 ^ (k + 1) := hl ▸ Nat.lt_pow_succ_log_self (by decide) n
  have hb := roundEven_bounds n (k - p)
  have h3 : 10 ^ p ≤ n / 10 ^ (k - p) := by
    rw [Nat.le_div_iff_mul_le (by positivity), ← Nat.pow_add]
    rwa [show p + (k - p) = k by omega]
  have h4 : n / 10 ^ (k - p) < 10 ^ (p + 1) := by
    rw [Nat.div_lt_iff_lt_mul (by positivity), ← Nat.pow_add]
    rwa [show p + 1 + (k - p) = k + 1 by omega]
  have h5 : 1 ≤ 10 ^ p := Nat.one_le_pow _ _ (by decide)
  rw [(Nat.log_eq_iff (m := p) (b := 10) (n := roundEven n (k - p))
    (Or.inr ⟨by decide, by omega⟩)).2 ⟨by omega, by omega⟩]

/-- The form of the text with a precision. -/
theorem sciPrec_shape (e : Byte) (n p : Nat) : ∃ c t k, sciPrec e n p = c :: t ++ e :: numeral 10 k ∧
    (∀ b ∈ c :: t, b = 46#8 ∨ (48 ≤ b.toNat ∧ b.toNat ≤ 57)) ∧ (48 ≤ c.toNat ∧ c.toNat ≤ 57) ∧
    t.length = (if p = 0 then 0 else p + 1) := by
  have hne := numeral_ne_nil 10 n
  have hk : (numeral 10 n).length = (numeral 10 n).length - 1 + 1 := by
    have := List.length_pos_iff.2 hne
    omega
  unfold sciPrec
  dsimp only
  generalize hK : (numeral 10 n).length - 1 = k at *
  obtain ⟨r, hr, hl, hd⟩ : ∃ r : List Byte × Nat,
      (if k ≤ p then (numeral 10 n ++ List.replicate (p - k) 48#8, k)
        else if roundEven n (k - p) = 10 ^ (p + 1) then (numeral 10 (10 ^ p), k + 1)
        else (numeral 10 (roundEven n (k - p)), k)) = r ∧ r.1.length = p + 1 ∧
      ∀ b ∈ r.1, 48 ≤ b.toNat ∧ b.toNat ≤ 57 := by
    refine ⟨_, rfl, ?_⟩
    split
    · refine ⟨by rw [List.length_append, List.length_replicate]; omega, fun b hb => ?_⟩
      rcases List.mem_append.1 hb with hb | hb
      · exact digit_range hb
      · rw [(List.mem_replicate.1 hb).2]
        decide
    · split
      · refine ⟨?_, fun b hb => digit_range hb⟩
        rw [numeral_length 10 _ (by decide), Nat.log_pow (by decide)]
      · rename_i h1 h2
        exact ⟨rounded_length hk (by omega) h2, fun b hb => digit_range hb⟩
  rw [hr]
  obtain ⟨ds, k'⟩ := r
  cases ds with
  | nil => simp at hl
  | cons c t =>
    refine ⟨c, if p = 0 then [] else 46#8 :: t, k', rfl, ?_, hd c List.mem_cons_self, ?_⟩
    · intro b hb
      rcases List.mem_cons.1 hb with rfl | hb
      · exact Or.inr (hd _ List.mem_cons_self)
      · split at hb
        · cases hb
        · rcases List.mem_cons.1 hb with rfl | hb
          · exact Or.inl rfl
          · exact Or.inr (hd _ (List.mem_cons_of_mem _ hb))
    · simp only [List.length_cons, Nat.add_right_cancel_iff] at hl
      split <;> simp <;> omega

/-- The form of the text without a precision. -/
theorem sciForm_shape (e : Byte) (n : Nat) : ∃ c t, sciForm e n =
      c :: t ++ e :: numeral 10 ((numeral 10 n).length - 1) ∧
    (∀ b ∈ c :: t, b = 46#8 ∨ (48 ≤ b.toNat ∧ b.toNat ≤ 57)) ∧ (48 ≤ c.toNat ∧ c.toNat ≤ 57) := by
  unfold sciForm
  have hd : ∀ b ∈ numeral 10 n, 48 ≤ b.toNat ∧ b.toNat ≤ 57 := fun b hb => digit_range hb
  cases hs : numeral 10 n with
  | nil => exact absurd hs (numeral_ne_nil 10 n)
  | cons c t =>
    rw [hs] at hd
    dsimp only
    generalize hf : (List.dropWhile (· == 48#8) (c :: t).tail.reverse).reverse = fr
    have hfr : ∀ b ∈ fr, b ∈ c :: t := fun b hb => by
      rw [← hf, List.mem_reverse] at hb
      have := (List.dropWhile_suffix _).mem hb
      rw [List.mem_reverse] at this
      exact List.mem_cons_of_mem _ this
    refine ⟨c, if fr = [] then [] else 46#8 :: fr, rfl, ?_, hd c List.mem_cons_self⟩
    intro b hb
    rcases List.mem_cons.1 hb with rfl | hb
    · exact Or.inr (hd _ List.mem_cons_self)
    · split at hb
      · cases hb
      · rcases List.mem_cons.1 hb with rfl | hb
        · exact Or.inl rfl
        · exact Or.inr (hd _ (hfr b hb))

/-- When the full text begins with the text of the primitive integers. -/
theorem sciText_prefix {e : Byte} (he : e = 101#8 ∨ e = 69#8) (prec : Option Nat) {n : Nat} {d : Byte}
    {ds : List Byte} (hs : numeral 10 n = d :: ds) (R : List Byte) :
    sciText e prec n ++ R = d :: 46#8 :: ds ++ e :: numeral 10 ds.length ↔
      R = [] ∧ (match prec with
        | none => 10 ≤ n ∧ n % 10 ≠ 0
        | some p => 0 < p ∧ p + 1 = (numeral 10 n).length) := by
  have hd : ∀ b ∈ d :: ds, 48 ≤ b.toNat ∧ b.toNat ≤ 57 := fun b hb => digit_range (hs ▸ hb)
  have hmant : ∀ l : List Byte, (∀ b ∈ l, b = 46#8 ∨ (48 ≤ b.toNat ∧ b.toNat ≤ 57)) → e ∉ l := by
    intro l hl hc
    rcases hl e hc with rfl | hr
    · revert he; decide
    · rcases he with rfl | rfl <;> revert hr <;> decide
  have hfull : e ∉ d :: 46#8 :: ds := hmant _ fun b hb => by
    rcases List.mem_cons.1 hb with rfl | hb
    · exact Or.inr (hd _ List.mem_cons_self)
    · rcases List.mem_cons.1 hb with rfl | hb
      · exact Or.inl rfl
      · exact Or.inr (hd _ (List.mem_cons_of_mem _ hb))
  have hexp : ∀ k, e ∉ numeral 10 k := fun k => hmant _ fun b hb => Or.inr (digit_range hb)
  have split : ∀ (c : Byte) (t : List Byte) (k : Nat),
      c :: t ++ e :: numeral 10 k ++ R = d :: 46#8 :: ds ++ e :: numeral 10 ds.length ↔
        c :: t = d :: 46#8 :: ds ∧ numeral 10 k ++ R = numeral 10 ds.length := by
    intro c t k
    rw [List.append_assoc, eq_comm, List.cons_append (as := numeral 10 k),
      List.append_cons_inj_of_notMem hfull (hexp _)]
    exact ⟨fun h => ⟨h.1.symm, h.2.2.symm⟩, fun h => ⟨h.1.symm, rfl, h.2.symm⟩⟩
  have hlen : (numeral 10 n).length = ds.length + 1 := by rw [hs]; rfl
  cases prec with
  | none =>
    obtain ⟨s, hx, -, hiff⟩ := exp_spec e n
    rw [hs, Write.exp, Res.ok.injEq] at hx
    obtain ⟨c, t, ht, hm, -⟩ := sciForm_shape e n
    simp only [sciText]
    rw [← hiff, ← hx]
    constructor
    · intro h
      rw [ht, split] at h
      obtain ⟨h1, h2⟩ := h
      rw [hlen, Nat.add_sub_cancel] at ht h2
      exact ⟨by simpa using h2, by rw [ht, h1]⟩
    · rintro ⟨rfl, h⟩
      rw [List.append_nil, ← h]
  | some p =>
    have full : 0 < ds.length →
        sciPrec e n ds.length = d :: 46#8 :: ds ++ e :: numeral 10 ds.length := by
      intro h0
      unfold sciPrec
      simp only [hs, List.length_cons, Nat.add_sub_cancel, le_refl, if_true, Nat.sub_self,
        List.replicate_zero, List.append_nil, List.take_succ_cons, List.take_zero, List.tail_cons]
      rw [if_neg (by omega)]
      rfl
    simp only [sciText]
    constructor
    · intro h
      have h' := h
      obtain ⟨c, t, k, ht, hm, -, hl⟩ := sciPrec_shape e n p
      rw [ht, split] at h
      obtain ⟨h1, -⟩ := h
      have h3 := congrArg List.length h1
      simp only [List.length_cons, Nat.add_right_cancel_iff] at h3
      obtain ⟨hp, rfl⟩ : 0 < p ∧ p = ds.length := by
        split at hl <;> omega
      rw [full hp] at h'
      exact ⟨by simpa using h', hp, by omega⟩
    · rintro ⟨rfl, h0, h⟩
      rw [hlen] at h
      obtain rfl : p = ds.length := by omega
      rw [List.append_nil, full h0]

theorem sciText_head (e : Byte) (prec : Option Nat) (n : Nat) : ∃ c t, sciText e prec n = c :: t ∧
    48 ≤ c.toNat ∧ c.toNat ≤ 57 := by
  cases prec with
  | none =>
    obtain ⟨c, t, h, -, hc⟩ := sciForm_shape e n
    exact ⟨c, _, h, hc⟩
  | some p =>
    obtain ⟨c, t, k, h, -, hc, -⟩ := sciPrec_shape e n p
    exact ⟨c, _, h, hc⟩

/-- The parts of a padded text. -/
theorem padAligned_shape (al : Align) (f : Write.Flags) (neg : Bool) (t : List Byte) : ∃ a b z,
    padAligned al f neg [] t = (List.replicate a f.fill).flatten ++
      ((if neg then ascii "-" else if f.signPlus then ascii "+" else []) ++
        (List.replicate z 48#8 ++ (t ++ (List.replicate b f.fill).flatten))) := by
  unfold padAligned
  simp only [ite_self, List.append_nil]
  generalize (if neg then ascii "-" else if f.signPlus then ascii "+" else []) = s
  generalize f.width.getD 0 - (s.length + t.length) = n
  split
  · exact ⟨0, 0, n, by simp⟩
  · cases al
    · exact ⟨n, 0, 0, by simp⟩
    · exact ⟨0, n, 0, by simp⟩
    · exact ⟨n / 2, (n + 1) / 2, 0, by simp⟩
    · exact ⟨n, 0, 0, by simp⟩

/-- A text with the point in the second place has neither fill characters nor zeros before the first
digit. -/
theorem no_left {fi : List Byte} (hc : CharBytes fi) {S : List Byte} (hS : S = [] ∨ S = [43#8] ∨ S = [45#8])
    {c d : Byte} {t rest : List Byte} (hcd : 48 ≤ c.toNat) (hd : 48 ≤ d.toNat ∧ d.toNat ≤ 57)
    (a z : Nat) (h : (List.replicate a fi).flatten ++ (S ++ (List.replicate z 48#8 ++ c :: t)) =
      S ++ d :: 46#8 :: rest) : a = 0 ∧ z = 0 := by
  have h46 : ∀ b : Byte, 48 ≤ b.toNat → b ≠ 46#8 := by rintro b hb rfl; revert hb; decide
  obtain ⟨f0, ft, rfl, hft⟩ := hc
  have ha : a = 0 := by
    by_contra hne
    obtain ⟨a, rfl⟩ := Nat.exists_eq_succ_of_ne_zero hne
    rw [List.replicate_succ, List.flatten_cons, List.cons_append, List.cons_append] at h
    have key : (S = [] ∧ f0 = d ∧ ft ++ (List.replicate a (f0 :: ft)).flatten ++
        (List.replicate z 48#8 ++ c :: t) = 46#8 :: rest) ∨
        (S = [f0] ∧ f0.toNat < 128 ∧ f0.toNat < 48 ∧ ft ++ (List.replicate a (f0 :: ft)).flatten ++
          (f0 :: (List.replicate z 48#8 ++ c :: t)) = d :: 46#8 :: rest) := by
      rcases hS with rfl | rfl | rfl
      · simp only [List.nil_append, List.cons.injEq] at h
        exact Or.inl ⟨rfl, h.1, by simpa using h.2⟩
      · simp only [List.nil_append, List.cons_append, List.cons.injEq] at h
        obtain ⟨rfl, h⟩ := h
        exact Or.inr ⟨rfl, by decide, by decide, by simpa using h⟩
      · simp only [List.nil_append, List.cons_append, List.cons.injEq] at h
        obtain ⟨rfl, h⟩ := h
        exact Or.inr ⟨rfl, by decide, by decide, by simpa using h⟩
    rcases key with ⟨-, rfl, k⟩ | ⟨-, h1, h2, k⟩
    · obtain rfl : ft = [] := by
        rcases hft with h | h
        · exact h
        · omega
      cases a with
      | succ a =>
        simp [List.replicate_succ] at k
        exact h46 _ hd.1 k.1
      | zero =>
        cases z with
        | zero => simp at k; exact h46 _ hcd k.1
        | succ z => simp [List.replicate_succ] at k
    · obtain rfl : ft = [] := by
        rcases hft with h | h
        · exact h
        · omega
      cases a with
      | succ a =>
        simp [List.replicate_succ] at k
        obtain ⟨rfl, -⟩ := k
        omega
      | zero =>
        simp at k
        obtain ⟨rfl, -⟩ := k
        omega
  subst ha
  refine ⟨rfl, ?_⟩
  rw [List.replicate_zero, List.flatten_nil, List.nil_append, List.append_cancel_left_eq] at h
  cases z with
  | zero => rfl
  | succ z =>
    exfalso
    cases z with
    | zero => simp at h; exact h46 _ hcd h.2.1
    | succ z => simp [List.replicate_succ] at h

/-- When the text with every digit is what the primitive integers print. -/
theorem exp_flags {e : Byte} (he : e = 101#8 ∨ e = 69#8) (al : Align) (f : Write.Flags)
    (hfill : CharBytes f.fill) (prec : Option Nat) (neg : Bool) (n : Nat) {S : List Byte}
    (hS : S = [] ∨ S = if neg then ascii "-" else if f.signPlus then ascii "+" else []) :
    ∃ s, Write.exp e (numeral 10 n) = .ok s ∧ SciDenotes e s n ∧
      (S ++ s = padAligned al f neg [] (sciText e prec n) ↔
        S = (if neg then ascii "-" else if f.signPlus then ascii "+" else []) ∧
        f.width.getD 0 ≤ S.length + s.length ∧ (match prec with
          | none => 10 ≤ n ∧ n % 10 ≠ 0
          | some p => 0 < p ∧ p + 1 = (numeral 10 n).length)) := by
  obtain ⟨s, hx, hden, -⟩ := exp_spec e n
  refine ⟨s, hx, hden, ?_⟩
  cases hs : numeral 10 n with
  | nil => exact absurd hs (numeral_ne_nil 10 n)
  | cons d ds =>
    have hd : ∀ b ∈ d :: ds, 48 ≤ b.toNat ∧ b.toNat ≤ 57 := fun b hb => digit_range (hs ▸ hb)
    rw [hs, Write.exp, Res.ok.injEq] at hx
    have hpre := sciText_prefix he prec hs
    rw [hx, hs] at hpre
    generalize hS' : (if neg then ascii "-" else if f.signPlus then ascii "+" else []) = S' at hS ⊢
    have hS3 : S' = [] ∨ S' = [43#8] ∨ S' = [45#8] := by
      rw [← hS']
      cases neg <;> cases f.signPlus <;> simp [ascii]
    constructor
    · intro h
      obtain ⟨a, b, z, hp⟩ := padAligned_shape al f neg (sciText e prec n)
      rw [hS'] at hp
      have hSS : S = S' := by
        rcases hS with h0 | h0
        · rcases hS3 with h3 | h3
          · rw [h0, h3]
          · exfalso
            obtain ⟨c, hc, hlt⟩ : ∃ c, c ∈ S' ∧ (c = 43#8 ∨ c = 45#8) := by
              rcases h3 with rfl | rfl <;> simp
            have hmem : c ∈ s := by
              have : c ∈ S ++ s := by
                rw [h, hp]
                simp [hc]
              simpa [h0] using this
            rw [← hx] at hmem
            have hcc : ¬ (48 ≤ c.toNat ∧ c.toNat ≤ 57) := by rcases hlt with rfl | rfl <;> decide
            rcases List.mem_append.1 hmem with hm | hm
            · rcases List.mem_cons.1 hm with rfl | hm
              · exact hcc (hd _ List.mem_cons_self)
              · rcases List.mem_cons.1 hm with rfl | hm
                · revert hlt; decide
                · exact hcc (hd _ (List.mem_cons_of_mem _ hm))
            · rcases List.mem_cons.1 hm with rfl | hm
              · rcases he with rfl | rfl <;> revert hlt <;> decide
              · exact hcc (digit_range hm)
        · exact h0
      subst hSS
      obtain ⟨c, t, hct, hc1, -⟩ := sciText_head e prec n
      have hz : a = 0 ∧ z = 0 := by
        refine no_left hfill hS3 (c := c) (d := d) (t := t ++ (List.replicate b f.fill).flatten)
          (rest := ds ++ e :: numeral 10 ds.length) hc1 (hd _ List.mem_cons_self) a z ?_
        rw [← List.cons_append (a := c), ← hct, ← hp, ← h, ← hx]
        rfl
      obtain ⟨rfl, rfl⟩ := hz
      have h2 := hp
      rw [← h] at h2
      simp only [List.replicate_zero, List.flatten_nil, List.nil_append, List.append_cancel_left_eq] at h2
      obtain ⟨h3, h4⟩ := (hpre _).1 h2.symm
      refine ⟨rfl, ?_, h4⟩
      have hl := padAligned_length al f hfill.ne_nil neg (sciText e prec n)
      rw [← h, List.length_append] at hl
      omega
    · rintro ⟨rfl, h2, h3⟩
      have h4 := (hpre []).2 ⟨rfl, h3⟩
      rw [List.append_nil] at h4
      rw [padAligned_fits, hS', h4]
      rw [hS', h4]
      exact h2

/-- Different numbers, unless below ten, have different decimal and hexadecimal texts. -/
theorem dec_hex {up : Byte → Byte} (hup : ∀ r < 16, ∀ a < 10, digitByte a = up (digitByte r) → a = r) :
    ∀ a b : Nat, numeral 10 a = (numeral 16 b).map up → a ≤ b ∧ (a < 10 ∨ a < b) := by
  intro a
  induction a using Nat.strong_induction_on with
  | _ a ih =>
    intro b h
    by_cases ha : a < 10
    · rw [numeral_of_lt ha] at h
      by_cases hb : b < 16
      · rw [numeral_of_lt hb] at h
        have := hup b hb a ha (by simpa using h)
        omega
      · omega
    · have hb : 16 ≤ b := by
        by_contra hb
        rw [numeral_of_lt (r := 16) (by omega), numeral_of_ge (r := 10) (by decide) (by omega)] at h
        have := congrArg List.length h
        have h1 := List.length_pos_iff.2 (numeral_ne_nil 10 (a / 10))
        rw [List.length_append, List.map_singleton, List.length_singleton, List.length_singleton] at this
        omega
      rw [numeral_of_ge (by decide) (by omega), numeral_of_ge (by decide) hb, List.map_append,
        List.map_singleton] at h
      obtain ⟨h1, h2⟩ := List.append_inj' h rfl
      have h3 := ih (a / 10) (by omega) (b / 16) h1
      have h4 := hup (b % 16) (by omega) (a % 10) (by omega) (by simpa using h2)
      omega

theorem dec_hex_iff {up : Byte → Byte} (hup : ∀ r < 16, ∀ a < 10, digitByte a = up (digitByte r) ↔ a = r)
    (n : Nat) : numeral 10 n = (numeral 16 n).map up ↔ n < 10 := by
  refine ⟨fun h => ?_, fun h => ?_⟩
  · have := dec_hex (fun r hr a ha => (hup r hr a ha).1) n n h
    omega
  · rw [numeral_of_lt h, numeral_of_lt (by omega), List.map_singleton, ← (hup n (by omega) n h).2 rfl]

theorem padAligned_none (al : Align) (f : Write.Flags) (h : f.width = none) (neg : Bool)
    (pre digits : List Byte) : padAligned al f neg pre digits =
      (if neg then ascii "-" else if f.signPlus then ascii "+" else []) ++
        (if f.alternate then pre else []) ++ digits := by
  unfold padAligned
  rw [h]
  cases al <;> simp

end I256
