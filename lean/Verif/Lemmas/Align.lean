import Verif.Lemmas.Pad
import Verif.SpecAlign

/-!
# When padding is that of the primitive integers, with an explicit alignment
-/

namespace I256

theorem CharBytes.ne_nil {l : List Byte} (h : CharBytes l) : l ≠ [] := by
  obtain ⟨c, t, rfl, -⟩ := h; exact List.cons_ne_nil _ _

theorem padAligned_default {al : Align} (f : Write.Flags) (h : al = .unknown ∨ al = .right ∨ f.zero = true)
    (neg : Bool) (pre digits : List Byte) : padAligned al f neg pre digits = padIntegral f neg pre digits := by
  unfold padAligned padIntegral
  rcases h with rfl | rfl | h
  · rfl
  · rfl
  · simp only [h, if_true]

/-- Fill characters before and after the same text: all characters are the fill character. -/
theorem replicate_comm {c : Byte} {n : Nat} (hn : 0 < n) (l : List Byte) :
    List.replicate n c ++ l = l ++ List.replicate n c ↔ ∀ b ∈ l, b = c := by
  constructor
  · intro h
    induction l with
    | nil => simp
    | cons b l ih =>
      obtain ⟨m, rfl⟩ : ∃ m, n = m + 1 := ⟨n - 1, by omega⟩
      have hb : c = b := by
        rw [List.replicate_succ, List.cons_append, List.cons_append, List.cons.injEq] at h
        exact h.1
      subst hb
      rw [List.append_cons, ← List.replicate_succ', List.replicate_succ, List.cons_append,
        List.cons_append, List.cons.injEq] at h
      intro b hm
      rcases List.mem_cons.1 hm with rfl | hm
      · rfl
      · exact ih h.2 b hm
  · intro h
    rw [List.eq_replicate_of_mem h, ← List.replicate_add, ← List.replicate_add, Nat.add_comm]

theorem fill_comm {fi : List Byte} (hc : CharBytes fi) {digits : List Byte} (hne : digits ≠ [])
    (hd : ∀ b ∈ digits, b.toNat < 128) {n : Nat} (hn : 0 < n) :
    (List.replicate n fi).flatten ++ digits = digits ++ (List.replicate n fi).flatten ↔
      ∃ c, fi = [c] ∧ ∀ b ∈ digits, b = c := by
  obtain ⟨c, t, rfl, ht⟩ := hc
  constructor
  · intro h
    have hcd : c.toNat < 128 := by
      obtain ⟨m, rfl⟩ : ∃ m, n = m + 1 := ⟨n - 1, by omega⟩
      obtain ⟨b, l, rfl⟩ := List.exists_cons_of_ne_nil hne
      rw [List.replicate_succ, List.flatten_cons, List.cons_append, List.cons_append, List.cons_append,
        List.cons.injEq] at h
      rw [h.1]
      exact hd b List.mem_cons_self
    obtain rfl : t = [] := ht.resolve_right (by omega)
    rw [flat_one, replicate_comm hn] at h
    exact ⟨c, rfl, h⟩
  · rintro ⟨c', e, h⟩
    rw [e, flat_one]
    exact (replicate_comm hn digits).2 h

theorem flat_add (fi : List Byte) (m n : Nat) : (List.replicate (m + n) fi).flatten =
    (List.replicate m fi).flatten ++ (List.replicate n fi).flatten := by
  rw [List.replicate_add, List.flatten_append]

/-- The fill characters at the end (`r` of them) and before (`l`). -/
theorem side_iff {fi : List Byte} (hc : CharBytes fi) {digits : List Byte} (hne : digits ≠ [])
    (hd : ∀ b ∈ digits, b.toNat < 128) (l r : Nat) :
    (List.replicate (l + r) fi).flatten ++ digits =
        (List.replicate l fi).flatten ++ digits ++ (List.replicate r fi).flatten ↔
      r = 0 ∨ ∃ c, fi = [c] ∧ ∀ b ∈ digits, b = c := by
  rw [flat_add, List.append_assoc, List.append_assoc, List.append_cancel_left_eq]
  rcases Nat.eq_zero_or_pos r with rfl | h
  · simp
  · rw [fill_comm hc hne hd h]
    exact ⟨Or.inr, fun h' => h'.resolve_left (by omega)⟩

/-- With a `+` sign in the middle: only the fill character `+`, and none at the end. -/
theorem sign_iff {fi : List Byte} (hf : fi ≠ []) {digits : List Byte} (hne : digits ≠ [])
    (hp : ∀ b ∈ digits, b ≠ 43#8) (n l r : Nat) (hn : l + r = n - 1) :
    (List.replicate n fi).flatten ++ digits =
        (List.replicate l fi).flatten ++ [43#8] ++ digits ++ (List.replicate r fi).flatten ↔
      0 < n ∧ fi = [43#8] ∧ r = 0 := by
  have hk : 1 ≤ fi.length := List.length_pos_iff.2 hf
  constructor
  · intro h
    have hl := congrArg List.length h
    simp only [List.length_append, flat_len, List.length_cons, List.length_nil] at hl
    have h0 : 0 < n := by
      by_contra hc
      rw [show n = 0 by omega, show l = 0 by omega, show r = 0 by omega] at hl
      omega
    rw [show n = l + r + 1 by omega, Nat.add_mul, Nat.add_mul] at hl
    obtain ⟨b, rfl⟩ := List.length_eq_one_iff.1 (show fi.length = 1 by omega)
    rw [show n = l + (r + 1) by omega, flat_add, List.append_assoc, List.append_assoc, List.append_assoc,
      List.append_cancel_left_eq, flat_one, flat_one, List.replicate_succ, List.cons_append,
      List.cons_append, List.nil_append, List.cons.injEq] at h
    obtain ⟨rfl, h⟩ := h
    refine ⟨h0, rfl, ?_⟩
    by_contra hr
    obtain ⟨d, t, rfl⟩ := List.exists_cons_of_ne_nil hne
    exact hp d List.mem_cons_self ((replicate_comm (by omega) _).1 h d List.mem_cons_self)
  · rintro ⟨h0, rfl, rfl⟩
    rw [show n = l + 1 by omega, flat_add]
    simp

/-- The exact condition for the radix formats to print what the primitive integers print, for every
fill character and alignment. -/
theorem pad_iff_align (al : Align) (f : Write.Flags) (hfill : CharBytes f.fill) {p : Byte}
    {digits : List Byte} (hne : digits ≠ []) (hd : ∀ b ∈ digits, b.toNat < 128)
    (hp : ∀ b ∈ digits, b ≠ 43#8) :
    Write.pad f [48#8, p] digits = padAligned al f false [48#8, p] digits ↔
      (f.signPlus = false ∧ (f.width.getD 0 ≤ digits.length ∨
        (f.alternate = false ∧ (if f.zero then f.fill = [48#8] else
          al = .unknown ∨ al = .right ∨ ∃ c, f.fill = [c] ∧ ∀ b ∈ digits, b = c)))) ∨
      (f.signPlus = true ∧ f.alternate = false ∧ f.fill = [43#8] ∧ digits.length < f.width.getD 0 ∧
        (f.width.getD 0 = digits.length + 1 ∨ (f.zero = false ∧ (al = .unknown ∨ al = .right)))) := by
  have hf := hfill.ne_nil
  by_cases h : al = .unknown ∨ al = .right ∨ f.zero = true
  · rw [padAligned_default f h, pad_iff_all f hf]
    cases hz : f.zero
    · simp only [hz, Bool.false_eq_true, or_false] at h
      rcases h with rfl | rfl <;> simp
    · simp
  · have hz : f.zero = false := by cases e : f.zero <;> simp_all
    have h1 : al ≠ .unknown := fun e => h (Or.inl e)
    have h2 : al ≠ .right := fun e => h (Or.inr (Or.inl e))
    rw [pad_spell]
    have form : ∃ a b, padAligned al f false [48#8, p] digits =
          (List.replicate a f.fill).flatten ++ ((if f.signPlus then [43#8] else []) ++
            (if f.alternate then [48#8, p] else [])) ++ digits ++ (List.replicate b f.fill).flatten ∧
        a + b = f.width.getD 0 - (((if f.signPlus then [43#8] else []) ++
            (if f.alternate then [48#8, p] else [])).length + digits.length) ∧ (b = 0 → a = 0) := by
      unfold padAligned
      simp only [hz, Bool.false_eq_true, if_false, show ascii "+" = [43#8] by decide]
      generalize f.width.getD 0 - (((if f.signPlus then [43#8] else []) ++
            (if f.alternate then [48#8, p] else [])).length + digits.length) = n
      cases al with
      | unknown => exact absurd rfl h1
      | right => exact absurd rfl h2
      | left => exact ⟨0, n, by simp, by omega, fun _ => rfl⟩
      | center => exact ⟨n / 2, (n + 1) / 2, rfl, by omega, by omega⟩
    obtain ⟨a, b, form, hab, hb⟩ := form
    rw [form]
    simp only [hz, h1, h2, Bool.false_eq_true, if_false, false_or, and_false, or_false]
    have hk : 1 ≤ f.fill.length := List.length_pos_iff.2 hf
    generalize hfi : f.fill = fi at *
    generalize hW : f.width.getD 0 = W at *
    clear form
    cases hs : f.signPlus <;> cases ha : f.alternate <;>
      simp only [hs, ha, Bool.false_eq_true, if_false, if_true, List.nil_append, List.append_nil,
        List.length_nil, List.length_cons, true_and, false_and, or_false, false_or, reduceCtorEq,
        Nat.zero_add, Nat.reduceAdd, List.cons_append] at hab ⊢
    · rw [← hab, side_iff hfill hne hd]
      exact or_congr_left ⟨fun h => by have := hb h; omega, fun h => by omega⟩
    · constructor
      · intro e
        have hl := congrArg List.length e
        simp only [List.length_append, flat_len, List.length_cons, List.length_nil] at hl
        by_contra hc
        have e2 : W - digits.length = a + b + (W - digits.length - (a + b)) := by omega
        have h1 : 1 ≤ W - digits.length - (a + b) := by omega
        rw [e2, Nat.add_mul, Nat.add_mul] at hl
        have := one_le_mul (n := W - digits.length - (a + b)) hk
        omega
      · intro h
        rw [show W - digits.length = 0 by omega, show a = 0 by omega, show b = 0 by omega]
        simp
    · rw [sign_iff hf hne hp _ a b (by omega)]
      constructor
      · rintro ⟨h1, h2, h3⟩
        have := hb h3
        exact ⟨h2, by omega, by omega⟩
      · rintro ⟨h1, h2, h3⟩
        exact ⟨by omega, h1, by omega⟩
    · rw [iff_false]
      intro e
      have hl := congrArg List.length e
      simp only [List.length_append, flat_len, List.length_cons, List.length_nil] at hl
      rcases Nat.lt_or_ge (W - digits.length) 3 with hc | hc
      · rw [show a = 0 by omega] at e
        simp at e
      · rw [show W - digits.length = a + b + 3 by omega, Nat.add_mul, Nat.add_mul] at hl
        omega

theorem numeral_ascii {r n : Nat} (hr : 2 ≤ r) (hr' : r ≤ 36) {c : Byte} (h : c ∈ numeral r n) :
    c.toNat < 91 := by
  obtain ⟨d, hd, rfl⟩ := numeral_mem hr h
  have hv : (digitByte d).toNat = if d < 10 then 48 + d else 55 + d := by
    rw [digitByte, BitVec.toNat_ofNat]
    split <;> omega
  rw [hv]
  split <;> omega

theorem lower_ascii {c : Byte} (h : c.toNat < 91) : (lowerByte c).toNat < 128 := by
  unfold lowerByte
  split
  · rw [BitVec.toNat_add, show (32 : Byte).toNat = 32 from rfl]; omega
  · omega

theorem padAligned_length (al : Align) (f : Write.Flags) (hfill : f.fill ≠ []) (neg : Bool)
    (digits : List Byte) :
    max (f.width.getD 0) ((if neg then ascii "-" else if f.signPlus then ascii "+" else []).length +
        digits.length) ≤ (padAligned al f neg [] digits).length := by
  unfold padAligned
  simp only [ite_self, List.append_nil]
  have flat : ∀ n, n ≤ ((List.replicate n f.fill).flatten).length := fun n => by
    rw [flat_len]
    exact one_le_mul (List.length_pos_iff.2 hfill)
  generalize (if neg then ascii "-" else if f.signPlus then ascii "+" else []) = s
  generalize hn : f.width.getD 0 - (s.length + digits.length) = n
  have f1 := flat n
  have f2 := flat (n / 2)
  have f3 := flat ((n + 1) / 2)
  split
  · rw [List.length_append, List.length_append, List.length_replicate]
    omega
  · cases al <;> simp only [List.length_append] <;> omega

theorem padAligned_fits (al : Align) (f : Write.Flags) (neg : Bool) (digits : List Byte)
    (h : f.width.getD 0 ≤ (if neg then ascii "-" else if f.signPlus then ascii "+" else []).length +
      digits.length) : padAligned al f neg [] digits =
      (if neg then ascii "-" else if f.signPlus then ascii "+" else []) ++ digits := by
  unfold padAligned
  simp only [ite_self, List.append_nil]
  rw [show f.width.getD 0 - ((if neg then ascii "-" else if f.signPlus then ascii "+" else []).length +
    digits.length) = 0 by omega]
  cases al <;> simp

end I256
