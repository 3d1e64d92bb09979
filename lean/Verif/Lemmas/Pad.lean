import Verif.Lemmas.Write

/-!
# When padding is that of the primitive integers
-/

namespace I256

theorem pad_spell (f : Write.Flags) (pre digits : List Byte) : Write.pad f pre digits =
    (if f.alternate then pre else []) ++
      (List.replicate (f.width.getD 0 - digits.length) f.fill).flatten ++ digits := by
  unfold Write.pad
  cases f.width <;> simp

/-- Both sides are equal for short widths, and if there is neither prefix nor zero padding. -/
theorem pad_eq_of (f : Write.Flags) (pre digits : List Byte) (hp : f.signPlus = false)
    (hf : f.width.getD 0 ≤ digits.length ∨ (f.alternate = false ∧ f.zero = false)) :
    Write.pad f pre digits = padIntegral f false pre digits := by
  rw [pad_spell]
  unfold padIntegral
  rcases hf with h | ⟨h1, h2⟩
  · rw [show f.width.getD 0 - digits.length = 0 by omega]
    simp only [hp, Bool.false_eq_true, if_false, List.nil_append]
    rw [show ∀ n, f.width.getD 0 - (n + digits.length) = 0 by intro n; omega]
    simp
  · simp [h1, h2, hp]

theorem pad_ne_of (f : Write.Flags) (pre digits : List Byte) (hfill : f.fill = [32#8])
    (hpre : pre ≠ []) (h1 : ∀ c ∈ pre, c ≠ 32#8 ∧ c ≠ 43#8) (h2 : ∀ c ∈ digits, c ≠ 32#8 ∧ c ≠ 43#8)
    (h : Write.pad f pre digits = padIntegral f false pre digits) :
    f.signPlus = false ∧ (f.width.getD 0 ≤ digits.length ∨ (f.alternate = false ∧ f.zero = false)) := by
  have z1 : List.count 32#8 pre = 0 := List.count_eq_zero.2 fun h => (h1 _ h).1 rfl
  have z2 : List.count 32#8 digits = 0 := List.count_eq_zero.2 fun h => (h2 _ h).1 rfl
  have p1 : List.count 43#8 pre = 0 := List.count_eq_zero.2 fun h => (h1 _ h).2 rfl
  have p2 : List.count 43#8 digits = 0 := List.count_eq_zero.2 fun h => (h2 _ h).2 rfl
  have flat : ∀ n, (List.replicate n [32#8]).flatten = List.replicate n 32#8 := by
    intro n; induction n with
    | zero => rfl
    | succ n ih => rw [List.replicate_succ, List.flatten_cons, ih, List.replicate_succ]; rfl
  have hlen : 0 < pre.length := List.length_pos_iff.2 hpre
  rw [pad_spell] at h
  unfold padIntegral at h
  have e32 := congrArg (List.count 32#8) h
  have e43 := congrArg (List.count 43#8) h
  have c1 : List.count 32#8 (ascii "+") = 0 := by decide
  have c2 : List.count 43#8 (ascii "+") = 1 := by decide
  have l1 : (ascii "+").length = 1 := by decide
  rcases f with ⟨al, sp, ze, wd, fi⟩
  simp only at hfill h e32 e43 ⊢
  subst hfill
  cases sp
  · refine ⟨rfl, ?_⟩
    by_contra hc
    cases al <;> cases ze <;>
      simp [List.count_append, List.count_replicate, z1, z2, flat] at e32 hc <;> omega
  · exfalso
    cases al <;> cases ze <;>
      simp [List.count_append, List.count_replicate, p1, p2, c2, flat] at e43

theorem numeral_plain {r n : Nat} (hr : 2 ≤ r) (hr' : r ≤ 36) {c : Byte} (h : c ∈ numeral r n) :
    c ≠ 32#8 ∧ c ≠ 43#8 := by
  obtain ⟨d, hd, rfl⟩ := numeral_mem hr h
  have hv : (digitByte d).toNat = if d < 10 then 48 + d else 55 + d := by
    rw [digitByte, BitVec.toNat_ofNat]
    split <;> omega
  constructor <;> intro e <;> have := congrArg BitVec.toNat e <;> rw [hv] at this <;>
    simp at this <;> split at this <;> omega

theorem lower_plain {c : Byte} (h : c ≠ 32#8 ∧ c ≠ 43#8) : lowerByte c ≠ 32#8 ∧ lowerByte c ≠ 43#8 := by
  unfold lowerByte
  split
  · rename_i h'
    have : (c + 32).toNat = c.toNat + 32 := by
      rw [BitVec.toNat_add, show (32 : Byte).toNat = 32 from rfl]; omega
    constructor <;> intro e <;> have e' := congrArg BitVec.toNat e <;> rw [this] at e' <;>
      simp at e' <;> omega
  · exact h

/-- The radix formats print what the primitive integers print exactly under this condition. -/
theorem pad_iff (f : Write.Flags) (hfill : f.fill = [32#8]) {pre digits : List Byte} (hpre : pre ≠ [])
    (h1 : ∀ c ∈ pre, c ≠ 32#8 ∧ c ≠ 43#8) (h2 : ∀ c ∈ digits, c ≠ 32#8 ∧ c ≠ 43#8) :
    Write.pad f pre digits = padIntegral f false pre digits ↔
      f.signPlus = false ∧
        (f.width.getD 0 ≤ digits.length ∨ (f.alternate = false ∧ f.zero = false)) :=
  ⟨pad_ne_of f pre digits hfill hpre h1 h2, fun h => pad_eq_of f pre digits h.1 h.2⟩

theorem flat_len (fill : List Byte) (n : Nat) :
    ((List.replicate n fill).flatten).length = n * fill.length := by
  simp

theorem flat_one (c : Byte) (n : Nat) : (List.replicate n [c]).flatten = List.replicate n c := by
  induction n with
  | zero => rfl
  | succ n ih => rw [List.replicate_succ, List.flatten_cons, ih, List.replicate_succ]; rfl

theorem one_le_mul {n k : Nat} (hk : 1 ≤ k) : n ≤ n * k :=
  Nat.le_mul_of_pos_right n hk

theorem len_one_of_mul {n k : Nat} (hn : 0 < n) (hk : 1 ≤ k) (h : n * k ≤ n) : k = 1 := by
  by_contra hne
  have : n * 2 ≤ n * k := Nat.mul_le_mul_left n (by omega)
  omega

theorem flat_eq_replicate {fill : List Byte} (hf : fill ≠ []) (c : Byte) (n : Nat) :
    (List.replicate n fill).flatten = List.replicate n c ↔ n = 0 ∨ fill = [c] := by
  constructor
  · intro h
    rcases Nat.eq_zero_or_pos n with h0 | h0
    · exact Or.inl h0
    · right
      have hl := congrArg List.length h
      rw [flat_len, List.length_replicate] at hl
      have hk := len_one_of_mul h0 (List.length_pos_iff.2 hf) hl.le
      obtain ⟨b, rfl⟩ := List.length_eq_one_iff.1 hk
      obtain ⟨m, rfl⟩ : ∃ m, n = m + 1 := ⟨n - 1, by omega⟩
      rw [flat_one, List.replicate_succ, List.replicate_succ, List.cons.injEq] at h
      rw [h.1]
  · rintro (rfl | rfl)
    · rfl
    · exact flat_one c n

/-- The exact condition for the radix formats to print what the primitive integers print, for every
fill character. -/
theorem pad_iff_all (f : Write.Flags) (hfill : f.fill ≠ []) {p : Byte} (digits : List Byte) :
    Write.pad f [48#8, p] digits = padIntegral f false [48#8, p] digits ↔
      (f.signPlus = false ∧ (f.width.getD 0 ≤ digits.length ∨
        (f.alternate = false ∧ (f.zero = false ∨ f.fill = [48#8])))) ∨
      (f.signPlus = true ∧ f.alternate = false ∧ f.fill = [43#8] ∧ digits.length < f.width.getD 0 ∧
        (f.zero = false ∨ f.width.getD 0 = digits.length + 1)) := by
  rcases f with ⟨al, sp, ze, wd, fi⟩
  rw [pad_spell]
  unfold padIntegral
  have hk : 1 ≤ fi.length := List.length_pos_iff.2 hfill
  have ep : ascii "+" = [43#8] := by decide
  simp only at hfill ⊢
  generalize hW : wd.getD 0 = W
  generalize hd : digits.length = d
  cases sp <;> cases al <;> cases ze <;>
    simp only [Bool.false_eq_true, if_false, if_true, ep, List.nil_append, List.append_nil, List.length_nil,
      List.length_cons, true_and, false_and, or_false, false_or, reduceCtorEq, Nat.zero_add, true_or,
      and_true, or_true, Nat.reduceAdd, List.append_cancel_right_eq, List.cons_append]
  · -- `0`
    rw [flat_eq_replicate hfill]
    exact ⟨fun h => h.imp (by omega) id, fun h => h.imp (by omega) id⟩
  · -- `#`
    constructor
    · intro h
      have hl := congrArg List.length h
      simp only [List.length_append, List.length_cons, flat_len, List.length_nil, hd] at hl
      by_contra hc
      have e : W - d = W - (2 + d) + (W - d - (W - (2 + d))) := by omega
      have h1 : 1 ≤ W - d - (W - (2 + d)) := by omega
      rw [e, Nat.add_mul] at hl
      have := one_le_mul (n := W - d - (W - (2 + d))) hk
      omega
    · intro h
      rw [show W - d = 0 by omega, show W - (2 + d) = 0 by omega]
      rfl
  · -- `#`, `0`
    constructor
    · intro h
      have hl := congrArg List.length h
      simp only [List.length_append, List.length_cons, flat_len, hd,
        List.length_replicate] at hl
      by_contra hc
      have := one_le_mul (n := W - d) hk
      omega
    · intro h
      rw [show W - d = 0 by omega, show W - (2 + d) = 0 by omega]
      rfl
  · -- `+`
    constructor
    · intro h
      have hl := congrArg List.length h
      simp only [List.length_append, List.length_cons, flat_len, List.length_nil] at hl
      have hlt : d < W := by
        by_contra hc
        rw [show W - d = 0 by omega, show W - (1 + d) = 0 by omega] at hl
        omega
      obtain ⟨m, hm⟩ : ∃ m, W - d = m + 1 := ⟨W - d - 1, by omega⟩
      rw [hm, show W - (1 + d) = m by omega] at hl h
      rw [Nat.add_mul] at hl
      obtain ⟨b, rfl⟩ := List.length_eq_one_iff.1 (show fi.length = 1 by omega)
      rw [flat_one, flat_one, List.replicate_succ', List.append_cancel_left_eq] at h
      exact ⟨h, hlt⟩
    · rintro ⟨rfl, hlt⟩
      obtain ⟨m, hm⟩ : ∃ m, W - d = m + 1 := ⟨W - d - 1, by omega⟩
      rw [hm, show W - (1 + d) = m by omega, flat_one, flat_one, List.replicate_succ']
  · -- `+`, `0`
    rw [← List.cons_append, List.append_cancel_right_eq]
    constructor
    · intro h
      have hl := congrArg List.length h
      simp only [List.length_cons, flat_len, List.length_replicate] at hl
      have hlt : d < W := by
        by_contra hc
        rw [show W - d = 0 by omega] at hl
        omega
      have hk1 := len_one_of_mul (n := W - d) (by omega) hk (by omega)
      obtain ⟨b, rfl⟩ := List.length_eq_one_iff.1 hk1
      obtain ⟨m, hm⟩ : ∃ m, W - d = m + 1 := ⟨W - d - 1, by omega⟩
      rw [hm, show W - (1 + d) = m by omega, flat_one, List.replicate_succ, List.cons.injEq] at h
      obtain ⟨rfl, h2⟩ := h
      refine ⟨rfl, hlt, ?_⟩
      cases m with
      | zero => omega
      | succ m =>
        rw [List.replicate_succ, List.replicate_succ, List.cons.injEq] at h2
        exact absurd h2.1 (by decide)
    · rintro ⟨rfl, -, rfl⟩
      rw [show d + 1 - d = 1 by omega, show d + 1 - (1 + d) = 0 by omega]
      rfl
  · -- `+`, `#`
    rw [iff_false]
    intro h
    have hl := congrArg List.length h
    simp only [List.length_append, List.length_cons, flat_len, List.length_nil, Nat.reduceAdd] at hl
    rcases Nat.lt_or_ge (W - d) 3 with hc | hc
    · rw [show W - (3 + d) = 0 by omega] at h
      simp at h
    · rw [show W - d = W - (3 + d) + 3 by omega, Nat.add_mul] at hl
      omega
  · -- `+`, `#`, `0`
    rw [iff_false]
    intro h
    simp at h

theorem padIntegral_length (f : Write.Flags) (hfill : f.fill ≠ []) (neg : Bool) (digits : List Byte) :
    max (f.width.getD 0) ((if neg then ascii "-" else if f.signPlus then ascii "+" else []).length +
        digits.length) ≤ (padIntegral f neg [] digits).length := by
  unfold padIntegral
  simp only [ite_self, List.append_nil]
  have flat : ∀ n, n ≤ ((List.replicate n f.fill).flatten).length := fun n => by
    rw [flat_len]
    exact one_le_mul (List.length_pos_iff.2 hfill)
  generalize (if neg then ascii "-" else if f.signPlus then ascii "+" else []) = s
  split
  · rw [List.length_append, List.length_append, List.length_replicate]
    omega
  · rw [List.length_append, List.length_append]
    have := flat (f.width.getD 0 - (s.length + digits.length))
    omega

theorem padIntegral_fits (f : Write.Flags) (neg : Bool) (digits : List Byte)
    (h : f.width.getD 0 ≤ (if neg then ascii "-" else if f.signPlus then ascii "+" else []).length +
      digits.length) : padIntegral f neg [] digits =
      (if neg then ascii "-" else if f.signPlus then ascii "+" else []) ++ digits := by
  unfold padIntegral
  simp only [ite_self, List.append_nil]
  rw [show f.width.getD 0 - ((if neg then ascii "-" else if f.signPlus then ascii "+" else []).length +
    digits.length) = 0 by omega]
  simp

end I256
