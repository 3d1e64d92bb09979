import Verif.Lemmas.Write

/-! Lemmas for C75. -/

namespace I256

variable {w N r : Nat}

theorem digitPart_eq_iff {ds : List Byte} :
    digitPart r ds = ds ↔ ∀ c ∈ ds, isDigit r c = true :=
  ⟨fun h c hc => digitPart_isDigit r ds c (h.symm ▸ hc), digitPart_eq_self⟩

theorem ReadsU.accept {over : ErrKind} {ds : List Byte} {p : Parsed (Limbs w)} {v : Limbs w}
    (h : ReadsU N r over ds p) :
    p = .ok v ↔ (∀ c ∈ ds, isDigit r c = true) ∧ ExactU N (numVal r ds) v := by
  obtain ⟨h1, h2, h3⟩ := h
  by_cases hd : digitPart r ds = ds
  · rw [hd] at h1 h3
    by_cases hi : InU (w * N) (numVal r ds)
    · obtain ⟨u, rfl, hu⟩ := h3 hi rfl
      constructor
      · intro e
        cases e
        exact ⟨digitPart_eq_iff.1 hd, hu⟩
      · rintro ⟨_, hv⟩
        rw [toNat_inj (hu.1.trans hv.1.symm) (by have := hu.2.trans hv.2.symm; omega)]
    · rw [h1 hi]
      constructor
      · intro e; cases e
      · rintro ⟨_, hv⟩
        exact absurd (by rw [← hv.2, ← hv.1]; exact InU_toNat v) hi
  · by_cases hi : InU (w * N) (numVal r (digitPart r ds))
    · rw [h2 hi hd]
      exact ⟨fun e => (by cases e), fun e => absurd (digitPart_eq_iff.2 e.1) hd⟩
    · rw [h1 hi]
      exact ⟨fun e => (by cases e), fun e => absurd (digitPart_eq_iff.2 e.1) hd⟩

theorem ExactS.unique {z : Int} {u v : Limbs w} (hu : ExactS N z u) (hv : ExactS N z v) : u = v :=
  toInt_inj (hu.1.trans hv.1.symm) (hu.2.trans hv.2.symm)

theorem ExactU.unique {z : Int} {u v : Limbs w} (hu : ExactU N z u) (hv : ExactU N z v) : u = v :=
  toNat_inj (hu.1.trans hv.1.symm) (by have := hu.2.trans hv.2.symm; omega)

theorem ReadsS.accept {sgn : Int} {over : ErrKind} {ds : List Byte} {p : Parsed (Limbs w)} {v : Limbs w}
    (h : ReadsS N r sgn over ds p) :
    p = .ok v ↔ (∀ c ∈ ds, isDigit r c = true) ∧ ExactS N (sgn * numVal r ds) v := by
  obtain ⟨h1, h2, h3⟩ := h
  by_cases hd : digitPart r ds = ds
  · rw [hd] at h1 h3
    by_cases hi : InS (w * N) (sgn * numVal r ds)
    · obtain ⟨u, rfl, hu⟩ := h3 hi rfl
      constructor
      · intro e
        cases e
        exact ⟨digitPart_eq_iff.1 hd, hu⟩
      · rintro ⟨_, hv⟩
        rw [hu.unique hv]
    · rw [h1 hi]
      constructor
      · intro e; cases e
      · rintro ⟨_, hv⟩
        exact absurd (by rw [← hv.2, ← hv.1]; exact toInt_InS v) hi
  · by_cases hi : InS (w * N) (sgn * numVal r (digitPart r ds))
    · rw [h2 hi hd]
      exact ⟨fun e => (by cases e), fun e => absurd (digitPart_eq_iff.2 e.1) hd⟩
    · rw [h1 hi]
      exact ⟨fun e => (by cases e), fun e => absurd (digitPart_eq_iff.2 e.1) hd⟩

theorem ReadsU.same {over : ErrKind} {ds ds' : List Byte} {p p' : Parsed (Limbs w)}
    (h : ReadsU N r over ds p) (h' : ReadsU N r over ds' p')
    (hn : numVal r (digitPart r ds') = numVal r (digitPart r ds))
    (hd : digitPart r ds' = ds' ↔ digitPart r ds = ds) : p' = p := by
  obtain ⟨h1, h2, h3⟩ := h
  obtain ⟨h1', h2', h3'⟩ := h'
  rw [hn] at h1' h2' h3'
  by_cases hi : InU (w * N) (numVal r (digitPart r ds))
  · by_cases he : digitPart r ds = ds
    · obtain ⟨u, rfl, hu⟩ := h3 hi he
      obtain ⟨u', rfl, hu'⟩ := h3' hi (hd.2 he)
      rw [hd.2 he, he] at hn
      rw [hn] at hu'
      rw [hu'.unique hu]
    · rw [h2 hi he, h2' hi (fun h => he (hd.1 h))]
  · rw [h1 hi, h1' hi]

theorem ReadsS.same {sgn : Int} {over : ErrKind} {ds ds' : List Byte} {p p' : Parsed (Limbs w)}
    (h : ReadsS N r sgn over ds p) (h' : ReadsS N r sgn over ds' p')
    (hn : numVal r (digitPart r ds') = numVal r (digitPart r ds))
    (hd : digitPart r ds' = ds' ↔ digitPart r ds = ds) : p' = p := by
  obtain ⟨h1, h2, h3⟩ := h
  obtain ⟨h1', h2', h3'⟩ := h'
  rw [hn] at h1' h2' h3'
  by_cases hi : InS (w * N) (sgn * numVal r (digitPart r ds))
  · by_cases he : digitPart r ds = ds
    · obtain ⟨u, rfl, hu⟩ := h3 hi he
      obtain ⟨u', rfl, hu'⟩ := h3' hi (hd.2 he)
      rw [hd.2 he, he] at hn
      rw [hn] at hu'
      rw [hu'.unique hu]
    · rw [h2 hi he, h2' hi (fun h => he (hd.1 h))]
  · rw [h1 hi, h1' hi]

theorem parsesU_cons {c : Byte} {t : List Byte} {p : Parsed (Limbs w)} :
    ParsesU N r (c :: t) p =
      if c = 43 then if t = [] then p = .err .invalidDigit else ReadsU N r .posOverflow t p
      else if c = 45 then p = .err .negOverflow
      else ReadsU N r .posOverflow (c :: t) p := rfl

theorem parsesS_cons {c : Byte} {t : List Byte} {p : Parsed (Limbs w)} :
    ParsesS N r (c :: t) p =
      if c = 43 then if t = [] then p = .err .invalidDigit else ReadsS N r 1 .posOverflow t p
      else if c = 45 then
        if t = [] then p = .err .invalidDigit else ReadsS N r (-1) .negOverflow t p
      else ReadsS N r 1 .posOverflow (c :: t) p := rfl

theorem parsesU_plain {ds : List Byte} {p : Parsed (Limbs w)} (hne : ds ≠ [])
    (h43 : ds.head? ≠ some 43) (h45 : ds.head? ≠ some 45) :
    ParsesU N r ds p = ReadsU N r .posOverflow ds p := by
  obtain ⟨c, t, rfl⟩ := List.exists_cons_of_ne_nil hne
  rw [parsesU_cons, if_neg (fun h => h43 (by rw [h]; rfl)), if_neg (fun h => h45 (by rw [h]; rfl))]

theorem parsesS_plain {ds : List Byte} {p : Parsed (Limbs w)} (hne : ds ≠ [])
    (h43 : ds.head? ≠ some 43) (h45 : ds.head? ≠ some 45) :
    ParsesS N r ds p = ReadsS N r 1 .posOverflow ds p := by
  obtain ⟨c, t, rfl⟩ := List.exists_cons_of_ne_nil hne
  rw [parsesS_cons, if_neg (fun h => h43 (by rw [h]; rfl)), if_neg (fun h => h45 (by rw [h]; rfl))]

/-! ## Case -/

theorem digitOf_lower (c : Byte) : digitOf (lowerByte c) = digitOf c := by
  have : ∀ c : Byte, digitOf (lowerByte c) = digitOf c := by decide +kernel
  exact this c

theorem isDigit_lower (c : Byte) : isDigit r (lowerByte c) = isDigit r c := by
  unfold isDigit
  rw [digitOf_lower]

theorem digitPart_lower (s : List Byte) :
    digitPart r (s.map lowerByte) = (digitPart r s).map lowerByte := by
  unfold digitPart
  rw [List.takeWhile_map]
  congr 1
  congr 1
  funext c
  exact isDigit_lower c

theorem numVal_lower (s : List Byte) : numVal r (s.map lowerByte) = numVal r s := by
  unfold numVal
  rw [List.map_map]
  congr 3
  funext c
  simp only [Function.comp_apply]
  rw [digitOf_lower]

theorem digitPart_lower_eq (s : List Byte) :
    digitPart r (s.map lowerByte) = s.map lowerByte ↔ digitPart r s = s := by
  rw [digitPart_eq_iff, digitPart_eq_iff]
  simp only [List.mem_map]
  constructor
  · intro h c hc
    rw [← isDigit_lower]
    exact h _ ⟨c, hc, rfl⟩
  · rintro h _ ⟨c, hc, rfl⟩
    rw [isDigit_lower]
    exact h c hc

theorem lower_sign (c k : Byte) (hk : k = 43 ∨ k = 45) : lowerByte c = k ↔ c = k := by
  have : ∀ c : Byte, (lowerByte c = 43 ↔ c = 43) ∧ (lowerByte c = 45 ↔ c = 45) := by decide +kernel
  rcases hk with rfl | rfl
  · exact (this c).1
  · exact (this c).2

/-! ## Leading zeros -/

theorem isDigit_zero (hr : 2 ≤ r) : isDigit r 48#8 = true := by
  have : digitOf 48#8 = some 0 := by decide
  unfold isDigit
  rw [this]
  simp
  omega

theorem digitPart_zero (hr : 2 ≤ r) (s : List Byte) :
    digitPart r (48#8 :: s) = 48#8 :: digitPart r s := digitPart_cons s (isDigit_zero hr)

theorem numVal_zero (s : List Byte) : numVal r (48#8 :: s) = numVal r s := by
  have : digitOf 48#8 = some 0 := by decide
  unfold numVal
  rw [List.map_cons, List.reverse_cons, this, Nat.ofDigits_append]
  simp

theorem numVal_zero_dropLast (q : List Byte) :
    numVal r (48#8 :: q).dropLast = numVal r q.dropLast := by
  cases q with
  | nil => rfl
  | cons c q => rw [List.dropLast_cons_of_ne_nil (by simp), numVal_zero]

theorem digitPart_zeros (hr : 2 ≤ r) (k : Nat) (s : List Byte) :
    digitPart r (List.replicate k 48#8 ++ s) = List.replicate k 48#8 ++ digitPart r s := by
  induction k with
  | zero => rfl
  | succ k ih => rw [List.replicate_succ, List.cons_append, digitPart_zero hr, ih, List.cons_append]

theorem numVal_zeros (k : Nat) (s : List Byte) :
    numVal r (List.replicate k 48#8 ++ s) = numVal r s := by
  induction k with
  | zero => rfl
  | succ k ih => rw [List.replicate_succ, List.cons_append, numVal_zero, ih]

theorem numVal_zeros_dropLast (k : Nat) (s : List Byte) :
    numVal r (List.replicate k 48#8 ++ s).dropLast = numVal r s.dropLast := by
  induction k with
  | zero => rfl
  | succ k ih => rw [List.replicate_succ, List.cons_append, numVal_zero_dropLast, ih]

theorem zeros_head (k : Nat) {ds : List Byte} {c : Byte} (h : ds.head? ≠ some c) (hc : c ≠ 48#8) :
    (List.replicate k 48#8 ++ ds).head? ≠ some c := by
  cases k with
  | zero => exact h
  | succ k =>
    rw [List.replicate_succ, List.cons_append, List.head?_cons]
    intro e
    injection e with e
    exact hc e.symm

end I256
