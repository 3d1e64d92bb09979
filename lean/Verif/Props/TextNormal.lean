import Verif.Lemmas.TextNormal
import Verif.Props.Parse
import Verif.Props.Write

/-!
# C75: which texts are accepted, what they mean, and their normal form
-/

namespace I256

open Sample

variable {w N : Nat} {radix : BitVec 32}

/-- The text after an optional `+`. -/
def afterPlus (s : List Byte) : List Byte := if s.head? = some 43 then s.tail else s

/-- The text after an optional `+` or `-`. -/
def afterSign (s : List Byte) : List Byte :=
  if s.head? = some 43 ∨ s.head? = some 45 then s.tail else s

/-- The number denoted by a text with optional sign. -/
def signedVal (r : Nat) (s : List Byte) : Int :=
  if s.head? = some 45 then -(numVal r s.tail : Int) else numVal r (afterSign s)

/-- C75: unsigned `from_str_radix` returns a number exactly for the nonempty texts that consist of
digits after an optional `+` and whose value is in range, and it returns that value. -/
theorem C75_uint_accepts (hw : w = 32 ∨ w = 64) (hN : 4 ≤ N) (hr : 2 ≤ radix.toNat)
    (hr' : radix.toNat ≤ 36) (s : List Byte) (v : Limbs w) :
    U.fromStrRadix N s radix = .ok (.ok v) ↔
      s ≠ [] ∧ (∀ c ∈ afterPlus s, isDigit radix.toNat c = true) ∧
        ExactU N (numVal radix.toNat (afterPlus s)) v := by
  by_cases hs : s = ascii "+"
  · subst hs
    rw [(C29_sign_only_partial hr hr').1]
    have h0 := ofU8_zero (w := w) N (by omega)
    have e : afterPlus (ascii "+") = [] := by decide
    rw [e]
    constructor
    · intro h
      cases h
      exact ⟨by decide, by simp, h0⟩
    · rintro ⟨_, _, h⟩
      rw [h0.unique h]
  obtain ⟨p, e, hp⟩ := C29_uint_from_str_radix_partial (w := w) hw hN hr hr' s hs
  rw [e]
  have inj : (Res.ok p = .ok (.ok v)) ↔ p = .ok v := ⟨fun h => by cases h; rfl, fun h => by rw [h]⟩
  rw [inj]
  match s with
  | [] =>
    rw [show p = .err .empty from hp]
    simp
  | c :: t =>
    rw [parsesU_cons] at hp
    by_cases h43 : c = 43
    · subst h43
      have ht : t ≠ [] := by
        intro h
        rw [h] at hs
        exact hs (by decide)
      rw [if_pos rfl, if_neg ht] at hp
      rw [hp.accept]
      simp [afterPlus]
    · rw [if_neg h43] at hp
      have ea : afterPlus (c :: t) = c :: t := by simp [afterPlus, show ¬ c = 43#8 from h43]
      rw [ea]
      by_cases h45 : c = 45
      · rw [if_pos h45] at hp
        rw [hp]
        refine ⟨fun h => (by cases h), fun h => ?_⟩
        have := h.2.1 c (by simp)
        rw [h45, isDigit, show digitOf 45 = none by decide] at this
        simp at this
      · rw [if_neg h45] at hp
        rw [hp.accept]
        simp

example := C75_uint_accepts (w := 64) (N := 4) (radix := 16) (Or.inr rfl) (by decide) (by decide)
  (by decide) (ascii "+00fF") [255, 0, 0, 0]

/-- C75: signed `from_str_radix` returns a number exactly for the nonempty texts that consist of digits
after an optional sign and whose value is in range, and it returns that value; the texts in the gap are
accepted although they are below the range, with the value plus `2^BITS`. -/
theorem C75_int_accepts (hw : w = 32 ∨ w = 64) (hN : 4 ≤ N) (hr : 2 ≤ radix.toNat)
    (hr' : radix.toNat ≤ 36) (s : List Byte) (v : Limbs w) :
    (¬ GapText w N radix.toNat s → (I.fromStrRadix N s radix = .ok (.ok v) ↔
      s ≠ [] ∧ (∀ c ∈ afterSign s, isDigit radix.toNat c = true) ∧
        ExactS N (signedVal radix.toNat s) v)) ∧
    (GapText w N radix.toNat s → (I.fromStrRadix N s radix = .ok (.ok v) ↔
      (∀ c ∈ afterSign s, isDigit radix.toNat c = true) ∧
        ExactS N (signedVal radix.toNat s + 2 ^ (w * N)) v)) := by
  have inj : ∀ p : Parsed (Limbs w), (Res.ok p = .ok (.ok v)) ↔ p = .ok v :=
    fun p => ⟨fun h => by cases h; rfl, fun h => by rw [h]⟩
  constructor
  · intro hg
    by_cases hs : s = ascii "+" ∨ s = ascii "-"
    · have h0 : ExactS N 0 (ofU8 N 0 : Limbs w) := by
        have := ofU8S (w := w) (N := N) (v := 0) (by omega) (by omega) (by positivity)
        simpa using this
      have e : afterSign s = [] ∧ signedVal radix.toNat s = 0 ∧ s ≠ [] := by
        rcases hs with rfl | rfl <;> simp [afterSign, signedVal, ascii, numVal]
      have e' : I.fromStrRadix N s radix = .ok (.ok (ofU8 N 0 : Limbs w)) := by
        rcases hs with rfl | rfl
        · exact (C29_sign_only_partial hr hr').2.1
        · exact (C29_sign_only_partial hr hr').2.2
      rw [e', e.1, e.2.1]
      constructor
      · intro h
        cases h
        exact ⟨e.2.2, by simp, h0⟩
      · rintro ⟨_, _, h⟩
        rw [h0.unique h]
    obtain ⟨p, e, hp⟩ := C29_int_from_str_radix_partial (w := w) hw hN hr hr' s
      (fun h => hs (Or.inl h)) (fun h => hs (Or.inr h)) hg
    rw [e, inj]
    match s with
    | [] =>
      rw [show p = .err .empty from hp]
      simp
    | c :: t =>
      rw [parsesS_cons] at hp
      by_cases h43 : c = 43
      · subst h43
        have ht : t ≠ [] := by
          intro h
          rw [h] at hs
          exact hs (Or.inl (by decide))
        rw [if_pos rfl, if_neg ht] at hp
        rw [hp.accept]
        simp [afterSign, signedVal]
      · rw [if_neg h43] at hp
        by_cases h45 : c = 45
        · subst h45
          have ht : t ≠ [] := by
            intro h
            rw [h] at hs
            exact hs (Or.inr (by decide))
          rw [if_pos rfl, if_neg ht] at hp
          rw [hp.accept]
          simp [afterSign, signedVal]
        · rw [if_neg h45] at hp
          rw [hp.accept]
          simp [afterSign, signedVal, show ¬ c = 43#8 from h43, show ¬ c = 45#8 from h45]
  · rintro hg
    obtain ⟨t, rfl, hg'⟩ := id hg
    obtain ⟨_, h1, h2⟩ := C29_int_gap_partial (w := w) hw hN hr hr' t hg
    have ea : afterSign (45 :: t) = t := by simp [afterSign]
    have es : signedVal radix.toNat (45 :: t) + 2 ^ (w * N) = 2 ^ (w * N) - (numVal radix.toNat t : Int) := by
      simp [signedVal]; omega
    rw [ea, es]
    by_cases hd : digitPart radix.toNat t = t
    · obtain ⟨u, e, hu⟩ := h2 hd
      rw [e, inj]
      constructor
      · intro h
        cases h
        exact ⟨digitPart_eq_iff.1 hd, hu⟩
      · rintro ⟨_, h⟩
        rw [hu.unique h]
    · rw [h1 hd, inj]
      exact ⟨fun h => (by cases h), fun h => absurd (digitPart_eq_iff.2 h.1) hd⟩

example := (C75_int_accepts (w := 64) (N := 4) (radix := 10) (Or.inr rfl) (by decide) (by decide)
  (by decide) (ascii "+007") [7, 0, 0, 0]).1 (by rintro ⟨t, h, _⟩; cases h)
example : signedVal 10 (ascii "-12") = -12 ∧ signedVal 10 (ascii "+12") = 12 := by decide

/-- C75: an accepted text, written out again in the same base, becomes the canonical numeral of its
value; and two accepted texts give the same number iff their values are the same. -/
theorem C75_uint_normal (hw : w = 32 ∨ w = 64) (hN : 4 ≤ N) (he : N % 2 = 0) (hr : 2 ≤ radix.toNat)
    (hr' : radix.toNat ≤ 36) (oc : Bool) (len : Nat) (hlen : w * N ≤ len) {s s' : List Byte}
    {v v' : Limbs w} (h : U.fromStrRadix N s radix = .ok (.ok v))
    (h' : U.fromStrRadix N s' radix = .ok (.ok v')) :
    U.toStrRadix oc len v radix = .ok (numeral radix.toNat (numVal radix.toNat (afterPlus s))) ∧
    (v = v' ↔ numVal radix.toNat (afterPlus s) = numVal radix.toNat (afterPlus s')) := by
  obtain ⟨_, _, l, e⟩ := (C75_uint_accepts hw hN hr hr' s v).1 h
  obtain ⟨_, _, l', e'⟩ := (C75_uint_accepts hw hN hr hr' s' v').1 h'
  refine ⟨?_, ?_, ?_⟩
  · rw [C30_uint_to_str_radix hw (by omega) (by omega) hr hr' oc len (by rw [bits, l]; exact hlen)]
    rw [show toNat v = numVal radix.toNat (afterPlus s) by omega]
  · rintro rfl
    omega
  · intro hn
    exact toNat_inj (l.trans l'.symm) (by omega)

example := C75_uint_normal (w := 64) (N := 4) (radix := 10) (Or.inr rfl) (by decide) (by decide)
  (by decide) (by decide) true 256 (by decide) (s := ascii "+007") (s' := ascii "7")
  (v := [7, 0, 0, 0]) (v' := [7, 0, 0, 0]) (by decide +kernel) (by decide +kernel)

/-- C75: a decimal text accepted by `FromStr` of the signed types, outside the gap, is displayed as the
canonical numeral of its value. -/
theorem C75_int_normal (hw : w = 32 ∨ w = 64) (hN : 4 ≤ N) (he : N % 2 = 0) (hB : 128 ≤ w * N)
    (oc p32 : Bool) {s : List Byte} {v : Limbs w} (hg : ¬ GapText w N 10 s)
    (h : I.fromStr p32 N s = .ok (.ok v)) :
    I.fmtDisplay oc {} v = .ok (numeralS 10 (signedVal 10 s)) := by
  obtain ⟨p, e, hp⟩ := C29_int_from_str_partial (w := w) hw hN hB p32 s (fun _ => hg)
  rw [e] at h
  have hv : ExactS N (signedVal 10 s) v := by
    cases h
    match s with
    | [] => exact absurd hp (by simp [ParsesS])
    | c :: t =>
      rw [parsesS_cons] at hp
      by_cases h43 : c = 43
      · subst h43
        rw [if_pos rfl] at hp
        by_cases ht : t = []
        · rw [if_pos ht] at hp; cases hp
        · rw [if_neg ht] at hp
          have := (hp.accept.1 rfl).2
          simpa [afterSign, signedVal] using this
      · rw [if_neg h43] at hp
        by_cases h45 : c = 45
        · subst h45
          rw [if_pos rfl] at hp
          by_cases ht : t = []
          · rw [if_pos ht] at hp; cases hp
          · rw [if_neg ht] at hp
            have := (hp.accept.1 rfl).2
            simpa [afterSign, signedVal] using this
        · rw [if_neg h45] at hp
          have := (hp.accept.1 rfl).2
          simpa [afterSign, signedVal, show ¬ c = 43#8 from h43, show ¬ c = 45#8 from h45] using this
  rw [(C30_int_fmt hw (by rw [hv.1]; exact hN) (by rw [hv.1]; exact he) oc).1, hv.2]

example := C75_int_normal (w := 64) (N := 4) (Or.inr rfl) (by decide) (by decide) (by decide) true false
  (s := ascii "+007") (v := [7, 0, 0, 0]) (by rintro ⟨t, h, _⟩; cases h)
  (by decide +kernel)

/-- C75: letters are read the same in both cases, for every text, accepted or not. -/
theorem C75_case (hw : w = 32 ∨ w = 64) (hN : 4 ≤ N) (hr : 2 ≤ radix.toNat)
    (hr' : radix.toNat ≤ 36) (s : List Byte) :
    (U.fromStrRadix N (s.map lowerByte) radix : Res (Parsed (Limbs w))) = U.fromStrRadix N s radix ∧
    (I.fromStrRadix N (s.map lowerByte) radix : Res (Parsed (Limbs w))) = I.fromStrRadix N s radix := by
  match s with
  | [] => exact ⟨rfl, rfl⟩
  | c :: t =>
    by_cases hone : t = [] ∧ (c = 43 ∨ c = 45)
    · obtain ⟨rfl, rfl | rfl⟩ := hone <;> exact ⟨rfl, rfl⟩
    have h43 := lower_sign c 43 (Or.inl rfl)
    have h45 := lower_sign c 45 (Or.inr rfl)
    have ht : t.map lowerByte = [] ↔ t = [] := List.map_eq_nil_iff
    constructor
    · obtain ⟨p, e, hp⟩ := C29_uint_from_str_radix_partial (w := w) hw hN hr hr' (c :: t)
        (fun h => by rw [show ascii "+" = [43] by decide] at h; injection h with h1 h2
                     exact hone ⟨h2, Or.inl h1⟩)
      obtain ⟨p', e', hp'⟩ := C29_uint_from_str_radix_partial (w := w) hw hN hr hr'
        ((c :: t).map lowerByte)
        (fun h => by rw [show ascii "+" = [43] by decide, List.map_cons] at h; injection h with h1 h2
                     exact hone ⟨ht.1 h2, Or.inl (h43.1 h1)⟩)
      rw [e, e']
      congr 1
      rw [List.map_cons] at hp'
      rw [parsesU_cons] at hp hp'
      simp only [h43, h45, ht] at hp'
      have n1 := fun u : List Byte => digitPart_lower (r := radix.toNat) u
      by_cases a1 : c = 43
      · rw [if_pos a1] at hp hp'
        by_cases a2 : t = []
        · exact absurd ⟨a2, Or.inl a1⟩ hone
        · rw [if_neg a2] at hp hp'
          exact hp.same hp' (by rw [n1, numVal_lower]) (digitPart_lower_eq t)
      · rw [if_neg a1] at hp hp'
        by_cases a2 : c = 45
        · rw [if_pos a2] at hp hp'
          rw [hp, hp']
        · rw [if_neg a2] at hp hp'
          rw [← List.map_cons] at hp'
          exact hp.same hp' (by rw [n1, numVal_lower]) (digitPart_lower_eq _)
    · have n1 := fun u : List Byte => digitPart_lower (r := radix.toNat) u
      have gap : GapText w N radix.toNat ((c :: t).map lowerByte) ↔ GapText w N radix.toNat (c :: t) := by
        unfold GapText
        constructor
        · rintro ⟨u, hu, hg⟩
          rw [List.map_cons] at hu
          injection hu with u1 u2
          refine ⟨t, by rw [h45.1 u1], ?_⟩
          rwa [← u2, n1, ← List.map_dropLast, numVal_lower] at hg
        · rintro ⟨u, hu, hg⟩
          injection hu with u1 u2
          refine ⟨t.map lowerByte, by rw [List.map_cons, h45.2 u1], ?_⟩
          rwa [n1, ← List.map_dropLast, numVal_lower, u2]
      by_cases hg : GapText w N radix.toNat (c :: t)
      · have hg' := gap.2 hg
        obtain ⟨u, hu, _⟩ := id hg
        injection hu with u1 u2
        subst u1
        have e1 : ((45 : Byte) :: t).map lowerByte = 45 :: t.map lowerByte := by
          rw [List.map_cons, h45.2 rfl]
        rw [e1] at hg' ⊢
        obtain ⟨_, g1, g2⟩ := C29_int_gap_partial (w := w) hw hN hr hr' t hg
        obtain ⟨_, g1', g2'⟩ := C29_int_gap_partial (w := w) hw hN hr hr' _ hg'
        by_cases hd : digitPart radix.toNat t = t
        · obtain ⟨v, ev, hv⟩ := g2 hd
          obtain ⟨v', ev', hv'⟩ := g2' ((digitPart_lower_eq t).2 hd)
          rw [numVal_lower] at hv'
          rw [ev, ev', hv.unique hv']
        · rw [g1 hd, g1' (fun h => hd ((digitPart_lower_eq t).1 h))]
      obtain ⟨p, e, hp⟩ := C29_int_from_str_radix_partial (w := w) hw hN hr hr' (c :: t)
        (fun h => by rw [show ascii "+" = [43] by decide] at h; injection h with h1 h2
                     exact hone ⟨h2, Or.inl h1⟩)
        (fun h => by rw [show ascii "-" = [45] by decide] at h; injection h with h1 h2
                     exact hone ⟨h2, Or.inr h1⟩) hg
      obtain ⟨p', e', hp'⟩ := C29_int_from_str_radix_partial (w := w) hw hN hr hr'
        ((c :: t).map lowerByte)
        (fun h => by rw [show ascii "+" = [43] by decide, List.map_cons] at h; injection h with h1 h2
                     exact hone ⟨ht.1 h2, Or.inl (h43.1 h1)⟩)
        (fun h => by rw [show ascii "-" = [45] by decide, List.map_cons] at h; injection h with h1 h2
                     exact hone ⟨ht.1 h2, Or.inr (h45.1 h1)⟩) (fun h => hg (gap.1 h))
      rw [e, e']
      congr 1
      rw [List.map_cons] at hp'
      rw [parsesS_cons] at hp hp'
      simp only [h43, h45, ht] at hp'
      by_cases a1 : c = 43
      · rw [if_pos a1] at hp hp'
        by_cases a2 : t = []
        · exact absurd ⟨a2, Or.inl a1⟩ hone
        · rw [if_neg a2] at hp hp'
          exact hp.same hp' (by rw [n1, numVal_lower]) (digitPart_lower_eq t)
      · rw [if_neg a1] at hp hp'
        by_cases a2 : c = 45
        · rw [if_pos a2] at hp hp'
          by_cases a3 : t = []
          · exact absurd ⟨a3, Or.inr a2⟩ hone
          · rw [if_neg a3] at hp hp'
            exact hp.same hp' (by rw [n1, numVal_lower]) (digitPart_lower_eq t)
        · rw [if_neg a2] at hp hp'
          rw [← List.map_cons] at hp'
          exact hp.same hp' (by rw [n1, numVal_lower]) (digitPart_lower_eq _)

example := C75_case (w := 64) (N := 4) (radix := 36) (Or.inr rfl) (by decide) (by decide) (by decide)
  (ascii "-Zz!")
example : U.fromStrRadix 4 (ascii "aB") 16 = .ok (.ok ([171, 0, 0, 0] : Limbs 64)) ∧
    U.fromStrRadix 4 (ascii "Ab") 16 = .ok (.ok ([171, 0, 0, 0] : Limbs 64)) := by decide +kernel

/-- C75: zeros before the first digit change nothing: a nonempty text without a sign gives the same
result, number or error, with any number of zeros before it, and so does the text after a sign. -/
theorem C75_zeros (hw : w = 32 ∨ w = 64) (hN : 4 ≤ N) (hr : 2 ≤ radix.toNat)
    (hr' : radix.toNat ≤ 36) (k : Nat) (ds : List Byte) (hne : ds ≠ []) (h43 : ds.head? ≠ some 43)
    (h45 : ds.head? ≠ some 45) :
    (U.fromStrRadix N (List.replicate k 48#8 ++ ds) radix : Res (Parsed (Limbs w)))
      = U.fromStrRadix N ds radix ∧
    (U.fromStrRadix N (43 :: (List.replicate k 48#8 ++ ds)) radix : Res (Parsed (Limbs w)))
      = U.fromStrRadix N ds radix ∧
    (I.fromStrRadix N (List.replicate k 48#8 ++ ds) radix : Res (Parsed (Limbs w)))
      = I.fromStrRadix N ds radix ∧
    (I.fromStrRadix N (43 :: (List.replicate k 48#8 ++ ds)) radix : Res (Parsed (Limbs w)))
      = I.fromStrRadix N ds radix ∧
    (I.fromStrRadix N (45 :: (List.replicate k 48#8 ++ ds)) radix : Res (Parsed (Limbs w)))
      = I.fromStrRadix N (45 :: ds) radix := by
  have hzne : List.replicate k 48#8 ++ ds ≠ [] := by simp [hne]
  have z43 := zeros_head k h43 (by decide)
  have z45 := zeros_head k h45 (by decide)
  have hn : numVal radix.toNat (digitPart radix.toNat (List.replicate k 48#8 ++ ds))
      = numVal radix.toNat (digitPart radix.toNat ds) := by
    rw [digitPart_zeros hr, numVal_zeros]
  have hd : digitPart radix.toNat (List.replicate k 48#8 ++ ds) = List.replicate k 48#8 ++ ds ↔
      digitPart radix.toNat ds = ds := by
    rw [digitPart_zeros hr, List.append_cancel_left_eq]
  have sg : ∀ {l : List Byte} {c : Byte}, l ≠ [] → c :: l ≠ [c] := by
    intro l c hl h
    injection h with _ h
    exact hl h
  have pl : ∀ {l : List Byte} {c : Byte}, l.head? ≠ some c → l ≠ [c] := by
    rintro l c hl rfl
    exact hl rfl
  have a43 : ascii "+" = [43] := by decide
  have a45 : ascii "-" = [45] := by decide
  have ng : ∀ {l : List Byte}, l.head? ≠ some 45 → ¬ GapText w N radix.toNat l := by
    rintro l hl ⟨t, rfl, _⟩
    exact hl rfl
  generalize hZ : List.replicate k 48#8 ++ ds = Z at *
  refine ⟨?_, ?_, ?_, ?_, ?_⟩
  · obtain ⟨p, e, hp⟩ := C29_uint_from_str_radix_partial (w := w) hw hN hr hr' ds (a43 ▸ pl h43)
    obtain ⟨p', e', hp'⟩ := C29_uint_from_str_radix_partial (w := w) hw hN hr hr' Z (a43 ▸ pl z43)
    rw [parsesU_plain hne h43 h45] at hp
    rw [parsesU_plain hzne z43 z45] at hp'
    rw [e, e', hp.same hp' hn hd]
  · obtain ⟨p, e, hp⟩ := C29_uint_from_str_radix_partial (w := w) hw hN hr hr' ds (a43 ▸ pl h43)
    obtain ⟨p', e', hp'⟩ := C29_uint_from_str_radix_partial (w := w) hw hN hr hr' (43 :: Z)
      (a43 ▸ sg hzne)
    rw [parsesU_plain hne h43 h45] at hp
    rw [parsesU_cons, if_pos rfl, if_neg hzne] at hp'
    rw [e, e', hp.same hp' hn hd]
  · obtain ⟨p, e, hp⟩ := C29_int_from_str_radix_partial (w := w) hw hN hr hr' ds (a43 ▸ pl h43)
      (a45 ▸ pl h45) (ng h45)
    obtain ⟨p', e', hp'⟩ := C29_int_from_str_radix_partial (w := w) hw hN hr hr' Z (a43 ▸ pl z43)
      (a45 ▸ pl z45) (ng z45)
    rw [parsesS_plain hne h43 h45] at hp
    rw [parsesS_plain hzne z43 z45] at hp'
    rw [e, e', hp.same hp' hn hd]
  · obtain ⟨p, e, hp⟩ := C29_int_from_str_radix_partial (w := w) hw hN hr hr' ds (a43 ▸ pl h43)
      (a45 ▸ pl h45) (ng h45)
    obtain ⟨p', e', hp'⟩ := C29_int_from_str_radix_partial (w := w) hw hN hr hr' (43 :: Z)
      (a43 ▸ sg hzne) (a45 ▸ by simp) (ng (by simp))
    rw [parsesS_plain hne h43 h45] at hp
    rw [parsesS_cons, if_pos rfl, if_neg hzne] at hp'
    rw [e, e', hp.same hp' hn hd]
  · have gap : GapText w N radix.toNat (45 :: Z) ↔ GapText w N radix.toNat (45 :: ds) := by
      have : numVal radix.toNat (digitPart radix.toNat Z).dropLast
          = numVal radix.toNat (digitPart radix.toNat ds).dropLast := by
        rw [← hZ, digitPart_zeros hr, numVal_zeros_dropLast]
      unfold GapText
      constructor
      · rintro ⟨t, ht, hg⟩
        injection ht with _ ht
        exact ⟨ds, rfl, by rwa [← ht, this] at hg⟩
      · rintro ⟨t, ht, hg⟩
        injection ht with _ ht
        exact ⟨Z, rfl, by rwa [← ht, ← this] at hg⟩
    by_cases hg : GapText w N radix.toNat (45 :: ds)
    · obtain ⟨_, g1, g2⟩ := C29_int_gap_partial (w := w) hw hN hr hr' ds hg
      obtain ⟨_, g1', g2'⟩ := C29_int_gap_partial (w := w) hw hN hr hr' Z (gap.2 hg)
      by_cases hds : digitPart radix.toNat ds = ds
      · obtain ⟨v, ev, hv⟩ := g2 hds
        obtain ⟨v', ev', hv'⟩ := g2' (hd.2 hds)
        rw [hd.2 hds, hds] at hn
        rw [hn] at hv'
        rw [ev, ev', hv.unique hv']
      · rw [g1 hds, g1' (fun h => hds (hd.1 h))]
    · obtain ⟨p, e, hp⟩ := C29_int_from_str_radix_partial (w := w) hw hN hr hr' (45 :: ds)
        (a43 ▸ by simp) (a45 ▸ sg hne) hg
      obtain ⟨p', e', hp'⟩ := C29_int_from_str_radix_partial (w := w) hw hN hr hr' (45 :: Z)
        (a43 ▸ by simp) (a45 ▸ sg hzne) (fun h => hg (gap.1 h))
      rw [parsesS_cons, if_neg (by decide), if_pos rfl, if_neg hne] at hp
      rw [parsesS_cons, if_neg (by decide), if_pos rfl, if_neg hzne] at hp'
      rw [e, e', hp.same hp' hn hd]

example := C75_zeros (w := 64) (N := 4) (radix := 10) (Or.inr rfl) (by decide) (by decide) (by decide)
  100 (ascii "12") (by decide) (by decide) (by decide)
example : I.fromStrRadix 4 (ascii "-0012") 10 = I.fromStrRadix (w := 64) 4 (ascii "-12") 10 ∧
    I.fromStrRadix (w := 64) 4 (ascii "0+12") 10 ≠ I.fromStrRadix 4 (ascii "+12") 10 := by decide +kernel

end I256
