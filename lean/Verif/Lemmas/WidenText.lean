import Verif.Lemmas.Widen
import Verif.Lemmas.Same

/-!
# Parsing into types of different widths
-/

namespace I256

variable {w v N M : Nat}

namespace Widen

theorem readsU {r : Nat} {over : ErrKind} {ds : List Byte} {a : Parsed (Limbs w)} {b : Parsed (Limbs v)}
    (hN : w * N ≤ v * M) (ha : ReadsU N r over ds a) (hb : ReadsU M r over ds b) :
    NarrowParsed EqU (FitsU (w * N)) over a b := by
  by_cases h : InU (w * N) (numVal r (digitPart r ds))
  · by_cases hd : digitPart r ds = ds
    · obtain ⟨p, rfl, hp⟩ := ha.2.2 h hd
      obtain ⟨q, rfl, hq⟩ := hb.2.2 (h.mono hN) hd
      exact exactU hp hq rfl
    · rw [ha.2.1 h hd, hb.2.1 (h.mono hN) hd]
      exact .inl rfl
  · rw [ha.1 h]
    by_cases h' : InU (v * M) (numVal r (digitPart r ds))
    · by_cases hd : digitPart r ds = ds
      · obtain ⟨q, rfl, hq⟩ := hb.2.2 h' hd
        refine ⟨rfl, ?_⟩
        rwa [FitsU, hq.2, ← hd]
      · rw [hb.2.1 h' hd]
        exact .inr rfl
    · rw [hb.1 h']
      exact .inl rfl

theorem readsS {r : Nat} {sgn : Int} {over : ErrKind} {ds : List Byte} {a : Parsed (Limbs w)}
    {b : Parsed (Limbs v)} (hN : w * N ≤ v * M) (ha : ReadsS N r sgn over ds a)
    (hb : ReadsS M r sgn over ds b) : NarrowParsed EqS (FitsS (w * N)) over a b := by
  by_cases h : InS (w * N) (sgn * numVal r (digitPart r ds))
  · by_cases hd : digitPart r ds = ds
    · obtain ⟨p, rfl, hp⟩ := ha.2.2 h hd
      obtain ⟨q, rfl, hq⟩ := hb.2.2 (h.mono hN) hd
      exact exactS hp hq rfl
    · rw [ha.2.1 h hd, hb.2.1 (h.mono hN) hd]
      exact .inl rfl
  · rw [ha.1 h]
    by_cases h' : InS (v * M) (sgn * numVal r (digitPart r ds))
    · by_cases hd : digitPart r ds = ds
      · obtain ⟨q, rfl, hq⟩ := hb.2.2 h' hd
        refine ⟨rfl, ?_⟩
        rwa [FitsS, hq.2, ← hd]
      · rw [hb.2.1 h' hd]
        exact .inr rfl
    · rw [hb.1 h']
      exact .inl rfl

theorem parsesU {r : Nat} {s : List Byte} {a : Parsed (Limbs w)} {b : Parsed (Limbs v)}
    (hN : w * N ≤ v * M) (ha : ParsesU N r s a) (hb : ParsesU M r s b) :
    NarrowParsed EqU (FitsU (w * N)) .posOverflow a b := by
  cases s with
  | nil => cases ha; cases hb; exact .inl rfl
  | cons c t =>
    simp only [ParsesU] at ha hb
    split at ha
    · rename_i hc
      rw [if_pos hc] at hb
      split at ha
      · rename_i ht
        rw [if_pos ht] at hb
        cases ha; cases hb; exact .inl rfl
      · rename_i ht
        rw [if_neg ht] at hb
        exact readsU hN ha hb
    · rename_i hc
      rw [if_neg hc] at hb
      split at ha
      · rename_i ht
        rw [if_pos ht] at hb
        cases ha; cases hb; exact .inl rfl
      · rename_i ht
        rw [if_neg ht] at hb
        exact readsU hN ha hb

theorem parsesS {r : Nat} {s : List Byte} {a : Parsed (Limbs w)} {b : Parsed (Limbs v)}
    (hN : w * N ≤ v * M) (ha : ParsesS N r s a) (hb : ParsesS M r s b) :
    NarrowParsed EqS (FitsS (w * N)) (if s.head? = some 45 then .negOverflow else .posOverflow) a b := by
  cases s with
  | nil => cases ha; cases hb; exact .inl rfl
  | cons c t =>
    simp only [ParsesS] at ha hb
    simp only [List.head?_cons, Option.some.injEq]
    split at ha
    · rename_i hc
      rw [if_pos hc] at hb
      rw [if_neg (by rw [hc]; decide)]
      split at ha
      · rename_i ht
        rw [if_pos ht] at hb
        cases ha; cases hb; exact .inl rfl
      · rename_i ht
        rw [if_neg ht] at hb
        exact readsS hN ha hb
    · rename_i hc
      rw [if_neg hc] at hb
      split at ha
      · rename_i ht
        rw [if_pos ht] at hb
        rw [if_pos ht]
        split at ha
        · rename_i hn
          rw [if_pos hn] at hb
          cases ha; cases hb; exact .inl rfl
        · rename_i hn
          rw [if_neg hn] at hb
          exact readsS hN ha hb
      · rename_i ht
        rw [if_neg ht] at hb
        rw [if_neg ht]
        exact readsS hN ha hb

end Widen

end I256
