import Verif.Props.Endian
import Verif.Props.Ord

/-!
# C74: big-endian byte strings are ordered like the numbers

`<` on lists is the lexicographic order: the first element that differs decides.
-/

namespace I256

open Sample Endian

variable {w : Nat} {x y : Limbs w} {be : Bool}

private theorem lex_iff {A B : List (BitVec 8)} (hl : A.length = B.length) :
    A < B ↔ toNat A.reverse < toNat B.reverse := by
  induction A generalizing B with
  | nil =>
    obtain rfl : B = [] := List.length_eq_zero_iff.1 hl.symm
    simp
  | cons p A ih =>
    obtain ⟨q, B, rfl⟩ := List.exists_cons_of_length_pos (l := B) (by rw [← hl]; simp)
    have hl' : A.length = B.length := by simpa using hl
    rw [List.cons_lt_cons_iff, ih hl', List.reverse_cons, List.reverse_cons, toNat_append,
      toNat_append]
    have hb : bits B.reverse = bits A.reverse := bits_eq_of_length (by simp [hl'])
    have h1 := toNat_lt A.reverse
    have h2 := toNat_lt B.reverse
    rw [hb] at h2 ⊢
    simp only [toNat_cons, toNat, Nat.mul_zero, Nat.add_zero]
    have e : p = q ↔ p.toNat = q.toNat := ⟨congrArg _, BitVec.eq_of_toNat_eq⟩
    rw [e, BitVec.lt_def]
    generalize p.toNat = P
    generalize q.toNat = Q
    generalize 2 ^ bits A.reverse = M at *
    rcases Nat.lt_trichotomy P Q with h | h | h
    · have : M * (P + 1) ≤ M * Q := Nat.mul_le_mul_left _ h
      rw [Nat.mul_add] at this
      constructor
      · intro _; omega
      · intro _; exact Or.inl h
    · subst h
      constructor
      · rintro (h | h) <;> omega
      · intro h; exact Or.inr ⟨rfl, by omega⟩
    · have : M * (Q + 1) ≤ M * P := Nat.mul_le_mul_left _ h
      rw [Nat.mul_add] at this
      constructor
      · rintro (h | h) <;> omega
      · intro h; omega

/-- C74: unsigned numbers are ordered like their big-endian byte strings, and equal iff the strings are
equal; the comparison operators of the crate agree. -/
theorem C74_uint (h8 : 8 ∣ w) (hw : 0 < w) (hl : x.length = y.length) (h2 : x.length % 2 = 0)
    (hx : 2 ≤ x.length) :
    (toBeBytes be x < toBeBytes be y ↔ toNat x < toNat y) ∧
    (toBeBytes be x = toBeBytes be y ↔ toNat x = toNat y) ∧
    (Ord.lt false x y = true ↔ toBeBytes be x < toBeBytes be y) := by
  have hv : ∀ z : Limbs w, toNat (toBeBytes be z).reverse = toNat z := fun z =>
    (C25_to_bytes_value h8).2.2
  have hlen : ∀ z : Limbs w, (toBeBytes be z).length = w / 8 * z.length := fun z => by
    rw [toBeBytes_eq h8, List.length_reverse, memBytes_length]
  have h1 : toBeBytes be x < toBeBytes be y ↔ toNat x < toNat y := by
    rw [lex_iff (by rw [hlen, hlen, hl]), hv, hv]
  refine ⟨h1, ⟨fun h => ?_, fun h => ?_⟩, ?_⟩
  · rw [← hv x, ← hv y, h]
  · rw [toNat_inj hl h]
  · rw [h1, Ord.lt_iff hw false hl h2 hx]
    simp [Ord.val]

example := C74_uint (x := Sample.a) (y := ones) (be := false) (by decide) (by decide) (by decide)
  (by decide) (by decide)
example : toBeBytes false ([0x100, 0, 0, 0] : Limbs 64) < toBeBytes false ([0x101, 0, 0, 0] : Limbs 64) ∧
    ¬ toBeBytes false ([0, 1, 0, 0] : Limbs 64) < toBeBytes false ([5, 0, 0, 0] : Limbs 64) ∧
    toLeBytes false ([0, 1, 0, 0] : Limbs 64) < toLeBytes false ([5, 0, 0, 0] : Limbs 64) := by
  decide +kernel

/-- C74: signed numbers of the same sign are ordered like their big-endian byte strings; among numbers
of different sign the byte string of the negative one is the greater. -/
theorem C74_int (h8 : 8 ∣ w) (hw : 0 < w) (hl : x.length = y.length) (h2 : x.length % 2 = 0)
    (hx : 2 ≤ x.length) :
    (toInt x < toInt y ↔
      if toInt x < 0 ↔ toInt y < 0 then toBeBytes be x < toBeBytes be y
      else toBeBytes be y < toBeBytes be x) ∧
    (Ord.lt true x y = true ↔
      if toInt x < 0 ↔ toInt y < 0 then toBeBytes be x < toBeBytes be y
      else toBeBytes be y < toBeBytes be x) := by
  have h1 := (C74_uint (be := be) h8 hw hl h2 hx).1
  have h1' := (C74_uint (be := be) h8 hw hl.symm (by omega) (by omega)).1
  have key : toInt x < toInt y ↔
      if toInt x < 0 ↔ toInt y < 0 then toBeBytes be x < toBeBytes be y
      else toBeBytes be y < toBeBytes be x := by
    have hb : bits y = bits x := (bits_eq_of_length hl).symm
    have hx' := toNat_lt_int x
    have hy' := toNat_lt_int y
    have sx := toInt_InS x
    have sy := toInt_InS y
    have hP : (2 : Int) ^ bits x = 2 * 2 ^ (bits x - 1) := two_pow_half hw (by omega)
    rw [h1, h1']
    rw [hb] at hy' sy
    unfold InS at sx sy
    rcases toInt_cases x with ⟨c1, c2⟩ | ⟨c1, c2⟩ <;>
      rcases toInt_cases y with ⟨d1, d2⟩ | ⟨d1, d2⟩ <;> (try rw [hb] at d2) <;>
      split <;> rename_i hc <;> omega
  refine ⟨key, ?_⟩
  rw [← key, Ord.lt_iff hw true hl h2 hx]
  simp [Ord.val]

example := C74_int (x := m2) (y := top) (be := true) (by decide) (by decide) (by decide) (by decide)
  (by decide)
example : toBeBytes false one < toBeBytes false m2 ∧ toInt m2 < toInt one := by decide +kernel

end I256
