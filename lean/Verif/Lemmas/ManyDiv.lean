import Mathlib.Algebra.BigOperators.Intervals
import Mathlib.Data.Int.Interval
import Verif.Lemmas.RareMul
import Verif.Lemmas.BadSigned

/-!
# Counting divisors
-/

namespace I256

variable {w N : Nat}

/-- The numbers of at most `m` digits with no digit of one after the leading `2 * w`. -/
theorem card_short (w m : Nat) :
    Finset.card {y ∈ Finset.range (2 ^ m) | 2 ^ (bitLen y - 2 * w) ∣ y} ≤ (m + 1) * 2 ^ (2 * w) := by
  rw [← Finset.card_range (m + 1), ← Finset.card_range (2 ^ (2 * w)), ← Finset.card_product]
  refine Finset.card_le_card_of_injOn (fun y => (bitLen y, y / 2 ^ (bitLen y - 2 * w))) ?_ ?_
  · intro y hy
    simp only [Finset.coe_filter, Finset.mem_range, Set.mem_ofPred_eq] at hy
    have h1 := bitLen_le_of_lt hy.1
    have h2 : y / 2 ^ (bitLen y - 2 * w) < 2 ^ (2 * w) := by
      apply Nat.div_lt_of_lt_mul
      rw [← Nat.pow_add]
      rcases Nat.eq_zero_or_pos y with rfl | h0
      · positivity
      · exact (bitLen_spec (by omega)).2.2.trans_le (Nat.pow_le_pow_right (by omega) (by omega))
    simp only [Finset.coe_product, Finset.coe_range, Set.mem_prod, Set.mem_Iio]
    exact ⟨by omega, h2⟩
  · intro a ha b hb e
    simp only [Finset.coe_filter, Finset.mem_range, Set.mem_ofPred_eq] at ha hb
    simp only [Prod.mk.injEq] at e
    have h1 := Nat.mul_div_cancel' ha.2
    have h2 := Nat.mul_div_cancel' hb.2
    rw [← h1, ← h2, e.2, e.1]

/-- The other numbers. -/
theorem card_long (w m : Nat) :
    2 ^ m ≤ Finset.card {y ∈ Finset.range (2 ^ m) | ¬ 2 ^ (bitLen y - 2 * w) ∣ y} + (m + 1) * 2 ^ (2 * w) := by
  have h := Finset.card_filter_add_card_filter_not (s := Finset.range (2 ^ m)) (fun y => 2 ^ (bitLen y - 2 * w) ∣ y)
  rw [Finset.card_range] at h
  have := card_short w m
  omega

/-- The values of `N` limbs are the numbers below `2 ^ (w * N)`. -/
theorem image_toNat (p : Nat → Prop) [DecidablePred p] :
    {y : Limbs w | y.length = N ∧ p (toNat y)}.ncard = Finset.card {n ∈ Finset.range (2 ^ (w * N)) | p n} := by
  have hi : Set.InjOn toNat {y : Limbs w | y.length = N ∧ p (toNat y)} := fun x hx y hy e =>
    toNat_inj (show x.length = y.length by rw [hx.1, hy.1]) e
  rw [← hi.ncard_image, ← Set.ncard_coe_finset]
  congr 1
  ext n
  simp only [Set.mem_image, Set.mem_ofPred_eq, Finset.coe_filter, Finset.mem_range]
  constructor
  · rintro ⟨y, ⟨hy, hp⟩, rfl⟩
    have := toNat_lt y
    rw [bits, hy] at this
    exact ⟨this, hp⟩
  · rintro ⟨hn, hp⟩
    obtain ⟨y, hy, rfl⟩ := exists_toNat w N n hn
    exact ⟨y, ⟨hy, hp⟩, rfl⟩

/-- Signed values, by their absolute values. -/
theorem le_ncard_toInt (hn : 0 < w * N) {p : Int → Prop} {A : Finset Nat} (h0 : 0 ∉ A)
    (hA : ∀ a ∈ A, a < 2 ^ (w * N - 1) ∧ p a ∧ p (-a)) :
    2 * A.card ≤ {y : Limbs w | y.length = N ∧ p (toInt y)}.ncard := by
  have hE : ((2 ^ (w * N) : Nat) : Int) = 2 ^ (w * N) := by push_cast; rfl
  have e2 : 2 ^ (w * N) = 2 * 2 ^ (w * N - 1) := by
    rw [← Nat.pow_succ', Nat.succ_eq_add_one, Nat.sub_add_cancel hn]
  have hi : Set.InjOn toInt {y : Limbs w | y.length = N ∧ p (toInt y)} := fun x hx y hy e =>
    toInt_inj (show x.length = y.length by rw [hx.1, hy.1]) e
  have hf : {y : Limbs w | y.length = N ∧ p (toInt y)}.Finite := by
    refine Set.Finite.of_injOn (f := toNat) (t := (Finset.range (2 ^ (w * N)) : Set Nat)) ?_ ?_ (Finset.finite_toSet _)
    · rintro x ⟨hx, -⟩
      have := toNat_lt x
      rw [bits, hx] at this
      simpa using this
    · rintro a ⟨ha, -⟩ b ⟨hb, -⟩ e
      exact toNat_inj (by rw [ha, hb]) e
  have hc : (A.image (fun a : Nat => (a : Int)) ∪ A.image (fun a : Nat => -(a : Int))).card = 2 * A.card := by
    rw [Finset.card_union_of_disjoint, Finset.card_image_of_injective, Finset.card_image_of_injective]
    · omega
    · intro a b e
      dsimp only at e
      omega
    · intro a b e
      dsimp only at e
      omega
    · rw [Finset.disjoint_left]
      intro z h1 h2
      simp only [Finset.mem_image] at h1 h2
      obtain ⟨a, ha, rfl⟩ := h1
      obtain ⟨b, hb, e⟩ := h2
      obtain rfl : a = 0 := by omega
      exact h0 ha
  rw [← hc, ← Set.ncard_coe_finset, ← hi.ncard_image]
  refine Set.ncard_le_ncard ?_ (hf.image _)
  intro z hz
  have hp : p z ∧ z.natAbs < 2 ^ (w * N - 1) := by
    simp only [Finset.coe_union, Finset.coe_image, Set.mem_union, Set.mem_image, Finset.mem_coe] at hz
    rcases hz with ⟨a, ha, rfl⟩ | ⟨a, ha, rfl⟩
    · exact ⟨(hA a ha).2.1, by have := (hA a ha).1; omega⟩
    · exact ⟨(hA a ha).2.2, by have := (hA a ha).1; omega⟩
  obtain ⟨y, hy, rfl⟩ := exists_toInt (w := w) (N := N) (z := z) (by
    unfold InS
    rw [← hE]
    omega)
  exact ⟨y, ⟨hy, hp.1⟩, rfl⟩

/-- Signed values of bounded absolute value. -/
theorem ncard_toInt_le {p : Int → Prop} {b : Nat} (h : ∀ z, p z → z.natAbs < b) :
    {y : Limbs w | y.length = N ∧ p (toInt y)}.ncard ≤ 2 * b := by
  have : (Finset.Ioo (-(b : Int)) b).card ≤ 2 * b := by rw [Int.card_Ioo]; omega
  refine le_trans ?_ this
  rw [← Set.ncard_coe_finset]
  refine Set.ncard_le_ncard_of_injOn toInt ?_ ?_ (Finset.finite_toSet _)
  · rintro y ⟨-, hp⟩
    have := h _ hp
    simp only [Finset.coe_Ioo, Set.mem_Ioo]
    omega
  · rintro x ⟨hx, -⟩ y ⟨hy, -⟩ e
    exact toInt_inj (by rw [hx, hy]) e

/-- The pairs `b < c` below `n`. -/
theorem card_pairs (n : Nat) :
    ((Finset.range n).sigma fun c => Finset.range c).card = n * (n - 1) / 2 := by
  rw [Finset.card_sigma]
  simp only [Finset.card_range]
  exact Finset.sum_range_id n

/-- The double limbs with a leading one and an upper half below the lower half. -/
theorem le_ncard_halves {p : BitVec (w + w) → Prop} (hw : 0 < w)
    (hp : ∀ u l : Nat, 2 ^ (w - 1) ≤ u → u < l → l < 2 ^ w → p (BitVec.ofNat (w + w) (u * 2 ^ w + l))) :
    2 ^ (w - 1) * (2 ^ (w - 1) - 1) / 2 ≤ {n | p n}.ncard := by
  have e1 : 2 ^ w = 2 * 2 ^ (w - 1) := by
    rw [← Nat.pow_succ', Nat.succ_eq_add_one, Nat.sub_add_cancel hw]
  have : Finite (BitVec (w + w)) := Finite.of_injective BitVec.toFin fun _ _ => BitVec.eq_of_toFin_eq
  rw [← card_pairs, ← Set.ncard_coe_finset]
  refine Set.ncard_le_ncard_of_injOn
    (fun t => BitVec.ofNat (w + w) ((2 ^ (w - 1) + t.2) * 2 ^ w + (2 ^ (w - 1) + t.1))) ?_ ?_ (Set.toFinite _)
  · rintro ⟨c, b⟩ h
    simp only [Finset.coe_sigma, Finset.coe_range, Set.mem_sigma_iff, Set.mem_Iio] at h
    exact hp (2 ^ (w - 1) + b) (2 ^ (w - 1) + c) (by omega) (by omega) (by omega)
  · rintro ⟨c, b⟩ h ⟨c', b'⟩ h' e
    simp only [Finset.coe_sigma, Finset.coe_range, Set.mem_sigma_iff, Set.mem_Iio] at h h'
    have lt : ∀ u l : Nat, u < 2 ^ w → l < 2 ^ w → u * 2 ^ w + l < 2 ^ (w + w) := by
      intro u l hu hl
      have := Nat.mul_le_mul_right (2 ^ w) (show u + 1 ≤ 2 ^ w from hu)
      rw [Nat.pow_add]
      linarith
    have h1 := congrArg BitVec.toNat e
    simp only [BitVec.toNat_ofNat] at h1
    rw [Nat.mod_eq_of_lt (lt _ _ (by omega) (by omega)), Nat.mod_eq_of_lt (lt _ _ (by omega) (by omega))] at h1
    have h2 := congrArg (· / 2 ^ w) h1
    have h3 := congrArg (· % 2 ^ w) h1
    have q : ∀ u l : Nat, l < 2 ^ w → (u * 2 ^ w + l) / 2 ^ w = u := by
      intro u l hl
      rw [Nat.add_comm, Nat.add_mul_div_right _ _ (by positivity), Nat.div_eq_of_lt hl, Nat.zero_add]
    have r : ∀ u l : Nat, l < 2 ^ w → (u * 2 ^ w + l) % 2 ^ w = l := by
      intro u l hl
      rw [Nat.add_comm, Nat.add_mul_mod_self_right, Nat.mod_eq_of_lt hl]
    rw [q _ _ (by omega), q _ _ (by omega)] at h2
    rw [r _ _ (by omega), r _ _ (by omega)] at h3
    obtain rfl : c = c' := by omega
    obtain rfl : b = b' := by omega
    rfl

end I256
