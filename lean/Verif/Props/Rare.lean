import Verif.Lemmas.Rare
import Verif.Props.Div
import Verif.Props.DivSigned

/-!
# C115: how many operands are divided wrongly

The remainders that C13 and C17 find wrong, and the divisions that C14 finds to panic, are rare for every divisor: of the
`2 ^ (w * N)` numerators, at most `7 * (N - 1)` in `2 ^ w`.  `Set.ncard` counts the elements of a finite set.
-/

namespace I256

open Sample

variable {w N : Nat} {y : Limbs w}

/-- There are `2 ^ (w * N)` numbers, so the sets below are finite. -/
theorem C115_all (w N : Nat) :
    {x : Limbs w | x.length = N}.Finite ∧ {x : Limbs w | x.length = N}.ncard = 2 ^ (w * N) := by
  have hm : Set.MapsTo toNat {x : Limbs w | x.length = N} (Finset.range (2 ^ (w * N)) : Set Nat) := by
    intro x hx
    have := toNat_lt x
    rw [bits, show x.length = N from hx] at this
    simpa using this
  have hi : Set.InjOn toNat {x : Limbs w | x.length = N} := fun x hx y hy e =>
    toNat_inj (show x.length = y.length by rw [show x.length = N from hx, show y.length = N from hy]) e
  refine ⟨Set.Finite.of_injOn hm hi (Finset.finite_toSet _), ?_⟩
  have hs : toNat '' {x : Limbs w | x.length = N} = (Finset.range (2 ^ (w * N)) : Set Nat) := by
    refine Set.Subset.antisymm (Set.image_subset_iff.2 hm) fun n hn => ?_
    have hn' : n < 2 ^ (w * N) := by simpa using hn
    clear hn hm hi
    induction N generalizing n with
    | zero => exact ⟨[], rfl, by simp at hn'; simp [hn']⟩
    | succ N ih =>
      obtain ⟨x, hx, e⟩ := ih (n / 2 ^ w) (Nat.div_lt_of_lt_mul (by rwa [← Nat.pow_add, Nat.add_comm, ← Nat.mul_succ]))
      refine ⟨BitVec.ofNat w n :: x, by simpa using hx, ?_⟩
      rw [toNat_cons, e, BitVec.toNat_ofNat, Nat.mod_add_div]
  rw [← hi.ncard_image, hs, Set.ncard_coe_finset, Finset.card_range]

example := C115_all 64 4

/-- C115: where a remainder can be wrong.  For some `j`, the limbs of `x` from `j` on are a number `t` such that the last
digit of `t / y` is the last but one, `2 ^ w - 2`, or `t % y` misses `y` by no more than `2 * y / 2 ^ w`. -/
theorem C115_where (hw : 0 < w) {x : Limbs w} (hl : x.length = y.length) (h2 : 2 ≤ x.length) (he : x.length % 2 = 0)
    (hy : toNat y ≠ 0) (oc : Bool) :
    ∀ f ∈ [U.wrappingRem, U.wrappingRemEuclid, U.strictRem, U.strictRemEuclid, U.rem oc, U.remEuclid oc],
    (¬ ∃ v, f x y = .ok v ∧ ExactU x.length (toNat x % toNat y) v) →
    ∃ j, j + 2 ≤ x.length ∧ (toNat x / 2 ^ (w * j) / toNat y % 2 ^ w = 2 ^ w - 2 ∨
      2 ^ w * (toNat y - toNat x / 2 ^ (w * j) % toNat y) ≤ 2 * toNat y) := by
  intro f hf h
  rw [C13_uint_rem_exact_partial hw hl h2 he hy oc f hf] at h
  obtain ⟨j, hj⟩ := not_exact h
  have hb := addBack_bounds hw (toNat_lt x) hj
  exact ⟨j, by omega, addBack_near hw hj⟩

example := C115_where (w := 64) (x := n2) (y := d2) (by decide) rfl (by decide) rfl (by decide +kernel) true
  U.wrappingRem (by simp)
example : ¬ ∃ v, U.wrappingRem n2 d2 = .ok v ∧ ExactU 4 (toNat n2 % toNat d2) v := by
  have := C13_uint_rem_exact_partial (w := 64) (x := n2) (y := d2) (by decide) rfl (by decide) rfl (by decide +kernel) true
    U.wrappingRem (by simp)
  exact fun h => absurd (this.1 h) (by decide +kernel)

/-- C115: for every divisor, a part of at most `7 * (N - 1) / 2 ^ w` of the numerators has a wrong remainder or a
panic. -/
theorem C115_rem (hw : 0 < w) (hl : y.length = N) (h2 : 2 ≤ N) (he : N % 2 = 0) (hy : toNat y ≠ 0) (oc : Bool) :
    ∀ f ∈ [U.wrappingRem, U.wrappingRemEuclid, U.strictRem, U.strictRemEuclid, U.rem oc, U.remEuclid oc],
    {x : Limbs w | x.length = N ∧ ¬ ∃ v, f x y = .ok v ∧ ExactU N (toNat x % toNat y) v}.ncard * 2 ^ w ≤
      7 * (N - 1) * 2 ^ (w * N) := by
  intro f hf
  refine (Nat.mul_le_mul_right _ (ncard_limbs N (p := fun x => ¬ DivExact w N x (toNat y)) ?_)).trans
    (card_not_exact hw N (toNat y))
  rintro x ⟨hx, h⟩
  subst hx
  rw [C13_uint_rem_exact_partial hw hl.symm h2 he hy oc f hf] at h
  exact ⟨rfl, h⟩

example := C115_rem (w := 64) (y := d2) (N := 4) (by decide) rfl (by decide) rfl (by decide +kernel) true
/-- `U256` on 64-bit limbs: less than one numerator in `2 ^ 59`. -/
example : {x : Limbs 64 | x.length = 4 ∧ ¬ ∃ v, U.wrappingRem x d2 = .ok v ∧ ExactU 4 (toNat x % toNat d2) v}.ncard *
    2 ^ 59 < 2 ^ 256 := by
  have := C115_rem (w := 64) (y := d2) (N := 4) (by decide) rfl (by decide) rfl (by decide +kernel) true U.wrappingRem
    (by simp)
  omega

/-- C115: for every divisor, a part of at most `7 / 2 ^ w` of the numerators makes the division panic. -/
theorem C115_panics (hw : 0 < w) (hl : y.length = N) (h2 : 2 ≤ N) (he : N % 2 = 0) (hy : toNat y ≠ 0) (oc : Bool) :
    ∀ f ∈ [U.wrappingDiv, U.div oc, U.wrappingRem, U.rem oc, U.divEuclid oc, U.remEuclid oc, U.divCeil],
    {x : Limbs w | x.length = N ∧ f x y = .panic}.ncard * 2 ^ w ≤ 7 * 2 ^ (w * N) := by
  intro f hf
  refine (Nat.mul_le_mul_right _ (ncard_limbs N (p := fun x => DivPanics w N x (toNat y)) ?_)).trans
    (card_panics hw N (toNat y))
  rintro x ⟨hx, h⟩
  subst hx
  rw [C14_uint_div_partial hw hl.symm h2 he hy oc f hf] at h
  exact ⟨rfl, h⟩

example := C115_panics (w := 64) (y := d3) (N := 4) (by decide) rfl (by decide) rfl (by decide +kernel) true
example : U.wrappingDiv n3 d3 = .panic := by decide +kernel

/-- C115: for every divisor, a part of at most `14 * (N - 1) / 2 ^ w` of the signed numerators has a wrong remainder or a
panic. -/
theorem C115_rem_signed (hw : 1 < w) (hl : y.length = N) (h2 : 2 ≤ N) (he : N % 2 = 0) (hy : toInt y ≠ 0) :
    {x : Limbs w | x.length = N ∧ ¬ ∃ v, I.wrappingRem x y = .ok v ∧ ExactS N ((toInt x).tmod (toInt y)) v}.ncard * 2 ^ w ≤
      14 * (N - 1) * 2 ^ (w * N) := by
  have h := card_not_exact (w := w) (by omega) N (toInt y).natAbs
  have hc : {x : Limbs w | x.length = N ∧ ¬ ∃ v, I.wrappingRem x y = .ok v ∧
      ExactS N ((toInt x).tmod (toInt y)) v}.ncard ≤ (Finset.card
        ({x ∈ Finset.range (2 ^ (w * N)) | ¬ DivExact w N x (toInt y).natAbs} ×ˢ (Finset.univ : Finset Bool))) := by
    rw [← Set.ncard_coe_finset]
    refine Set.ncard_le_ncard_of_injOn (fun x => ((toInt x).natAbs, decide (toInt x < 0))) ?_ ?_ (Finset.finite_toSet _)
    · rintro x ⟨hx, hn⟩
      subst hx
      have hd : ¬ DivExact w x.length (toInt x).natAbs (toInt y).natAbs := fun hd =>
        hn (wrappingRemS_exact hw hl.symm h2 he hy hd)
      have hi := toInt_InS x
      rw [bits] at hi
      have hb : (toInt x).natAbs < 2 ^ (w * x.length) := by
        unfold InS at hi
        have h0 : 0 < 2 ^ (w * x.length) := by positivity
        have e : ((2 ^ (w * x.length) : Nat) : Int) = 2 ^ (w * x.length) := by push_cast; rfl
        rw [← e] at hi
        omega
      simpa using And.intro (And.intro hb hd) (lt_or_ge (toInt x) 0)
    · rintro a ⟨ha, -⟩ b ⟨hb, -⟩ e
      simp only [Prod.mk.injEq, decide_eq_decide] at e
      exact toInt_inj (by rw [ha, hb]) (by omega)
  rw [Finset.card_product] at hc
  simp only [Finset.card_univ, Fintype.card_bool] at hc
  calc _ ≤ _ := Nat.mul_le_mul_right _ hc
    _ = Finset.card {x ∈ Finset.range (2 ^ (w * N)) | ¬ DivExact w N x (toInt y).natAbs} * 2 ^ w * 2 := by ring
    _ ≤ 7 * (N - 1) * 2 ^ (w * N) * 2 := Nat.mul_le_mul_right _ h
    _ = _ := by ring

example := C115_rem_signed (w := 64) (y := d2) (N := 4) (by decide) rfl (by decide) rfl (by decide +kernel)

/-- C115: of all pairs of a numerator and a divisor, a part of at most `7 * (N - 1) / 2 ^ w` has a wrong remainder or a
panic. -/
theorem C115_pairs (hw : 0 < w) (h2 : 2 ≤ N) (he : N % 2 = 0) :
    {p : Limbs w × Limbs w | p.1.length = N ∧ p.2.length = N ∧ toNat p.2 ≠ 0 ∧
      ¬ ∃ v, U.wrappingRem p.1 p.2 = .ok v ∧ ExactU N (toNat p.1 % toNat p.2) v}.ncard * 2 ^ w ≤
      7 * (N - 1) * 2 ^ (w * N + w * N) := by
  have hc : {p : Limbs w × Limbs w | p.1.length = N ∧ p.2.length = N ∧ toNat p.2 ≠ 0 ∧
      ¬ ∃ v, U.wrappingRem p.1 p.2 = .ok v ∧ ExactU N (toNat p.1 % toNat p.2) v}.ncard ≤
      (Finset.card ((Finset.range (2 ^ (w * N))).sigma fun y =>
        {x ∈ Finset.range (2 ^ (w * N)) | ¬ DivExact w N x y})) := by
    rw [← Set.ncard_coe_finset]
    refine Set.ncard_le_ncard_of_injOn (fun p => ⟨toNat p.2, toNat p.1⟩) ?_ ?_ (Finset.finite_toSet _)
    · rintro ⟨x, y⟩ ⟨hx, hy, h0, hn⟩
      dsimp only at hx hy h0 hn
      subst hx
      rw [C13_uint_rem_exact_partial hw hy.symm h2 he h0 false U.wrappingRem (by simp)] at hn
      have h1 := toNat_lt x
      have h3 := toNat_lt y
      rw [bits] at h1 h3
      rw [hy] at h3
      simpa using ⟨h3, h1, hn⟩
    · rintro ⟨x, y⟩ ⟨hx, hy, -⟩ ⟨a, b⟩ ⟨ha, hb, -⟩ e
      dsimp only at hx hy ha hb e
      simp only [Sigma.mk.injEq, heq_eq_eq] at e
      rw [Prod.mk.injEq]
      exact ⟨toNat_inj (by omega) e.2, toNat_inj (by omega) e.1⟩
  rw [Finset.card_sigma] at hc
  calc _ ≤ _ := Nat.mul_le_mul_right _ hc
    _ = _ := Finset.sum_mul ..
    _ ≤ ∑ _y ∈ Finset.range (2 ^ (w * N)), 7 * (N - 1) * 2 ^ (w * N) :=
        Finset.sum_le_sum fun y _ => card_not_exact hw N y
    _ = _ := by rw [Finset.sum_const, Finset.card_range, smul_eq_mul, Nat.pow_add]; ring

example := C115_pairs (w := 64) (N := 4) (by decide) (by decide) rfl
/-- One of these pairs. -/
example : ¬ DivExact 64 4 (toNat n2) (toNat d2) := by decide +kernel

end I256
