import Verif.Lemmas.Same
import Verif.Props.Div

/-!
# When the divisions of two builds agree

Both builds meet a contract that may mention the limb size; they agree iff the contracts do.
-/

namespace I256

variable {w v N M : Nat} {z z' : Int}

theorem Yields.and {α : Type} {P : Prop} {Q Q' : α → Prop} {r : Res α} (h : Yields P Q r)
    (h' : Yields P Q' r) : Yields P (fun v => Q v ∧ Q' v) r := by
  refine ⟨h.1, fun hp => ?_⟩
  obtain ⟨a, e, q⟩ := h.2 hp
  obtain ⟨b, e', q'⟩ := h'.2 hp
  rw [e] at e'
  cases e'
  exact ⟨a, e, q, q'⟩

namespace Same

theorem yields_iff {α β : Type} {R : α → β → Prop} {P P' E : Prop} {Q : α → Prop} {Q' : β → Prop}
    {r : Res α} {s : Res β} (hr : Yields P Q r) (hs : Yields P' Q' s)
    (h : ¬ P → ¬ P' → ∀ a b, Q a → Q' b → (R a b ↔ E)) :
    SameRes R r s ↔ ((P ↔ P') ∧ (¬ P → E)) := by
  by_cases hp : P <;> by_cases hp' : P'
  · rw [hr.1 hp, hs.1 hp']
    simp [SameRes, hp, hp']
  · obtain ⟨b, e, -⟩ := hs.2 hp'
    rw [hr.1 hp, e]
    simp [SameRes, hp, hp']
  · obtain ⟨b, e, -⟩ := hr.2 hp
    rw [hs.1 hp', e]
    simp [SameRes, hp, hp']
  · obtain ⟨a, e, q⟩ := hr.2 hp
    obtain ⟨b, e', q'⟩ := hs.2 hp'
    rw [e, e']
    simp [SameRes, hp, hp', h hp hp' a b q q']

theorem yields_same {α β : Type} {R : α → β → Prop} {P P' : Prop} {Q : α → Prop} {Q' : β → Prop}
    {r : Res α} {s : Res β} (hr : Yields P Q r) (hs : Yields P' Q' s) (hp : P ↔ P')
    (h : ¬ P → ∀ a b, Q a → Q' b → R a b) : SameRes R r s :=
  (yields_iff hr hs (E := True) fun n _ a b q q' => iff_true_intro (h n a b q q')).2
    ⟨hp, fun _ => trivial⟩

theorem exactU_iff {a : Limbs w} {b : Limbs v} (hN : w * N = v * M) (ha : ExactU N z a)
    (hb : ExactU M z' b) : Same a b ↔ z = z' := by
  refine ⟨fun h => ?_, exactU hN ha hb⟩
  rw [← ha.2, ← hb.2, h.2]

theorem toInt_eq {a : Limbs w} {b : Limbs v} (h : Same a b) : toInt a = toInt b := by
  simp only [toInt, h.1, h.2]

theorem exactS_iff {a : Limbs w} {b : Limbs v} (hN : w * N = v * M) (ha : ExactS N z a)
    (hb : ExactS M z' b) : Same a b ↔ z = z' := by
  refine ⟨fun h => ?_, exactS hN ha hb⟩
  rw [← ha.2, ← hb.2, h.toInt_eq]

theorem wrapS_iff {a : Limbs w} {b : Limbs v} (hN : w * N = v * M) (ha : WrapS N z a)
    (hb : WrapS M z' b) : Same a b ↔ z.bmod (2 ^ (w * N)) = z'.bmod (2 ^ (w * N)) := by
  constructor
  · intro h
    have := ha.2.symm.trans (h.toInt_eq.trans hb.2)
    rwa [← hN] at this
  · intro h
    exact of_int (by rw [bits, bits, ha.1, hb.1, hN]) (by rw [ha.2, hb.2, h, hN])

/-- Results that differ by at most one agree only if they are equal. -/
theorem wrapS_near {a : Limbs w} {b : Limbs v} (hN : w * N = v * M) (h2 : 1 ≤ w * N)
    (ha : WrapS N z a) (hb : WrapS M z' b) (hz : |z - z'| ≤ 1) : Same a b ↔ z = z' := by
  rw [wrapS_iff hN ha hb]
  refine ⟨fun h => ?_, fun h => by rw [h]⟩
  have hp : 2 ≤ 2 ^ (w * N) := by
    calc 2 = 2 ^ 1 := rfl
      _ ≤ 2 ^ (w * N) := Nat.pow_le_pow_right (by decide) h2
  have hd : ((2 ^ (w * N) : Nat) : Int) ∣ z - z' :=
    Int.dvd_of_bmod_eq_zero (Int.bmod_eq_bmod_iff_bmod_sub_eq_zero.1 h)
  have hz2 := abs_le.1 hz
  by_contra hne
  have : (2 ^ (w * N) : Nat) ∣ (z - z').natAbs := Int.natCast_dvd.1 hd
  have := Nat.le_of_dvd (by omega) this
  omega

section alike

variable {X Y X' Y' : Nat} {α β : Type} {R : α → β → Prop} {Q : α → Prop} {Q' : β → Prop} {r : Res α}
  {s : Res β}

theorem panicsAlike (hr : Yields (DivPanics w N X Y) Q r) (hs : Yields (DivPanics v M X' Y') Q' s)
    (eX : X = X') (eY : Y = Y') (h : ∀ a b, Q a → Q' b → R a b) :
    SameRes R r s ↔ PanicsAlike w N v M X Y := by
  subst eX eY
  refine (yields_iff hr hs (E := True) fun _ _ a b q q' => iff_true_intro (h a b q q')).trans ?_
  simp [PanicsAlike]

theorem dividesAlike (hr : Yields (DivPanics w N X Y) Q r) (hs : Yields (DivPanics v M X' Y') Q' s)
    (eX : X = X') (eY : Y = Y')
    (h : ∀ a b, Q a → Q' b → (R a b ↔ strayRem w N X Y = strayRem v M X' Y')) :
    SameRes R r s ↔ DividesAlike w N v M X Y := by
  subst eX eY
  exact yields_iff hr hs fun _ _ a b q q' => h a b q q'

theorem spoilsAlike {c : Prop} (hr : Yields (DivPanics w N X Y) Q r)
    (hs : Yields (DivPanics v M X' Y') Q' s) (eX : X = X') (eY : Y = Y')
    (h : ∀ a b, Q a → Q' b → (R a b ↔ (c → (strayRem w N X Y = 0 ↔ strayRem v M X' Y' = 0)))) :
    SameRes R r s ↔ SpoilsAlike w N v M X Y c := by
  subst eX eY
  exact yields_iff hr hs fun _ _ a b q q' => h a b q q'

/-- The same for forms that also panic on an overflow `o`, where division by `Y` returns exactly. -/
theorem dividesAlike_or {o o' : Prop} (hr : Yields (DivPanics w N X Y ∨ o) Q r)
    (hs : Yields (DivPanics v M X' Y' ∨ o') Q' s) (eX : X = X') (eY : Y = Y') (eo : o ↔ o')
    (ho : o → DivExact w N X Y ∧ DivExact v M X' Y')
    (h : ∀ a b, Q a → Q' b → (R a b ↔ strayRem w N X Y = strayRem v M X' Y')) :
    SameRes R r s ↔ DividesAlike w N v M X Y := by
  subst eX eY
  by_cases hp : o
  · have hp' := eo.1 hp
    rw [hr.1 (.inr hp), hs.1 (.inr hp')]
    obtain ⟨⟨a, b⟩, c, d⟩ := ho hp
    simp [SameRes, DividesAlike, PanicsAlike, a, b, c, d]
  · have hp' : ¬ o' := fun h => hp (eo.2 h)
    simp only [hp, hp', or_false] at hr hs
    exact dividesAlike hr hs rfl rfl h

theorem panicsAlike_or {o o' : Prop} (hr : Yields (DivPanics w N X Y ∨ o) Q r)
    (hs : Yields (DivPanics v M X' Y' ∨ o') Q' s) (eX : X = X') (eY : Y = Y') (eo : o ↔ o')
    (ho : o → DivExact w N X Y ∧ DivExact v M X' Y')
    (h : ∀ a b, Q a → Q' b → R a b) :
    SameRes R r s ↔ PanicsAlike w N v M X Y := by
  subst eX eY
  by_cases hp : o
  · have hp' := eo.1 hp
    rw [hr.1 (.inr hp), hs.1 (.inr hp')]
    obtain ⟨⟨a, -⟩, c, -⟩ := ho hp
    simp [SameRes, PanicsAlike, a, c]
  · have hp' : ¬ o' := fun h => hp (eo.2 h)
    simp only [hp, hp', or_false] at hr hs
    exact panicsAlike hr hs rfl rfl h

theorem spoilsAlike_or {c o o' : Prop} (hr : Yields (DivPanics w N X Y ∨ o) Q r)
    (hs : Yields (DivPanics v M X' Y' ∨ o') Q' s) (eX : X = X') (eY : Y = Y') (eo : o ↔ o')
    (ho : o → DivExact w N X Y ∧ DivExact v M X' Y')
    (h : ∀ a b, Q a → Q' b → (R a b ↔ (c → (strayRem w N X Y = 0 ↔ strayRem v M X' Y' = 0)))) :
    SameRes R r s ↔ SpoilsAlike w N v M X Y c := by
  subst eX eY
  by_cases hp : o
  · have hp' := eo.1 hp
    rw [hr.1 (.inr hp), hs.1 (.inr hp')]
    obtain ⟨⟨a, b⟩, e, d⟩ := ho hp
    simp [SameRes, SpoilsAlike, PanicsAlike, a, b, e, d]
  · have hp' : ¬ o' := fun h => hp (eo.2 h)
    simp only [hp, hp', or_false] at hr hs
    exact spoilsAlike hr hs rfl rfl h

end alike

end Same

theorem strict_yields {P : Prop} {r : Res (Limbs w)} (h1 : P → r = .panic)
    (h2 : ¬ P → StrictS N z r) : Yields (P ∨ ¬ InS (w * N) z) (ExactS N z) r := by
  constructor
  · rintro (h | h)
    · exact h1 h
    · by_cases hp : P
      · exact h1 hp
      · exact (h2 hp).2 h
  · intro h
    push Not at h
    exact (h2 h.1).1 h.2

theorem op_yields {oc : Bool} {P : Prop} {r : Res (Limbs w)} (h1 : P → r = .panic)
    (h2 : ¬ P → OpS oc N z r) :
    Yields (P ∨ oc = true ∧ ¬ InS (w * N) z)
      (fun v => (oc = true → ExactS N z v) ∧ (oc = false → WrapS N z v)) r := by
  cases oc
  · refine ⟨fun h => h1 (by simpa using h), fun h => ?_⟩
    obtain ⟨v, e, hv⟩ := h2 (by simpa using h)
    exact ⟨v, e, by simp, fun _ => hv⟩
  · have := strict_yields h1 h2
    refine ⟨fun h => this.1 (by simpa using h), fun h => ?_⟩
    obtain ⟨v, e, hv⟩ := this.2 (by simpa using h)
    exact ⟨v, e, fun _ => hv, by simp⟩

theorem strayRem_zero_or_gt (w N x y : Nat) : strayRem w N x y = 0 ∨ y < strayRem w N x y := by
  have hy : y < 2 ^ bitLen y := by
    rw [bitLen]
    split
    · simp_all
    · exact Nat.lt_log2_self
  rw [strayRem]
  generalize flagNum w (addBack w x y) (N - nLimbs w y) = f
  rcases Nat.eq_zero_or_pos f with rfl | h
  · exact .inl rfl
  · exact .inr (lt_of_lt_of_le hy (Nat.le_mul_of_pos_right _ h))

theorem strayRem_zero (w N y : Nat) : strayRem w N 0 y = 0 := by
  have h : addBack w 0 y = fun _ => false := by
    funext j
    simp [addBack]
  have : ∀ k, flagNum w (fun _ => false) k = 0 := by
    intro k
    induction k with
    | zero => rfl
    | succ k ih => simp [flagNum, ih]
  rw [strayRem, h, this, Nat.mul_zero]

end I256
