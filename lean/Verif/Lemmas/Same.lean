import Verif.SpecSame
import Verif.SpecDiv
import Verif.SpecFixed
import Verif.Lemmas.Basic
import Mathlib.Tactic.Ring

/-!
# From the result contracts to agreement of two builds

Both builds meet the same contract with the same exact result, hence agree.
-/

namespace I256

variable {w v N M : Nat} {z z' : Int}

namespace Builds

theorem symm (h : Builds w N v M) : Builds v M w N :=
  ⟨h.right, h.left, h.width.symm, h.width ▸ h.large, h.width ▸ h.wide, h.width ▸ h.small⟩

theorem pos (h : Builds w N v M) : 0 < w := by rcases h.left with e | e <;> omega
theorem one (h : Builds w N v M) : 1 < w := by rcases h.left with e | e <;> omega
theorem eight (h : Builds w N v M) : 8 ∣ w := by rcases h.left with rfl | rfl <;> decide
theorem w32 (h : Builds w N v M) : 32 ≤ w := by rcases h.left with e | e <;> omega
theorem four (h : Builds w N v M) : 4 ≤ N := by
  have := h.large
  rcases h.left with rfl | rfl <;> omega
theorem even (h : Builds w N v M) : N % 2 = 0 := by
  have := h.wide
  rcases h.left with rfl | rfl <;> omega
theorem b128 (h : Builds w N v M) : 128 ≤ w * N := le_trans (by decide) h.large
theorem b129 (h : Builds w N v M) : 128 < w * N := lt_of_lt_of_le (by decide) h.large
theorem pow (h : Builds w N v M) : ∃ k, w = 2 ^ k := by
  rcases h.left with rfl | rfl
  · exact ⟨5, rfl⟩
  · exact ⟨6, rfl⟩

theorem bytes (h : Builds w N v M) : w / 8 * N = v / 8 * M := by
  have e := h.width
  rcases h.left with rfl | rfl <;> rcases h.right with rfl | rfl <;> omega

end Builds

namespace Twins

variable {x : Limbs w} {y : Limbs v}

theorem symm (h : Twins x y) : Twins y x := ⟨h.builds.symm, h.value.symm⟩

theorem ne (h : Twins x y) : x ≠ [] := by
  rintro rfl
  have := h.builds.four
  simp at this

theorem pos (h : Twins x y) : 0 < w := h.builds.pos
theorem one (h : Twins x y) : 1 < w := h.builds.one
theorem four (h : Twins x y) : 4 ≤ x.length := h.builds.four
theorem even (h : Twins x y) : x.length % 2 = 0 := h.builds.even
theorem two (h : Twins x y) : 2 ≤ x.length := le_trans (by decide) h.four

theorem len {x2 : Limbs w} {y2 : Limbs v} (h : Twins x y) (h2 : Twins x2 y2)
    (hl : x.length = x2.length) : y.length = y2.length := by
  have e := h.builds.width
  rw [hl, h2.builds.width] at e
  exact (Nat.eq_of_mul_eq_mul_left h.builds.symm.pos e).symm

theorem bits_eq (h : Twins x y) : bits x = bits y := h.builds.width

theorem int (h : Twins x y) : toInt x = toInt y := by
  simp only [toInt, h.bits_eq, h.value]

end Twins

namespace Same

theorem wrapU {a : Limbs w} {b : Limbs v} (hN : w * N = v * M) (ha : WrapU N z a)
    (hb : WrapU M z' b) (hz : z = z') : Same a b := by
  subst hz
  refine ⟨by rw [bits, bits, ha.1, hb.1, hN], ?_⟩
  have := ha.2.trans (hN ▸ hb.2.symm)
  exact_mod_cast this

theorem exactU {a : Limbs w} {b : Limbs v} (hN : w * N = v * M) (ha : ExactU N z a)
    (hb : ExactU M z' b) (hz : z = z') : Same a b := by
  subst hz
  refine ⟨by rw [bits, bits, ha.1, hb.1, hN], ?_⟩
  have := ha.2.trans hb.2.symm
  exact_mod_cast this

theorem of_int {a : Limbs w} {b : Limbs v} (hb : bits a = bits b) (h : toInt a = toInt b) :
    Same a b := by
  refine ⟨hb, ?_⟩
  have e := hb
  have ha : toNat a < 2 ^ bits a := toNat_lt a
  have hb : toNat b < 2 ^ bits b := toNat_lt b
  rw [toInt, toInt, ← e] at h
  rw [← e] at hb
  have : ((2 ^ bits a : Nat) : Int) = 2 ^ bits a := by push_cast; rfl
  split at h <;> split at h <;> omega

theorem exactS {a : Limbs w} {b : Limbs v} (hN : w * N = v * M) (ha : ExactS N z a)
    (hb : ExactS M z' b) (hz : z = z') : Same a b :=
  of_int (by rw [bits, bits, ha.1, hb.1, hN]) (by rw [ha.2, hb.2, hz])

theorem wrapS {a : Limbs w} {b : Limbs v} (hN : w * N = v * M) (ha : WrapS N z a)
    (hb : WrapS M z' b) (hz : z = z') : Same a b :=
  of_int (by rw [bits, bits, ha.1, hb.1, hN]) (by rw [ha.2, hb.2, hz, hN])

theorem satU {a : Limbs w} {b : Limbs v} (hN : w * N = v * M) (ha : SatU N z a)
    (hb : SatU M z' b) (hz : z = z') : Same a b := by
  subst hz
  refine ⟨by rw [bits, bits, ha.1, hb.1, hN], ?_⟩
  have := ha.2.trans (hN ▸ hb.2.symm)
  exact_mod_cast this

theorem satS {a : Limbs w} {b : Limbs v} (hN : w * N = v * M) (ha : SatS N z a)
    (hb : SatS M z' b) (hz : z = z') : Same a b :=
  of_int (by rw [bits, bits, ha.1, hb.1, hN]) (by rw [ha.2, hb.2, hz, hN])

theorem overU {a : Limbs w × Bool} {b : Limbs v × Bool} (hN : w * N = v * M) (ha : OverU N z a)
    (hb : OverU M z' b) (hz : z = z') : SameFlag a b := by
  refine ⟨wrapU hN ha.1 hb.1 hz, ?_⟩
  have := ha.2.trans (not_congr (by rw [hN, hz])|>.trans hb.2.symm)
  exact Bool.eq_iff_iff.2 this

theorem overS {a : Limbs w × Bool} {b : Limbs v × Bool} (hN : w * N = v * M) (ha : OverS N z a)
    (hb : OverS M z' b) (hz : z = z') : SameFlag a b := by
  refine ⟨wrapS hN ha.1 hb.1 hz, ?_⟩
  have := ha.2.trans (not_congr (by rw [hN, hz])|>.trans hb.2.symm)
  exact Bool.eq_iff_iff.2 this

theorem checkU {a : Option (Limbs w)} {b : Option (Limbs v)} (hN : w * N = v * M)
    (ha : CheckU N z a) (hb : CheckU M z' b) (hz : z = z') : SameOpt a b := by
  subst hz
  by_cases h : InU (w * N) z
  · obtain ⟨p, rfl, hp⟩ := ha.1 h
    obtain ⟨q, rfl, hq⟩ := hb.1 (hN ▸ h)
    exact exactU hN hp hq rfl
  · rw [ha.2 h, hb.2 (hN ▸ h)]
    trivial

theorem checkS {a : Option (Limbs w)} {b : Option (Limbs v)} (hN : w * N = v * M)
    (ha : CheckS N z a) (hb : CheckS M z' b) (hz : z = z') : SameOpt a b := by
  subst hz
  by_cases h : InS (w * N) z
  · obtain ⟨p, rfl, hp⟩ := ha.1 h
    obtain ⟨q, rfl, hq⟩ := hb.1 (hN ▸ h)
    exact exactS hN hp hq rfl
  · rw [ha.2 h, hb.2 (hN ▸ h)]
    trivial

theorem strictU {a : Res (Limbs w)} {b : Res (Limbs v)} (hN : w * N = v * M)
    (ha : StrictU N z a) (hb : StrictU M z' b) (hz : z = z') : SameRes Same a b := by
  subst hz
  by_cases h : InU (w * N) z
  · obtain ⟨p, rfl, hp⟩ := ha.1 h
    obtain ⟨q, rfl, hq⟩ := hb.1 (hN ▸ h)
    exact exactU hN hp hq rfl
  · rw [ha.2 h, hb.2 (hN ▸ h)]
    trivial

theorem strictS {a : Res (Limbs w)} {b : Res (Limbs v)} (hN : w * N = v * M)
    (ha : StrictS N z a) (hb : StrictS M z' b) (hz : z = z') : SameRes Same a b := by
  subst hz
  by_cases h : InS (w * N) z
  · obtain ⟨p, rfl, hp⟩ := ha.1 h
    obtain ⟨q, rfl, hq⟩ := hb.1 (hN ▸ h)
    exact exactS hN hp hq rfl
  · rw [ha.2 h, hb.2 (hN ▸ h)]
    trivial

theorem opU {oc : Bool} {a : Res (Limbs w)} {b : Res (Limbs v)} (hN : w * N = v * M)
    (ha : OpU oc N z a) (hb : OpU oc M z' b) (hz : z = z') : SameRes Same a b := by
  cases oc
  · obtain ⟨p, rfl, hp⟩ := ha
    obtain ⟨q, rfl, hq⟩ := hb
    exact wrapU hN hp hq hz
  · exact strictU hN ha hb hz

theorem opS {oc : Bool} {a : Res (Limbs w)} {b : Res (Limbs v)} (hN : w * N = v * M)
    (ha : OpS oc N z a) (hb : OpS oc M z' b) (hz : z = z') : SameRes Same a b := by
  cases oc
  · obtain ⟨p, rfl, hp⟩ := ha
    obtain ⟨q, rfl, hq⟩ := hb
    exact wrapS hN hp hq hz
  · exact strictS hN ha hb hz

theorem ok {α β : Type} {R : α → β → Prop} {P : α → Prop} {Q : β → Prop} {r : Res α} {s : Res β}
    (hr : ∃ a, r = .ok a ∧ P a) (hs : ∃ b, s = .ok b ∧ Q b) (h : ∀ a b, P a → Q b → R a b) :
    SameRes R r s := by
  obtain ⟨a, rfl, ha⟩ := hr
  obtain ⟨b, rfl, hb⟩ := hs
  exact h a b ha hb

theorem formsU {oc : Bool} {a : Res (Limbs w)} {a2 : Res (Limbs w × Bool)}
    {a3 : Res (Option (Limbs w))} {a4 : Res (Limbs w)} {b : Res (Limbs v)}
    {b2 : Res (Limbs v × Bool)} {b3 : Res (Option (Limbs v))} {b4 : Res (Limbs v)}
    (hN : w * N = v * M) (ha : FormsU oc N z a a2 a3 a4) (hb : FormsU oc M z' b b2 b3 b4)
    (hz : z = z') :
    SameRes Same a b ∧ SameRes SameFlag a2 b2 ∧ SameRes SameOpt a3 b3 ∧ SameRes Same a4 b4 :=
  ⟨ok ha.1 hb.1 fun _ _ h h' => wrapU hN h h' hz,
    ok ha.2.1 hb.2.1 fun _ _ h h' => overU hN h h' hz,
    ok ha.2.2.1 hb.2.2.1 fun _ _ h h' => checkU hN h h' hz,
    opU hN ha.2.2.2 hb.2.2.2 hz⟩

theorem formsS {oc : Bool} {a : Res (Limbs w)} {a2 : Res (Limbs w × Bool)}
    {a3 : Res (Option (Limbs w))} {a4 : Res (Limbs w)} {b : Res (Limbs v)}
    {b2 : Res (Limbs v × Bool)} {b3 : Res (Option (Limbs v))} {b4 : Res (Limbs v)}
    (hN : w * N = v * M) (ha : FormsS oc N z a a2 a3 a4) (hb : FormsS oc M z' b b2 b3 b4)
    (hz : z = z') :
    SameRes Same a b ∧ SameRes SameFlag a2 b2 ∧ SameRes SameOpt a3 b3 ∧ SameRes Same a4 b4 :=
  ⟨ok ha.1 hb.1 fun _ _ h h' => wrapS hN h h' hz,
    ok ha.2.1 hb.2.1 fun _ _ h h' => overS hN h h' hz,
    ok ha.2.2.1 hb.2.2.1 fun _ _ h h' => checkS hN h h' hz,
    opS hN ha.2.2.2 hb.2.2.2 hz⟩

/-- Two results that return unless `P` (`P'`) agree where both return. -/
theorem yields {α β : Type} {R : α → β → Prop} {P P' : Prop} {Q : α → Prop} {Q' : β → Prop}
    {r : Res α} {s : Res β} (hr : Yields P Q r) (hs : Yields P' Q' s)
    (h : ∀ a b, Q a → Q' b → R a b) : SameIfBoth R r s := by
  intro a b ea eb
  have hp : ¬ P := fun hp => by rw [hr.1 hp] at ea; cases ea
  have hp' : ¬ P' := fun hp => by rw [hs.1 hp] at eb; cases eb
  obtain ⟨_, e, q⟩ := hr.2 hp
  obtain ⟨_, e', q'⟩ := hs.2 hp'
  rw [ea] at e
  rw [eb] at e'
  cases e
  cases e'
  exact h _ _ q q'

theorem yields_pair {P P' : Prop} {Q R : Limbs w → Prop} {Q' R' : Limbs v → Prop}
    {r : Res (Limbs w × Limbs w)} {s : Res (Limbs v × Limbs v)}
    (hr : Yields P (fun p => Q p.1 ∧ R p.2) r) (hs : Yields P' (fun p => Q' p.1 ∧ R' p.2) s)
    (h : ∀ a b, Q a → Q' b → Same a b) (h2 : ∀ a b, R a → R' b → Same a b) :
    SameIfBoth SamePair r s :=
  yields hr hs fun _ _ q q' => ⟨h _ _ q.1 q'.1, h2 _ _ q.2 q'.2⟩

theorem readsU {r : Nat} {over : ErrKind} {ds : List Byte} {a : Parsed (Limbs w)} {b : Parsed (Limbs v)}
    (hN : w * N = v * M) (ha : ReadsU N r over ds a) (hb : ReadsU M r over ds b) : SameParsed a b := by
  by_cases h : InU (w * N) (numVal r (digitPart r ds))
  · by_cases hd : digitPart r ds = ds
    · obtain ⟨p, rfl, hp⟩ := ha.2.2 h hd
      obtain ⟨q, rfl, hq⟩ := hb.2.2 (hN ▸ h) hd
      exact exactU hN hp hq rfl
    · rw [ha.2.1 h hd, hb.2.1 (hN ▸ h) hd]
      rfl
  · rw [ha.1 h, hb.1 (hN ▸ h)]
    rfl

theorem readsS {r : Nat} {sg : Int} {over : ErrKind} {ds : List Byte} {a : Parsed (Limbs w)}
    {b : Parsed (Limbs v)} (hN : w * N = v * M) (ha : ReadsS N r sg over ds a)
    (hb : ReadsS M r sg over ds b) : SameParsed a b := by
  by_cases h : InS (w * N) (sg * numVal r (digitPart r ds))
  · by_cases hd : digitPart r ds = ds
    · obtain ⟨p, rfl, hp⟩ := ha.2.2 h hd
      obtain ⟨q, rfl, hq⟩ := hb.2.2 (hN ▸ h) hd
      exact exactS hN hp hq rfl
    · rw [ha.2.1 h hd, hb.2.1 (hN ▸ h) hd]
      rfl
  · rw [ha.1 h, hb.1 (hN ▸ h)]
    rfl

theorem parsesU {r : Nat} {s : List Byte} {a : Parsed (Limbs w)} {b : Parsed (Limbs v)}
    (hN : w * N = v * M) (ha : ParsesU N r s a) (hb : ParsesU M r s b) : SameParsed a b := by
  cases s with
  | nil => cases ha; cases hb; rfl
  | cons c t =>
    simp only [ParsesU] at ha hb
    split at ha
    · rename_i hc
      rw [if_pos hc] at hb
      split at ha
      · rename_i ht
        rw [if_pos ht] at hb
        cases ha; cases hb; rfl
      · rename_i ht
        rw [if_neg ht] at hb
        exact readsU hN ha hb
    · rename_i hc
      rw [if_neg hc] at hb
      split at ha
      · rename_i ht
        rw [if_pos ht] at hb
        cases ha; cases hb; rfl
      · rename_i ht
        rw [if_neg ht] at hb
        exact readsU hN ha hb

theorem parsesS {r : Nat} {s : List Byte} {a : Parsed (Limbs w)} {b : Parsed (Limbs v)}
    (hN : w * N = v * M) (ha : ParsesS N r s a) (hb : ParsesS M r s b) : SameParsed a b := by
  cases s with
  | nil => cases ha; cases hb; rfl
  | cons c t =>
    simp only [ParsesS] at ha hb
    split at ha
    · rename_i hc
      rw [if_pos hc] at hb
      split at ha
      · rename_i ht
        rw [if_pos ht] at hb
        cases ha; cases hb; rfl
      · rename_i ht
        rw [if_neg ht] at hb
        exact readsS hN ha hb
    · rename_i hc
      rw [if_neg hc] at hb
      split at ha
      · rename_i ht
        rw [if_pos ht] at hb
        split at ha
        · rename_i hn
          rw [if_pos hn] at hb
          cases ha; cases hb; rfl
        · rename_i hn
          rw [if_neg hn] at hb
          exact readsS hN ha hb
      · rename_i ht
        rw [if_neg ht] at hb
        exact readsS hN ha hb

theorem testBit {a : Limbs w} {b : Limbs v} (h : bits a = bits b)
    (ht : ∀ i, i < bits a → (toNat a).testBit i = (toNat b).testBit i) : Same a b := by
  refine ⟨h, Nat.eq_of_testBit_eq fun i => ?_⟩
  by_cases hi : i < bits a
  · exact ht i hi
  · have ha : toNat a < 2 ^ i := lt_of_lt_of_le (toNat_lt a) (Nat.pow_le_pow_right (by decide) (by omega))
    have hb : toNat b < 2 ^ i := by
      refine lt_of_lt_of_le (toNat_lt b) (Nat.pow_le_pow_right (by decide) ?_)
      show bits b ≤ i
      omega
    rw [Nat.testBit_lt_two_pow ha, Nat.testBit_lt_two_pow hb]

end Same

end I256
