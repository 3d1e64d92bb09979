import Verif.SpecWiden
import Verif.Lemmas.Same
import Verif.Lemmas.Contract

/-!
# From the result contracts to agreement of types of different widths

Both types meet the same contract with the same exact result.
-/

namespace I256

variable {w v N M : Nat} {z z' : Int}

namespace WidenU
variable {x : Limbs w} {y : Limbs v}
theorem l (h : WidenU x y) : Twins x x := ⟨h.types.narrow, rfl⟩
theorem r (h : WidenU x y) : Twins y y := ⟨h.types.wide, rfl⟩
theorem le (h : WidenU x y) : w * x.length ≤ v * y.length := h.types.le
end WidenU

namespace WidenS
variable {x : Limbs w} {y : Limbs v}
theorem l (h : WidenS x y) : Twins x x := ⟨h.types.narrow, rfl⟩
theorem r (h : WidenS x y) : Twins y y := ⟨h.types.wide, rfl⟩
theorem le (h : WidenS x y) : w * x.length ≤ v * y.length := h.types.le
end WidenS

theorem InU.mono {n m : Nat} (h : n ≤ m) (hz : InU n z) : InU m z :=
  ⟨hz.1, lt_of_lt_of_le hz.2 (pow_le_pow_right₀ (by decide) h)⟩

theorem InS.mono {n m : Nat} (h : n ≤ m) (hz : InS n z) : InS m z := by
  have : (2 : Int) ^ n ≤ 2 ^ m := pow_le_pow_right₀ (by decide) h
  have h1 := hz.1
  have h2 := hz.2
  constructor <;> omega

namespace Widen

theorem wrapU {a : Limbs w} {b : Limbs v} (hN : w * N ≤ v * M) (ha : WrapU N z a)
    (hb : WrapU M z' b) (hz : z = z') : Cuts a b := by
  subst hz
  have e : ((toNat b % 2 ^ bits a : Nat) : Int) = z % 2 ^ (w * N) := by
    push_cast
    rw [hb.2, bits, ha.1]
    exact Int.emod_emod_of_dvd _ (pow_dvd_pow 2 hN)
  have := ha.2.trans e.symm
  exact_mod_cast this

theorem wrapS {a : Limbs w} {b : Limbs v} (hN : w * N ≤ v * M) (ha : WrapS N z a)
    (hb : WrapS M z' b) (hz : z = z') : Cuts a b := wrapU hN ha.wrapU hb.wrapU hz

theorem exactU {a : Limbs w} {b : Limbs v} (ha : ExactU N z a) (hb : ExactU M z' b) (hz : z = z') :
    EqU a b := by
  have := ha.2.trans (hz.trans hb.2.symm)
  exact_mod_cast this

theorem exactS {a : Limbs w} {b : Limbs v} (ha : ExactS N z a) (hb : ExactS M z' b) (hz : z = z') :
    EqS a b := ha.2.trans (hz.trans hb.2.symm)

theorem overU {a : Limbs w × Bool} {b : Limbs v × Bool} (hN : w * N ≤ v * M) (ha : OverU N z a)
    (hb : OverU M z' b) (hz : z = z') : NarrowFlag (FitsU (w * N)) a b := by
  subst hz
  refine ⟨wrapU hN ha.1 hb.1 rfl, ha.2.trans ?_⟩
  rw [hb.2]
  by_cases h : InU (v * M) z
  · rw [FitsU, (hb.1.exact h).2]
    simp [h]
  · simp [h, mt (InU.mono hN) h]

theorem overS {a : Limbs w × Bool} {b : Limbs v × Bool} (hN : w * N ≤ v * M) (ha : OverS N z a)
    (hb : OverS M z' b) (hz : z = z') : NarrowFlag (FitsS (w * N)) a b := by
  subst hz
  refine ⟨wrapS hN ha.1 hb.1 rfl, ha.2.trans ?_⟩
  rw [hb.2]
  by_cases h : InS (v * M) z
  · rw [FitsS, (hb.1.exact h).2]
    simp [h]
  · simp [h, mt (InS.mono hN) h]

theorem checkU {a : Option (Limbs w)} {b : Option (Limbs v)} (hN : w * N ≤ v * M)
    (ha : CheckU N z a) (hb : CheckU M z' b) (hz : z = z') : NarrowOpt EqU (FitsU (w * N)) a b := by
  subst hz
  by_cases h : InU (w * N) z
  · obtain ⟨p, rfl, hp⟩ := ha.1 h
    obtain ⟨q, rfl, hq⟩ := hb.1 (h.mono hN)
    exact exactU hp hq rfl
  · rw [ha.2 h]
    by_cases h' : InU (v * M) z
    · obtain ⟨q, rfl, hq⟩ := hb.1 h'
      show ¬ InU _ _
      rwa [hq.2]
    · rw [hb.2 h']
      trivial

theorem checkS {a : Option (Limbs w)} {b : Option (Limbs v)} (hN : w * N ≤ v * M)
    (ha : CheckS N z a) (hb : CheckS M z' b) (hz : z = z') : NarrowOpt EqS (FitsS (w * N)) a b := by
  subst hz
  by_cases h : InS (w * N) z
  · obtain ⟨p, rfl, hp⟩ := ha.1 h
    obtain ⟨q, rfl, hq⟩ := hb.1 (h.mono hN)
    exact exactS hp hq rfl
  · rw [ha.2 h]
    by_cases h' : InS (v * M) z
    · obtain ⟨q, rfl, hq⟩ := hb.1 h'
      show ¬ InS _ _
      rwa [hq.2]
    · rw [hb.2 h']
      trivial

theorem strictU {a : Res (Limbs w)} {b : Res (Limbs v)} (hN : w * N ≤ v * M)
    (ha : StrictU N z a) (hb : StrictU M z' b) (hz : z = z') : NarrowRes EqU (FitsU (w * N)) a b := by
  subst hz
  by_cases h : InU (w * N) z
  · obtain ⟨p, rfl, hp⟩ := ha.1 h
    obtain ⟨q, rfl, hq⟩ := hb.1 (h.mono hN)
    exact exactU hp hq rfl
  · rw [ha.2 h]
    by_cases h' : InU (v * M) z
    · obtain ⟨q, rfl, hq⟩ := hb.1 h'
      show ¬ InU _ _
      rwa [hq.2]
    · rw [hb.2 h']
      trivial

theorem strictS {a : Res (Limbs w)} {b : Res (Limbs v)} (hN : w * N ≤ v * M)
    (ha : StrictS N z a) (hb : StrictS M z' b) (hz : z = z') : NarrowRes EqS (FitsS (w * N)) a b := by
  subst hz
  by_cases h : InS (w * N) z
  · obtain ⟨p, rfl, hp⟩ := ha.1 h
    obtain ⟨q, rfl, hq⟩ := hb.1 (h.mono hN)
    exact exactS hp hq rfl
  · rw [ha.2 h]
    by_cases h' : InS (v * M) z
    · obtain ⟨q, rfl, hq⟩ := hb.1 h'
      show ¬ InS _ _
      rwa [hq.2]
    · rw [hb.2 h']
      trivial

theorem opU {oc : Bool} {a : Res (Limbs w)} {b : Res (Limbs v)} (hN : w * N ≤ v * M)
    (ha : OpU oc N z a) (hb : OpU oc M z' b) (hz : z = z') : NarrowOp oc EqU (FitsU (w * N)) a b := by
  cases oc
  · obtain ⟨p, rfl, hp⟩ := ha
    obtain ⟨q, rfl, hq⟩ := hb
    exact wrapU hN hp hq hz
  · exact strictU hN ha hb hz

theorem opS {oc : Bool} {a : Res (Limbs w)} {b : Res (Limbs v)} (hN : w * N ≤ v * M)
    (ha : OpS oc N z a) (hb : OpS oc M z' b) (hz : z = z') : NarrowOp oc EqS (FitsS (w * N)) a b := by
  cases oc
  · obtain ⟨p, rfl, hp⟩ := ha
    obtain ⟨q, rfl, hq⟩ := hb
    exact wrapS hN hp hq hz
  · exact strictS hN ha hb hz

theorem satU {a : Limbs w} {b : Limbs v} (hN : w * N ≤ v * M) (ha : SatU N z a)
    (hb : SatU M z' b) (hz : z = z') : CapsU a b := by
  subst hz
  have h1 := ha.2
  have h2 := hb.2
  have hp : (2 : Int) ^ (w * N) ≤ 2 ^ (v * M) := pow_le_pow_right₀ (by decide) hN
  have hq : (0 : Int) < 2 ^ (w * N) := by positivity
  have e : ((2 ^ bits a - 1 : Nat) : Int) = 2 ^ (w * N) - 1 := by
    rw [Nat.cast_sub (Nat.one_le_two_pow), bits, ha.1]
    push_cast; rfl
  rw [CapsU]
  zify
  rw [e]
  omega

theorem satS {a : Limbs w} {b : Limbs v} (hN : w * N ≤ v * M) (ha : SatS N z a)
    (hb : SatS M z' b) (hz : z = z') : CapsS a b := by
  subst hz
  have h1 := ha.2
  have h2 := hb.2
  have hp : (2 : Int) ^ (w * N - 1) ≤ 2 ^ (v * M - 1) := pow_le_pow_right₀ (by decide) (by omega)
  have hq : (0 : Int) < 2 ^ (w * N - 1) := by positivity
  rw [CapsS, bits, ha.1]
  omega

end Widen

end I256
