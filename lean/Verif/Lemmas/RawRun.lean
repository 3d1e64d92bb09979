import Verif.SpecRaw
import Verif.Lemmas.Raw

/-! Runs of the literal model in terms of the specification of arrays in memory. -/

namespace I256

variable {w : Nat}

namespace Raw

variable {α : Type}

theorem exists_mem (be : Bool) (a : List α) : ∃ x, a = mem be x := ⟨mem be a, (mem_mem be a).symm⟩

@[simp] theorem logical_mem (be : Bool) (x : List α) : logical be (mem be x) = x := mem_mem be x

@[simp] theorem memNat_mem (be : Bool) (x : Limbs w) : memNat be (mem be x) = toNat x := by
  rw [memNat, logical_mem]

@[simp] theorem memInt_mem (be : Bool) (x : Limbs w) : memInt be (mem be x) = toInt x := by
  rw [memInt, logical_mem]

theorem holds {be : Bool} {P : Limbs w → Prop} {v : Limbs w} (h : P v) :
    Holds be P (.ok (mem be v)) := ⟨_, rfl, by rwa [logical_mem]⟩

theorem holdsO {be : Bool} {P : Limbs w × Bool → Prop} {r : Limbs w × Bool} (h : P r) :
    HoldsO be P (.ok (mem be r.1, r.2)) := ⟨_, _, rfl, by rwa [logical_mem]⟩

/-- Writing out of range panics. -/
theorem wr_panic (be : Bool) {x : List α} {i : Nat} (h : x.length ≤ i) (v : α) :
    wr be (mem be x) i v = .panic := by
  unfold wr
  rw [mem_length]
  cases be
  · simp [neIndex, set_, mem]; omega
  · by_cases h0 : 1 ≤ x.length
    · simp only [neIndex, if_true]
      rw [usub_ok h0, Res.mbind_ok, usub, if_neg (by omega)]
      rfl
    · simp only [neIndex, if_true]
      rw [usub, if_neg h0]
      rfl

end Raw

end I256
