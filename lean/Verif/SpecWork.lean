import Verif.Spec

/-!
# How much work an operation takes

Numbers of machine multiplications and divisions.
-/

namespace I256

/-- Products of two limbs and divisions of a number of two limbs. -/
structure Work where
  mul : Nat
  div : Nat
  deriving DecidableEq, Repr

/-- Both. -/
def Work.add (a b : Work) : Work := ⟨a.mul + b.mul, a.div + b.div⟩

/-- The pairs `i < M`, `j < N` with `i + j < M`: the products that a number of `M` limbs needs if it is multiplied by
one of `N` limbs and `M` limbs of the result are kept. -/
def products (M N : Nat) : Nat := ((List.range M).map fun i => min N (M - i)).sum

/-- The products of numbers that the computation of a power by squaring needs: one for each halving of the exponent and
one for each binary digit `1`. -/
def powProducts (e : Nat) : Nat := if e < 2 then e else powProducts (e / 2) + 1 + e % 2

/-- `r` is the result `f`, and the counter beside it shows `n`. -/
def Costs {α : Type} (r : α × Nat) (f : α) (n : Nat) : Prop := r.1 = f ∧ r.2 = n

/-- `r` is the result `f`, and panics with it; if there is a result, the counters beside it show no more than `m` products
and `d` divisions. -/
def CostsAtMost {α : Type} (r : Res (α × Work)) (f : Res α) (m d : Nat) : Prop :=
  r.map (·.1) = f ∧ ∀ a k, r = .ok (a, k) → k.mul ≤ m ∧ k.div ≤ d

end I256
