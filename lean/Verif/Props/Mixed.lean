import Verif.Lemmas.Mixed
import Verif.Props.Loop

/-!
# C106: programs over the signed and the unsigned type of one width

Literals, `as_signed`, `as_unsigned`, `unsigned_abs` and `TryFrom` added to the programs of C101.  A state has
variables of both types.
-/

namespace I256

open Sample

variable {w v N M : Nat} {s : Bool → Nat → Limbs w} {t : Bool → Nat → Limbs v}

/-- With signed `v0, v1, …` and unsigned `u0, u1, …`: the product `v2` of `v0` and `v1`, by way of the absolute
values.
`u0 = v0.unsigned_abs(); u1 = v1.unsigned_abs(); u2 = u0 * u1;`
`if v0 < 0 && v1 >= 0 || v0 >= 0 && v1 < 0 {`
`  if u2 != 0 { u2 = u2 - 1; v2 = u2.as_signed(); u5 = U::try_from(v2).unwrap(); v2 = !v2 } else { v2 = 0 }`
`} else { v2 = u2.as_signed(); u5 = U::try_from(v2).unwrap() }`. -/
def Sample.product : Mix :=
  .seq (.lit false 3 1) <| .seq (.lit false 4 0) <| .seq (.lit true 3 0) <|
  .seq (.move .unsignedAbs 0 0) <| .seq (.move .unsignedAbs 1 1) <|
  .seq (.set (sg := false) 2 (.mul (.var 0) (.var 1))) <|
  .ite (sg := true) (.or (.and (.lt (.var 0) (.var 3)) (.ge (.var 1) (.var 3)))
      (.and (.ge (.var 0) (.var 3)) (.lt (.var 1) (.var 3))))
    (.ite (sg := false) (.ne (.var 2) (.var 4))
      (.seq (.set (sg := false) 2 (.sub (.var 2) (.var 3))) <| .seq (.move .asSigned 2 2) <|
        .seq (.move .tryUnsigned 5 2) (.set (sg := true) 2 (.not (.var 2))))
      (.set (sg := true) 2 (.var 3)))
    (.seq (.move .asSigned 2 2) (.move .tryUnsigned 5 2))

/-- `v0 = i128::MIN; while v0 < v1 { v0 = v0 + v1; u0 = v0.as_unsigned() >> 3; v1 = I::try_from(u0) }`, where the
shift is of a variable. -/
def Sample.hop : Mix :=
  .seq (.lit true 0 (BitVec.intMin 128)) <|
  .loop (sg := true) (.lt (.var 0) (.var 1)) <|
  .seq (.set (sg := true) 0 (.add (.var 0) (.var 1))) <| .seq (.move .asUnsigned 0 0) <|
  .seq (.set (sg := false) 0 (.shr (.var 0) 3)) <| .move .trySigned 1 0

/-- Sample state: signed `2^254, 2^255 - 1, …` and unsigned the operands of `st4`. -/
def Sample.both : Bool → Nat → Limbs 64
  | true => st2
  | false => st4

theorem Sample.both_length : ∀ sg i, (both sg i).length = 4 := by
  intro sg i; cases sg
  · exact st4_length i
  · exact st2_length i

/-- Operands for which the signed multiplication of the crate is wrong, and `2^255 - 1`. -/
def Sample.gapped : Bool → Nat → Limbs 64
  | _, 0 => [0xaaaaaaaaaaaaaaab, 0xaaaaaaaaaaaaaaaa, 0xaaaaaaaaaaaaaaaa, 0x2aaaaaaaaaaaaaaa]
  | _, 1 => [0xfffffffffffffffd, 0xffffffffffffffff, 0xffffffffffffffff, 0xffffffffffffffff]
  | _, _ => maxS

theorem Sample.gapped_length : ∀ sg i, (gapped sg i).length = 4 := by
  intro sg i; unfold gapped; split <;> rfl

/-- The final value of variable `i`, if the program ends. -/
def Sample.final2 {α : Type} (sg : Bool) (i : Nat) : Outcome (Bool → Nat → α) → Option α
  | .ends s => some (s sg i)
  | _ => none

/-- C106, partial: what every program over both types does in either build, with no proviso.  The known faults are
taken for the rules of the crate; the full claim has the integers (`Mix.exact`) in their place. -/
theorem C106_all_partial (T : IsType w N) (hs : ∀ sg i, (s sg i).length = N) (c : Mix) (oc : Bool) (k : Nat) :
    MixEnds N (c.actual oc w N k fun sg i => value sg (s sg i)) (c.run oc N k s) :=
  c.run_sem (P := fun _ _ _ => True) (Q := fun _ _ => True) T
    (fun sg s env hd e _ => by
      obtain rfl : (fun i => value sg (s i)) = env := funext fun i => (hd i).2
      exact e.eval_actual T (fun i => (hd i).1) oc)
    (fun m x hx _ => m.run_actual T hx)
    k s _ (fun sg i => ⟨hs sg i, rfl⟩) (c.meets_all (fun _ _ _ => trivial) (fun _ _ => trivial) k _)

example (oc : Bool) := C106_all_partial (s := both) (by decide) both_length hop oc 7
example : final2 true 1 (hop.actual true 64 4 7 fun sg i => value sg (both sg i)) ≠ none := by decide +kernel

/-- C106, partial: a program over both types, in a build with overflow checks, does just what it does on the
integers, provided no operation meets one of the known faults within `k` rounds (`Mix.Tame`).  The full claim has no
such proviso. -/
theorem C106_exact_partial (T : IsType w N) (hs : ∀ sg i, (s sg i).length = N) (c : Mix) (k : Nat)
    (ht : c.Tame w N k fun sg i => value sg (s sg i)) :
    MixEnds N (c.exact (w * N) k fun sg i => value sg (s sg i)) (c.run true N k s) :=
  c.run_sem (P := fun _ env e => e.Tame w N env) (Q := fun z m => m = .trySigned → z ≠ 2 ^ (w * N - 1) - 1) T
    (fun sg s env hd e he => by
      obtain rfl : (fun i => value sg (s i)) = env := funext fun i => (hd i).2
      exact e.eval_exact T (fun i => (hd i).1) he)
    (fun m x hx hm => m.run_exact T hx hm)
    k s _ (fun sg i => ⟨hs sg i, rfl⟩) ht

example := C106_exact_partial (s := both) (by decide) both_length (.move .trySigned 0 0) 1
  (fun _ => by decide +kernel)

/-- C106: for programs without `/` and `%`, without `*` and `pow` of the signed type and without `TryFrom` to the
signed type there is no proviso. -/
theorem C106_plain (T : IsType w N) (hs : ∀ sg i, (s sg i).length = N) (c : Mix) (hc : c.Plain) (k : Nat) :
    MixEnds N (c.exact (w * N) k fun sg i => value sg (s sg i)) (c.run true N k s) :=
  C106_exact_partial T hs c k (hc.tame k _)

theorem Sample.product_plain : product.Plain := by
  simp [product, Mix.Plain, Cond.Plain, Expr.Plain]

example := C106_plain (s := both) (by decide) both_length product product_plain

/-- C106: a program that ends in a build with overflow checks ends with the same variables in a build without. -/
theorem C106_debug_release (T : IsType w N) (hs : ∀ sg i, (s sg i).length = N) (c : Mix) (k : Nat) :
    (∀ s', c.run true N k s = .ends s' → c.run false N k s = .ends s' ∧ ∀ sg i, (s' sg i).length = N) ∧
      (c.run true N k s = .more → c.run false N k s = .more) :=
  c.run_stable T k s hs

example : final2 true 1 (hop.run true 4 7 both) ≠ none := by decide +kernel
example := C106_debug_release (s := both) (by decide) both_length hop 7

/-- C106, partial: a program has the same outcome in the builds with 32-bit and with 64-bit limbs, provided no
operation meets one of the known faults in either of them. -/
theorem C106_limb_size_partial (T : Builds w N v M) (hs : ∀ sg i, (s sg i).length = N)
    (hs' : ∀ sg i, (t sg i).length = M) (he : ∀ sg i, value sg (s sg i) = value sg (t sg i)) (c : Mix) (k : Nat)
    (ht : c.Tame w N k fun sg i => value sg (s sg i)) (ht' : c.Tame v M k fun sg i => value sg (s sg i)) :
    match c.run true N k s, c.run true M k t with
    | .ends a, .ends b => ∀ sg i, value sg (a sg i) = value sg (b sg i)
    | .panic, .panic => True
    | .more, .more => True
    | _, _ => False := by
  have T1 : IsType w N := ⟨T.left, T.left, rfl, T.large, T.wide, T.small⟩
  have T2 : IsType v M := ⟨T.right, T.right, rfl, T.width ▸ T.large, T.width ▸ T.wide, T.width ▸ T.small⟩
  have e : (fun sg i => value sg (s sg i)) = fun sg i => value sg (t sg i) := funext fun sg => funext (he sg)
  have h1 := C106_exact_partial T1 hs c k ht
  have h2 := C106_exact_partial T2 hs' c k (e ▸ ht')
  rw [← T.width, ← e] at h2
  cases ho : c.exact (w * N) k (fun sg i => value sg (s sg i)) with
  | more =>
    rw [ho] at h1 h2
    rw [show c.run true N k s = .more from h1, show c.run true M k t = .more from h2]
    trivial
  | panic =>
    rw [ho] at h1 h2
    rw [show c.run true N k s = .panic from h1, show c.run true M k t = .panic from h2]
    trivial
  | ends env =>
    rw [ho] at h1 h2
    obtain ⟨a, ea, ha⟩ := h1
    obtain ⟨b, eb, hb⟩ := h2
    rw [ea, eb]
    intro sg i
    rw [(ha sg i).2, (hb sg i).2]

example (k : Nat) := C106_limb_size_partial (s := fun _ => st2) (t := fun _ => st3) (by decide) (fun _ => st2_length)
  (fun _ => st3_length) (fun sg => st3_value sg) product k (product_plain.tame k _) (product_plain.tame k _)

theorem Sample.product_exact {n : Nat} (hn : 0 < n) (env : Bool → Nat → Int) {x y : Int} (hx : env true 0 = x)
    (hy : env true 1 = y) (k : Nat) :
    (InS n (x * y) → ∃ env', product.exact n k env = .ends env' ∧ env' true 2 = x * y) ∧
      (¬ InS n (x * y) → product.exact n k env = .panic) := by
  have h2 : (2 : Int) ^ n = 2 * 2 ^ (n - 1) := by
    rw [← pow_succ', Nat.sub_add_cancel (by omega)]
  have hpos : (0 : Int) < 2 ^ (n - 1) := by positivity
  have h0 : 0 ≤ |x| * |y| := by positivity
  simp only [product, Mix.exact, Mix.sem, setVar, Outcome.bind, Outcome.ofOption, Move.exact, Move.src, Cond.sem,
    Expr.exact, Function.update]
  simp [hx, hy]
  by_cases hf : Fits false n (|x| * |y|)
  swap
  · have hk : keep false n (|x| * |y|) = none := if_neg hf
    have hi : ¬ InS n (x * y) := by
      intro h
      apply hf
      rw [← abs_mul] at h0 ⊢
      refine ⟨h0, ?_⟩
      unfold InS at h
      rw [h2] at h ⊢
      have : |x * y| ≤ 2 ^ (n - 1) := abs_le.2 (by omega)
      omega
    simp [hk, hi]
  have hk : keep false n (|x| * |y|) = some (|x| * |y|) := if_pos hf
  obtain ⟨-, hlt⟩ := hf
  -- the number that is seen as a signed one
  have fit : ∀ z : Int, 0 ≤ z → z < 2 ^ (n - 1) → reduce true n z = z ∧ keep false n z = some z := by
    intro z h3 h4
    exact ⟨bmod_of_InS (by unfold InS; omega), if_pos ⟨h3, by omega⟩⟩
  have big : ∀ z : Int, 2 ^ (n - 1) ≤ z → z < 2 ^ n → keep false n (reduce true n z) = none := by
    intro z h3 h4
    have e : reduce true n z = z - 2 ^ n := by
      have h5 := bmod_of_InS (n := n) (z := z - 2 ^ n) (by unfold InS; omega)
      rw [← h5]
      simp only [reduce, if_true]
      rw [show z = z - 2 ^ n + ((2 ^ n : Nat) : Int) * 1 by push_cast; omega, Int.add_mul_bmod_self_left]
      congr 1
      push_cast; omega
    rw [e]
    exact if_neg (fun h => by have := h.1; omega)
  have neg : x * y = -(|x| * |y|) → |x| * |y| ≠ 0 →
      (InS n (x * y) → reduce true n (|x| * |y| - 1) = |x| * |y| - 1 ∧
        keep false n (|x| * |y| - 1) = some (|x| * |y| - 1)) ∧
      (¬ InS n (x * y) → keep false n (|x| * |y| - 1) = some (|x| * |y| - 1) ∧
        keep false n (reduce true n (|x| * |y| - 1)) = none) := by
    intro e hz
    rw [e]
    unfold InS
    exact ⟨fun h => fit _ (by omega) (by omega), fun h => ⟨if_pos ⟨by omega, by omega⟩, big _ (by omega) (by omega)⟩⟩
  have pos : x * y = |x| * |y| →
      (InS n (x * y) → reduce true n (|x| * |y|) = |x| * |y| ∧ keep false n (|x| * |y|) = some (|x| * |y|)) ∧
      (¬ InS n (x * y) → keep false n (reduce true n (|x| * |y|)) = none) := by
    intro e
    rw [e]
    unfold InS
    exact ⟨fun h => fit _ (by omega) (by omega), fun h => big _ (by omega) (by omega)⟩
  simp [hk]
  by_cases hz : x = 0 ∨ y = 0
  · have e : x * y = 0 := by rcases hz with rfl | rfl <;> simp
    have e' : |x| * |y| = 0 := by rw [← abs_mul, e]; rfl
    have hi : InS n 0 := by unfold InS; omega
    have hk0 : keep false n 0 = some 0 := (fit 0 (by omega) hpos).2
    rcases lt_or_ge x 0 with h1 | h1 <;> rcases lt_or_ge y 0 with h3 | h3
    · simp [hx, hy, h1, h1.not_ge, h3.not_ge, e, e', reduce, hi, hk0]
    · simp [hx, hy, h1, h3, hz, e, e', reduce, hi]
    · simp [hx, hy, h1, h3, h1.not_gt, hz, e, e', reduce, hi]
    · simp [hx, hy, h1, h1.not_gt, h3.not_gt, e, e', reduce, hi, hk0]
  · rw [not_or] at hz
    have hz' := mul_ne_zero (abs_ne_zero.2 hz.1) (abs_ne_zero.2 hz.2)
    rcases lt_or_ge x 0 with h1 | h1 <;> rcases lt_or_ge y 0 with h3 | h3
    · have e : x * y = |x| * |y| := by rw [abs_of_neg h1, abs_of_neg h3]; ring
      obtain ⟨p, q⟩ := pos e
      by_cases hi : InS n (x * y)
      · simp [hx, hy, h1, h1.not_ge, h3.not_ge, hi, p hi]
        omega
      · simp [hx, hy, h1, h1.not_ge, h3.not_ge, hi, q hi]
    · have e : x * y = -(|x| * |y|) := by rw [abs_of_neg h1, abs_of_nonneg h3]; ring
      obtain ⟨p, q⟩ := neg e hz'
      by_cases hi : InS n (x * y)
      · simp [hx, hy, h1, h3, hi, p hi, hz]
        omega
      · simp [hx, hy, h1, h3, hi, q hi, hz]
    · have e : x * y = -(|x| * |y|) := by rw [abs_of_nonneg h1, abs_of_neg h3]; ring
      obtain ⟨p, q⟩ := neg e hz'
      by_cases hi : InS n (x * y)
      · simp [hx, hy, h1, h3, h1.not_gt, hi, p hi, hz]
        omega
      · simp [hx, hy, h1, h3, h1.not_gt, hi, q hi, hz]
    · have e : x * y = |x| * |y| := by rw [abs_of_nonneg h1, abs_of_nonneg h3]
      obtain ⟨p, q⟩ := pos e
      by_cases hi : InS n (x * y)
      · simp [hx, hy, h1, h1.not_gt, h3.not_gt, hi, p hi]
        omega
      · simp [hx, hy, h1, h1.not_gt, h3.not_gt, hi, q hi]

/-- C106: client code can multiply signed numbers exactly.  `Sample.product` ends with the product in both builds if
it fits and, in a build with overflow checks, panics if not — also for the products that `*` of the signed types
lets pass. -/
theorem C106_product (T : IsType w N) (hs : ∀ sg i, (s sg i).length = N) (k : Nat) :
    (InS (w * N) (toInt (s true 0) * toInt (s true 1)) → ∀ oc, ∃ s', product.run oc N k s = .ends s' ∧
      toInt (s' true 2) = toInt (s true 0) * toInt (s true 1)) ∧
    (¬ InS (w * N) (toInt (s true 0) * toInt (s true 1)) → product.run true N k s = .panic) := by
  have h := C106_plain T hs product product_plain k
  obtain ⟨h1, h2⟩ := product_exact (n := w * N) (by have := T.large; omega) (fun sg i => value sg (s sg i)) rfl rfl k
  constructor
  · intro hi oc
    obtain ⟨env, e, hv⟩ := h1 hi
    rw [e] at h
    obtain ⟨s', es, hd⟩ := h
    refine ⟨s', ?_, ((hd true 2).2 : _).trans hv⟩
    cases oc
    · exact ((C106_debug_release T hs product k).1 s' es).1
    · exact es
  · intro hi
    rw [h2 hi] at h
    exact h

example := C106_product (s := gapped) (by decide) gapped_length 1
example : ¬ InS 256 (toInt (gapped true 0) * toInt (gapped true 1)) ∧
    I.mul true (gapped true 0) (gapped true 1) = .ok maxS := by decide +kernel
example : InS 256 (toInt (both true 5) * toInt (both true 2)) := by decide +kernel

/-- C106: the fault that is new here.  `TryFrom` and `unwrap` of the largest signed number panics; on the integers
the program ends. -/
theorem C106_exact_false :
    final2 true 0 ((Mix.move .trySigned 0 2).exact 256 1 fun sg i => value sg (gapped sg i)) = some (2 ^ 255 - 1) ∧
      final2 true 0 ((Mix.move .trySigned 0 2).run true 4 1 gapped) = none := by decide +kernel

end I256
