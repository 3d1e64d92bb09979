import Verif.Lemmas.RepairMixed
import Verif.Props.Mixed

/-!
# C107: the repairs make every program over both types exact

The programs of C106 with the operators of C102 and with the `TryFrom` of C82 (B11).  The changed functions are not
in the crate.
-/

namespace I256

open Sample

variable {w v N M : Nat} {s : Bool → Nat → Limbs w} {t : Bool → Nat → Limbs v}

/-- C107: every program over both types does what it should do in either build, with no proviso. -/
theorem C107_program (T : IsType w N) (hs : ∀ sg i, (s sg i).length = N) (c : Mix) (oc : Bool) (k : Nat) :
    MixEnds N (c.ideal oc (w * N) k fun sg i => value sg (s sg i)) (Repair.runMix oc N k c s) :=
  Repair.runMix_sem T
    (fun sg s env hd e => by
      obtain rfl : (fun i => value sg (s i)) = env := funext fun i => (hd i).2
      exact Repair.eval_ideal T (fun i => (hd i).1) oc e)
    (fun m x hx => Repair.move_exact T hx m) k c s _ fun sg i => ⟨hs sg i, rfl⟩

example (oc : Bool) := C107_program (s := both) (by decide) both_length hop oc 7
/-- The conversion that the crate rejects. -/
example : final2 true 0 ((Mix.move .trySigned 0 2).ideal false 256 1 fun sg i => value sg (gapped sg i)) =
      some (2 ^ 255 - 1) ∧
    final2 true 0 (Repair.runMix false 4 1 (.move .trySigned 0 2) gapped) = some maxS ∧
    final2 true 0 ((Mix.move .trySigned 0 2).run false 4 1 gapped) = none := by decide +kernel

/-- C107: with overflow checks this is the program on the integers: the full claim of C106. -/
theorem C107_exact (T : IsType w N) (hs : ∀ sg i, (s sg i).length = N) (c : Mix) (k : Nat) :
    MixEnds N (c.exact (w * N) k fun sg i => value sg (s sg i)) (Repair.runMix true N k c s) := by
  rw [← Mix.ideal_exact]
  exact C107_program T hs c true k

example := C107_exact (s := gapped) (by decide) gapped_length (.move .trySigned 0 2) 1

/-- C107: a program that does not panic in a build with overflow checks has the same outcome in a build without. -/
theorem C107_debug_release (T : IsType w N) (hs : ∀ sg i, (s sg i).length = N) (c : Mix) (k : Nat)
    (h : Repair.runMix true N k c s ≠ .panic) : Repair.runMix false N k c s = Repair.runMix true N k c s := by
  have h1 := C107_exact T hs c k
  have h2 := C107_program T hs c false k
  have hk : c.ideal false (w * N) k (fun sg i => value sg (s sg i)) =
      c.exact (w * N) k (fun sg i => value sg (s sg i)) :=
    c.sem_kept (fun _ _ e _ => e.ideal_release) k _ fun e => h (by
      rw [show c.exact (w * N) k (fun sg i => value sg (s sg i)) = .panic from e] at h1; exact h1)
  rw [hk] at h2
  exact h2.unique h1

example : final2 true 1 (Repair.runMix true 4 7 hop both) ≠ none := by decide +kernel

/-- C107: a program that meets none of the known faults is not affected by the repairs. -/
theorem C107_same (T : IsType w N) (hs : ∀ sg i, (s sg i).length = N) (c : Mix) (k : Nat)
    (ht : c.Tame w N k fun sg i => value sg (s sg i)) : Repair.runMix true N k c s = c.run true N k s :=
  (C107_exact T hs c k).unique (C106_exact_partial T hs c k ht)

example := C107_same (s := both) (by decide) both_length product 1 (product_plain.tame 1 _)

/-- C107: a program has the same outcome in the builds with 32-bit and with 64-bit limbs, with and without overflow
checks, with no proviso. -/
theorem C107_limb_size (T : Builds w N v M) (hs : ∀ sg i, (s sg i).length = N)
    (hs' : ∀ sg i, (t sg i).length = M) (he : ∀ sg i, value sg (s sg i) = value sg (t sg i)) (c : Mix) (oc : Bool)
    (k : Nat) :
    match Repair.runMix oc N k c s, Repair.runMix oc M k c t with
    | .ends a, .ends b => ∀ sg i, value sg (a sg i) = value sg (b sg i)
    | .panic, .panic => True
    | .more, .more => True
    | _, _ => False := by
  have T1 : IsType w N := ⟨T.left, T.left, rfl, T.large, T.wide, T.small⟩
  have T2 : IsType v M := ⟨T.right, T.right, rfl, T.width ▸ T.large, T.width ▸ T.wide, T.width ▸ T.small⟩
  have e : (fun sg i => value sg (s sg i)) = fun sg i => value sg (t sg i) := funext fun sg => funext (he sg)
  have h1 := C107_program T1 hs c oc k
  have h2 := C107_program T2 hs' c oc k
  rw [← T.width, ← e] at h2
  cases ho : c.ideal oc (w * N) k (fun sg i => value sg (s sg i)) with
  | more =>
    rw [ho] at h1 h2
    rw [show Repair.runMix oc N k c s = .more from h1, show Repair.runMix oc M k c t = .more from h2]
    trivial
  | panic =>
    rw [ho] at h1 h2
    rw [show Repair.runMix oc N k c s = .panic from h1, show Repair.runMix oc M k c t = .panic from h2]
    trivial
  | ends env =>
    rw [ho] at h1 h2
    obtain ⟨a, ea, ha⟩ := h1
    obtain ⟨b, eb, hb⟩ := h2
    rw [ea, eb]
    intro sg i
    rw [(ha sg i).2, (hb sg i).2]

example (oc : Bool) (k : Nat) := C107_limb_size (s := fun _ => st2) (t := fun _ => st3) (by decide)
  (fun _ => st2_length) (fun _ => st3_length) (fun sg => st3_value sg) hop oc k

end I256
