import Verif.Repair.Mixed
import Verif.Lemmas.RepairProg
import Verif.Lemmas.Mixed

/-!
# Lemmas about the repaired programs over both types
-/

namespace I256

variable {w N : Nat} {oc : Bool}

namespace Repair

theorem move_exact {x : Limbs w} (T : IsType w N) (hx : x.length = N) (m : Move) :
    ExprGives (!m.src) N (m.exact (w * N) (value m.src x)) (move x m) := by
  cases m with
  | trySigned =>
    subst hx
    obtain ⟨h1, h2⟩ := tryFromUnsigned_spec T.pos T.even T.four
    simp only [move, Move.exact, value, Move.src, Bool.false_eq_true, if_false, keep, Fits, if_true]
    by_cases hf : InS (w * x.length) (toNat x : Int)
    · obtain ⟨y, e, hy, hv⟩ := h1 hf
      rw [e, if_pos hf]
      exact ⟨y, rfl, hy, hv⟩
    · rw [h2 hf, if_neg hf]; rfl
  | asSigned | asUnsigned | unsignedAbs | tryUnsigned => exact Move.run_exact T hx _ (by simp)

theorem runMix_sem {ev : (sg : Bool) → (Nat → Int) → Expr sg → Option Int} {mv : Int → Move → Option Int}
    (T : IsType w N)
    (H : ∀ sg (s : Nat → Limbs w) env, Denotes sg N s env → ∀ e, ExprGives sg N (ev sg env e) (eval oc s e))
    (M : ∀ m (x : Limbs w), x.length = N → ExprGives (!m.src) N (mv (value m.src x) m) (move x m))
    (k : Nat) (c : Mix) : ∀ (s : Bool → Nat → Limbs w) env, Denotes2 N s env →
      MixEnds N (c.sem ev mv k env) (runMix oc N k c s) := by
  induction c with
  | skip => intro s env hd; exact ⟨s, rfl, hd⟩
  | lit sg i v =>
    intro s env hd
    obtain ⟨h1, h2⟩ := lit_value (w := w) T sg v
    refine ⟨_, rfl, ?_⟩
    rw [← h2]
    exact hd.set h1 sg i
  | set i e =>
    intro s env hd
    exact .assign hd (H _ _ _ (hd _) e) i
  | move m i j =>
    intro s env hd
    rw [Mix.sem, runMix, ← (hd m.src j).2]
    exact .assign hd (M m _ (hd m.src j).1) i
  | seq c d ihc ihd =>
    intro s env hd
    exact (ihc s env hd).bind fun s' env' _ hd' => ihd s' env' hd'
  | ite b c d ihc ihd =>
    intro s env hd
    rw [Mix.sem, runMix, test_sem T (H _ _ _ (hd _)) b]
    refine .test fun t _ => ?_
    cases t
    · exact ihd s env hd
    · exact ihc s env hd
  | loop b c ih =>
    intro s env hd
    exact MixEnds.repeat (Q := fun _ => True) (B := fun _ => True) (fun s env hd _ => test_sem T (H _ _ _ (hd _)) b)
      (fun s env hd _ => ih s env hd) k s env hd (repeatMeets_all (fun _ => trivial) (fun _ => trivial) k env)

end Repair

theorem Mix.sem_kept {ev ev' : (sg : Bool) → (Nat → Int) → Expr sg → Option Int} {mv : Int → Move → Option Int}
    (h : ∀ sg env e z, ev sg env e = some z → ev' sg env e = some z) (k : Nat) (c : Mix) :
    ∀ env, Outcome.Kept (c.sem ev mv k env) (c.sem ev' mv k env) := by
  induction c with
  | skip | lit | move => exact fun _ _ => rfl
  | set i e => exact fun env => (Outcome.Kept.ofOption (h _ _ e)).bind fun _ _ => rfl
  | seq c d ihc ihd => exact fun env => (ihc env).bind ihd
  | ite b c d ihc ihd =>
    intro env
    refine (Outcome.Kept.ofOption (b.sem_kept (h _ _))).bind fun t => ?_
    cases t
    · exact ihd env
    · exact ihc env
  | loop b c ih =>
    intro env
    exact Outcome.Kept.repeatWhile (fun env => Outcome.Kept.ofOption (b.sem_kept (h _ _))) ih k env

theorem Mix.ideal_exact {n : Nat} : Mix.ideal true n = Mix.exact n := by
  unfold Mix.ideal Mix.exact
  congr 1
  funext sg env e
  exact e.ideal_exact env

/-- Two outcomes that denote the same are the same. -/
theorem MixEnds.unique {o : Outcome (Bool → Nat → Int)} {a b : Outcome (Bool → Nat → Limbs w)} (ha : MixEnds N o a)
    (hb : MixEnds N o b) : a = b := by
  cases o with
  | more => exact Eq.trans (show a = .more from ha) (show b = .more from hb).symm
  | panic => exact Eq.trans (show a = .panic from ha) (show b = .panic from hb).symm
  | ends env =>
    obtain ⟨s, rfl, hs⟩ := ha
    obtain ⟨t, rfl, ht⟩ := hb
    rw [show s = t from funext fun sg => funext fun i =>
      (value_eq_iff (hs sg i).1 (ht sg i).1).1 ((hs sg i).2.trans (ht sg i).2.symm)]

end I256
