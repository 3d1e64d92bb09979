import Verif.Repair.Calc
import Verif.Lemmas.Calc
import Verif.Lemmas.RepairRest

/-! # Lemmas about repaired programs from text to text -/

namespace I256

variable {w N : Nat} {sg : Bool}

theorem Repair.fromStrS_spec (T : IsType w N) (p32 : Bool) (t : List Byte) :
    ∃ p, Repair.fromStrS (w := w) p32 N t = .ok p ∧ ParsesS N 10 t p := by
  have hB : 128 ≤ w * N := by have := T.large; omega
  by_cases hl : 39 ≤ t.length
  · obtain ⟨p, e, h⟩ := Repair.fromStrRadixS_spec (w := w) T.left T.four (radix := 10) (by decide) (by decide) t
    refine ⟨p, ?_, h⟩
    rw [Repair.fromStrS, if_neg (by simp; omega), if_neg (by omega), ← e]
    unfold Repair.fromStrRadix Parse.fromStrRadix
    cases t with
    | nil => rfl
    | cons c t =>
      have ht : t ≠ [] := by rintro rfl; simp at hl
      simp only [Repair.parseBody, if_neg ht, reduceCtorEq, if_false]
  · obtain ⟨p, e, h⟩ := C29_int_from_str_partial (w := w) T.left T.four hB p32 t fun a => absurd a hl
    refine ⟨p, ?_, h⟩
    rw [← e, Repair.fromStrS, I.fromStr, if_pos (show t.length < 39 by omega), if_pos (show t.length < 39 by omega)]

theorem Repair.parse_reads (T : IsType w N) (p32 : Bool) (t : List Byte) :
    ∃ p, Repair.parse (w := w) sg p32 N t = .ok p ∧ Reads1 sg N (readDec sg (w * N) t) p := by
  cases sg with
  | true =>
    obtain ⟨p, e, h⟩ := Repair.fromStrS_spec (w := w) T p32 t
    exact ⟨p, e, h.reads⟩
  | false =>
    obtain ⟨p, e, h⟩ := Calc.parse_actual (w := w) (sg := false) T p32 t
    rw [readActual, if_neg (by simp)] at h
    exact ⟨p, e, h⟩

/-- A numeral denotes its number. -/
theorem readDec_numeral {n a : Nat} (ha : a < 2 ^ n) : readDec false n (numeral 10 a) = some (a : Int) := by
  have hd : (numeral 10 a).all (isDigit 10) = true :=
    List.all_eq_true.2 (numeral_isDigit (r := 10) (by decide) (by decide) a)
  cases hn : numeral 10 a with
  | nil => exact absurd hn (numeral_ne_nil _ _)
  | cons c t =>
    obtain ⟨h43, h45⟩ := numeral_head (r := 10) (by decide) (by decide) _ hn
    rw [readDec, if_neg (fun e => h45 (Option.some.inj e.2)), decimal_digits h43 h45, ← hn]
    rw [if_pos hd, numVal_numeral (by decide) (by decide)]
    simp only [Option.bind_eq_bind, Option.bind_some, keep]
    rw [if_pos]
    simp only [Fits, Bool.false_eq_true, if_false, InU]
    exact ⟨by positivity, by exact_mod_cast ha⟩

end I256
