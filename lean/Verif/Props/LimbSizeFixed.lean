import Verif.Props.LimbSizeDiv
import Verif.Props.FixedStray
import Verif.Props.FixedZero
import Verif.Props.GapAll

/-!
# Limb size independence (C40): multiplication and division by scalars of a fixed width

`x` is an operand in one build and `x'` the same operand in the other (`Twins`).
-/

namespace I256

open Sample

variable {w v : Nat} {x : Limbs w} {x' : Limbs v}

/-! ### Multiplication -/

private theorem formsG_same {N M : Nat} {oc : Bool} {z z' : Int} {a : Res (Limbs w)}
    {b : Res (Limbs w × Bool)} {c : Res (Option (Limbs w))} {d : Res (Limbs w)} {a' : Res (Limbs v)}
    {b' : Res (Limbs v × Bool)} {c' : Res (Option (Limbs v))} {d' : Res (Limbs v)}
    (hN : w * N = v * M) (ez : z = z') (hg : Mul.Gap w N z ↔ Mul.Gap v M z)
    (h : FormsG oc N z a b c d) (h' : FormsG oc M z' a' b' c' d') :
    SameRes Same a a' ∧ SameRes SameFlag b b' ∧ SameRes SameOpt c c' ∧ SameRes Same d d' := by
  subst ez
  have hp : Passes w N z ↔ Passes v M z := by rw [Passes, Passes, hN, hg]
  obtain ⟨⟨s, rfl, hs⟩, ⟨p, rfl, hp1, hp2⟩, ⟨o, rfl, ho1, ho2⟩, hd⟩ := h
  obtain ⟨⟨s', rfl, hs'⟩, ⟨p', rfl, hp1', hp2'⟩, ⟨o', rfl, ho1', ho2'⟩, hd'⟩ := h'
  refine ⟨Same.wrapS hN hs hs' rfl, ⟨Same.wrapS hN hp1 hp1' rfl, ?_⟩, ?_, ?_⟩
  · rw [Bool.eq_iff_iff, hp2, hp2', hp]
  · by_cases q : Passes w N z
    · obtain ⟨t, rfl, ht⟩ := ho1 q
      obtain ⟨t', rfl, ht'⟩ := ho1' (hp.1 q)
      exact Same.wrapS hN ht ht' rfl
    · rw [ho2 q, ho2' fun h => q (hp.2 h)]
      trivial
  · cases oc
    · obtain ⟨t, rfl, ht⟩ := hd
      obtain ⟨t', rfl, ht'⟩ := hd'
      exact Same.wrapS hN ht ht' rfl
    · by_cases q : Passes w N z
      · obtain ⟨t, rfl, ht⟩ := hd.1 q
        obtain ⟨t', rfl, ht'⟩ := hd'.1 (hp.1 q)
        exact Same.wrapS hN ht ht' rfl
      · rw [hd.2 q, hd'.2 fun h => q (hp.2 h)]
        trivial

/-- C40 (partial): multiplication of signed numbers by scalars of a fixed width, except 128-bit scalars
and products that only one build takes for representable. Full statement: the same without `hk`, `hg`
and `hg'`. It is false without `hk` (`C40_int_mul_wide_false`: on 32-bit limbs two digits of the scalar are
exchanged) and without the other two (`C40_int_mul_fixed_false`). -/
theorem C40_int_mul_fixed_partial (hx : Twins x x') (k : Fix) (hk : k ≠ .b128) (n : BitVec k.n) (oc : Bool)
    (hg : Mul.Gap w x.length (toInt x * n.toNat) ↔ Mul.Gap v x'.length (toInt x * n.toNat))
    (hg' : Mul.Gap w x.length (toInt x * n.toInt) ↔ Mul.Gap v x'.length (toInt x * n.toInt)) :
    (∀ p ∈ [(I.wrappingMulFixU k x n, I.wrappingMulFixU k x' n), (I.mulFixU oc k x n, I.mulFixU oc k x' n),
        (I.wrappingMulFixI k x n, I.wrappingMulFixI k x' n), (I.mulFixI oc k x n, I.mulFixI oc k x' n)],
      SameRes Same p.1 p.2) ∧
    (∀ p ∈ [(I.overflowingMulFixU k x n, I.overflowingMulFixU k x' n),
        (I.overflowingMulFixI k x n, I.overflowingMulFixI k x' n)], SameRes SameFlag p.1 p.2) ∧
    (∀ p ∈ [(I.checkedMulFixU k x n, I.checkedMulFixU k x' n),
        (I.checkedMulFixI k x n, I.checkedMulFixI k x' n)], SameRes SameOpt p.1 p.2) := by
  have gx := hx.symm
  have e := hx.builds.width
  obtain ⟨a, b⟩ := C54_int_mul_fixed_all_partial hx.builds.left hx.builds.large k (fun h => hk h.2) n oc
  obtain ⟨a', b'⟩ := C54_int_mul_fixed_all_partial gx.builds.left gx.builds.large k (fun h => hk h.2) n oc
  obtain ⟨s1, s2, s3, s4⟩ := formsG_same e (by rw [hx.int]) hg a a'
  obtain ⟨t1, t2, t3, t4⟩ := formsG_same e (by rw [hx.int]) hg' b b'
  simp only [List.mem_cons, List.not_mem_nil, or_false, forall_eq_or_imp, forall_eq]
  exact ⟨⟨s1, s4, t1, t4⟩, ⟨s2, t2⟩, s3, t3⟩

example := C40_int_mul_fixed_partial twins_ones .b64 (by decide) (-7#64) true (by decide) (by decide)

/-! ### Division -/

section alike

variable {N M n X Y X' Y' : Nat} {α β : Type} {R : α → β → Prop} {Q : α → Prop} {Q' : β → Prop}
  {r : Res α} {s : Res β}

private theorem panics (hr : Yields (ScalarPanics w n X Y) Q r) (hs : Yields (ScalarPanics v n X' Y) Q' s)
    (eX : X = X') (h : ∀ a b, Q a → Q' b → R a b) : SameRes R r s ↔ ScalarPanicsAlike w v n X Y := by
  subst eX
  refine (Same.yields_iff hr hs (E := True) fun _ _ a b q q' => iff_true_intro (h a b q q')).trans ?_
  simp [ScalarPanicsAlike]

private theorem divides (hr : Yields (ScalarPanics w n X Y) Q r)
    (hs : Yields (ScalarPanics v n X' Y) Q' s) (eX : X = X')
    (h : ∀ a b, Q a → Q' b → (R a b ↔ scalarStray w N n X Y = scalarStray v M n X' Y)) :
    SameRes R r s ↔ ScalarDividesAlike w N v M n X Y := by
  subst eX
  exact Same.yields_iff hr hs fun _ _ a b q q' => h a b q q'

private theorem stray_lt (w N n X Y : Nat) : scalarStray w N n X Y < 2 ^ n := by
  rw [scalarStray]
  split
  · exact Nat.mod_lt _ (Nat.two_pow_pos _)
  · exact Nat.two_pow_pos _

private theorem stray_zero (w N n Y : Nat) : scalarStray w N n 0 Y = 0 := by
  rw [scalarStray, strayRem_zero]
  split <;> simp

private theorem add_mod_inj {m a s t : Nat} (hs : s < m) (ht : t < m) :
    (a + s) % m = (a + t) % m ↔ s = t := by
  refine ⟨fun h => ?_, fun h => by rw [h]⟩
  have h2 : s ≡ t [MOD m] := Nat.ModEq.add_left_cancel' a h
  rwa [Nat.ModEq, Nat.mod_eq_of_lt hs, Nat.mod_eq_of_lt ht] at h2

private theorem ofInt_inj {n : Nat} {a c : Int} {s t : Nat} (hs : s < 2 ^ n) (ht : t < 2 ^ n)
    (hc : c = 1 ∨ c = -1) : BitVec.ofInt n (a + c * s) = BitVec.ofInt n (a + c * t) ↔ s = t := by
  refine ⟨fun h => ?_, fun h => by rw [h]⟩
  have h1 := congrArg BitVec.toInt h
  rw [BitVec.toInt_ofInt, BitVec.toInt_ofInt, Int.bmod_eq_bmod_iff_bmod_sub_eq_zero] at h1
  have h2 := Int.dvd_of_bmod_eq_zero h1
  have h3 : ((2 ^ n : Nat) : Int) ∣ (s : Int) - t := by
    rcases hc with rfl | rfl
    · rwa [show a + 1 * (s : Int) - (a + 1 * t) = s - t by ring] at h2
    · rwa [show a + -1 * (s : Int) - (a + -1 * t) = -(s - t) by ring, Int.dvd_neg] at h2
  by_contra hne
  have h4 := Nat.le_of_dvd (by omega) (Int.natCast_dvd.1 h3)
  omega

end alike

section

variable (hx : Twins x x') (k : Fix) {n : BitVec k.n} (hn : n ≠ 0)
include hx hn

/-- C40 (partial): every form of the unsigned quotient by a scalar of a fixed width agrees iff long
division panics alike in both builds. Full statement: they always agree; it is false
(`C40_uint_div_fixed_false`). -/
theorem C40_uint_div_fixed_partial (oc : Bool) :
    (∀ p ∈ [(U.wrappingDivFix k x n, U.wrappingDivFix k x' n), (U.divFix oc k x n, U.divFix oc k x' n)],
      SameRes Same p.1 p.2 ↔ ScalarPanicsAlike w v k.n (toNat x) n.toNat) ∧
    (SameRes SameOpt (U.checkedDivFix k x n) (U.checkedDivFix k x' n) ↔
      ScalarPanicsAlike w v k.n (toNat x) n.toNat) ∧
    (SameRes SameFlag (U.overflowingDivFix k x n) (U.overflowingDivFix k x' n) ↔
      ScalarPanicsAlike w v k.n (toNat x) n.toNat) := by
  have gx := hx.symm
  have e := hx.builds.width
  have eX := hx.value
  obtain ⟨-, -, -, a1, -, a2, -, a3, -⟩ := C55_uint_div_fixed_partial hx.builds.left hx.builds.large k hn oc
  obtain ⟨-, -, -, b1, -, b2, -, b3, -⟩ := C55_uint_div_fixed_partial gx.builds.left gx.builds.large k hn oc
  have ez : (toNat x / n.toNat : Int) = toNat x' / n.toNat := by rw [hx.value]
  simp only [List.mem_cons, List.not_mem_nil, or_false, forall_eq_or_imp, forall_eq] at a1 b1 ⊢
  refine ⟨⟨panics a1.1 b1.1 eX fun _ _ h h' => Same.exactU e h h' ez,
    panics a1.2 b1.2 eX fun _ _ h h' => Same.exactU e h h' ez⟩, panics a2 b2 eX ?_, panics a3 b3 eX ?_⟩
  · rintro _ _ ⟨s, rfl, hs⟩ ⟨t, rfl, ht⟩
    exact Same.exactU e hs ht ez
  · exact fun s t h h' => ⟨Same.exactU e h.2 h'.2 ez, h.1.trans h'.1.symm⟩

/-- C40 (partial): every form of the unsigned remainder by a scalar of a fixed width, and of quotient
with remainder, agrees iff long division panics alike in both builds and leaves the same remainder. Full
statement: they always agree; it is false, as for the quotient. -/
theorem C40_uint_rem_fixed_partial (oc : Bool) :
    (∀ p ∈ [(U.wrappingRemFix k x n, U.wrappingRemFix k x' n), (U.remFix oc k x n, U.remFix oc k x' n)],
      p.1 = p.2 ↔ ScalarDividesAlike w x.length v x'.length k.n (toNat x) n.toNat) ∧
    (U.checkedRemFix k x n = U.checkedRemFix k x' n ↔
      ScalarDividesAlike w x.length v x'.length k.n (toNat x) n.toNat) ∧
    (U.overflowingRemFix k x n = U.overflowingRemFix k x' n ↔
      ScalarDividesAlike w x.length v x'.length k.n (toNat x) n.toNat) ∧
    (∀ p ∈ [(U.wrappingDivRemFix k x n, U.wrappingDivRemFix k x' n),
        (U.divRemFix oc k x n, U.divRemFix oc k x' n)],
      SameRes (fun q q' => Same q.1 q'.1 ∧ q.2 = q'.2) p.1 p.2 ↔
        ScalarDividesAlike w x.length v x'.length k.n (toNat x) n.toNat) ∧
    (SameRes (SameOptBy fun q q' => Same q.1 q'.1 ∧ q.2 = q'.2) (U.checkedDivRemFix k x n)
        (U.checkedDivRemFix k x' n) ↔
      ScalarDividesAlike w x.length v x'.length k.n (toNat x) n.toNat) ∧
    (SameRes (SameFlagBy fun q q' => Same q.1 q'.1 ∧ q.2 = q'.2) (U.overflowingDivRemFix k x n)
        (U.overflowingDivRemFix k x' n) ↔
      ScalarDividesAlike w x.length v x'.length k.n (toNat x) n.toNat) := by
  have gx := hx.symm
  have e := hx.builds.width
  have eX := hx.value
  obtain ⟨c1, c2, c3, -, a1, -, a2, -, a3⟩ :=
    C55_uint_div_fixed_partial hx.builds.left hx.builds.large k hn oc
  obtain ⟨d1, d2, d3, -, b1, -, b2, -, b3⟩ :=
    C55_uint_div_fixed_partial gx.builds.left gx.builds.large k hn oc
  have ez : (toNat x / n.toNat : Int) = toNat x' / n.toNat := by rw [hx.value]
  have q : ∀ (s : Limbs w) (t : Limbs v), ExactU x.length (toNat x / n.toNat) s →
      ExactU x'.length (toNat x' / n.toNat) t → Same s t := fun _ _ h h' => Same.exactU e h h' ez
  have r : ∀ s t : BitVec k.n,
      s.toNat = (toNat x % n.toNat + scalarStray w x.length k.n (toNat x) n.toNat) % 2 ^ k.n →
      t.toNat = (toNat x' % n.toNat + scalarStray v x'.length k.n (toNat x') n.toNat) % 2 ^ k.n →
      (s = t ↔ scalarStray w x.length k.n (toNat x) n.toNat =
        scalarStray v x'.length k.n (toNat x') n.toNat) := by
    intro s t hs ht
    rw [← BitVec.toNat_inj, hs, ht, ← hx.value]
    exact add_mod_inj (stray_lt ..) (stray_lt ..)
  have same_eq : ∀ {α : Type} (a b : Res α), SameRes Eq a b ↔ a = b := by
    intro α a b
    cases a <;> cases b <;> simp [SameRes]
  simp only [List.mem_cons, List.not_mem_nil, or_false, forall_eq_or_imp, forall_eq, ← same_eq]
    at a1 b1 c1 d1 ⊢
  refine ⟨⟨divides a1.1 b1.1 eX r, divides a1.2 b1.2 eX r⟩, divides a2 b2 eX ?_, divides a3 b3 eX ?_,
    ⟨divides c1.1 d1.1 eX ?_, divides c1.2 d1.2 eX ?_⟩, divides c2 d2 eX ?_, divides c3 d3 eX ?_⟩
  · rintro _ _ ⟨s, rfl, hs⟩ ⟨t, rfl, ht⟩
    rw [Option.some_inj]
    exact r _ _ hs ht
  · exact fun s t h h' => Prod.ext_iff.trans ((and_iff_left (h.1.trans h'.1.symm)).trans (r _ _ h.2 h'.2))
  · exact fun s t h h' => (and_iff_right (q _ _ h.1 h'.1)).trans (r _ _ h.2 h'.2)
  · exact fun s t h h' => (and_iff_right (q _ _ h.1 h'.1)).trans (r _ _ h.2 h'.2)
  · rintro _ _ ⟨s, rfl, hs⟩ ⟨t, rfl, ht⟩
    exact (and_iff_right (q _ _ hs.1 ht.1)).trans (r _ _ hs.2 ht.2)
  · exact fun s t h h' => (and_iff_left (h.1.trans h'.1.symm)).trans
      ((and_iff_right (q _ _ h.2.1 h'.2.1)).trans (r _ _ h.2.2 h'.2.2))

/-- C40 (partial): the wrapping, overflowing and checked quotients of signed numbers by signed scalars
agree iff long division panics alike; their remainders iff it also leaves the same remainder. Full
statement: they always agree; it is false, as for unsigned numbers. -/
theorem C40_int_div_fixed_signed_partial :
    (SameRes Same (I.wrappingDivFixI k x n) (I.wrappingDivFixI k x' n) ↔
      ScalarPanicsAlike w v k.n (toInt x).natAbs n.toInt.natAbs) ∧
    (SameRes SameFlag (I.overflowingDivFixI k x n) (I.overflowingDivFixI k x' n) ↔
      ScalarPanicsAlike w v k.n (toInt x).natAbs n.toInt.natAbs) ∧
    (SameRes SameOpt (I.checkedDivFixI k x n) (I.checkedDivFixI k x' n) ↔
      ScalarPanicsAlike w v k.n (toInt x).natAbs n.toInt.natAbs) ∧
    (I.wrappingRemFixI k x n = I.wrappingRemFixI k x' n ↔
      ScalarDividesAlike w x.length v x'.length k.n (toInt x).natAbs n.toInt.natAbs) ∧
    (SameRes (fun q q' => Same q.1 q'.1 ∧ q.2 = q'.2) (I.wrappingDivRemFixI k x n)
        (I.wrappingDivRemFixI k x' n) ↔
      ScalarDividesAlike w x.length v x'.length k.n (toInt x).natAbs n.toInt.natAbs) := by
  have gx := hx.symm
  have e := hx.builds.width
  have eX : (toInt x).natAbs = (toInt x').natAbs := by rw [hx.int]
  have ez : (toInt x).tdiv n.toInt = (toInt x').tdiv n.toInt := by rw [hx.int]
  obtain ⟨a1, -, -, -, a2, a3, a4, -, a5, -⟩ :=
    C55_int_div_fixed_signed_all_partial hx.builds.left hx.builds.large hx.even k hn
  obtain ⟨b1, -, -, -, b2, b3, b4, -, b5, -⟩ :=
    C55_int_div_fixed_signed_all_partial gx.builds.left gx.builds.large gx.even k hn
  have r : ∀ s t : BitVec k.n,
      s = BitVec.ofInt k.n ((toInt x).tmod n.toInt + (toInt x).sign *
        (scalarStray w x.length k.n (toInt x).natAbs n.toInt.natAbs : Nat)) →
      t = BitVec.ofInt k.n ((toInt x').tmod n.toInt + (toInt x').sign *
        (scalarStray v x'.length k.n (toInt x').natAbs n.toInt.natAbs : Nat)) →
      (s = t ↔ scalarStray w x.length k.n (toInt x).natAbs n.toInt.natAbs =
        scalarStray v x'.length k.n (toInt x').natAbs n.toInt.natAbs) := by
    rintro _ _ rfl rfl
    rw [← hx.int]
    rcases lt_trichotomy (toInt x) 0 with h | h | h
    · exact ofInt_inj (stray_lt ..) (stray_lt ..) (.inr (Int.sign_eq_neg_one_of_neg h))
    · simp [h, stray_zero]
    · exact ofInt_inj (stray_lt ..) (stray_lt ..) (.inl (Int.sign_eq_one_of_pos h))
  have same_eq : ∀ {α : Type} (a b : Res α), SameRes Eq a b ↔ a = b := by
    intro α a b
    cases a <;> cases b <;> simp [SameRes]
  simp only [List.mem_cons, List.not_mem_nil, or_false, forall_eq_or_imp, forall_eq, ← same_eq]
    at a1 b1 ⊢
  exact ⟨panics a2 b2 eX fun _ _ h h' => Same.wrapS e h h' ez,
    panics a4 b4 eX fun _ _ h h' => Same.overS e h h' ez,
    panics a5 b5 eX fun _ _ h h' => Same.checkS e h h' ez,
    divides a3 b3 eX r,
    divides a1.1 b1.1 eX fun _ _ h h' =>
      (and_iff_right (Same.wrapS e h.1 h'.1 ez)).trans (r _ _ h.2 h'.2)⟩

/-- C40 (partial): the forms of quotient and remainder of signed numbers by unsigned scalars agree if
long division panics alike and leaves the same remainder. Full statement: they always agree; it is
false. -/
theorem C40_int_div_fixed_unsigned_partial (oc : Bool)
    (hp : ScalarPanicsAlike w v k.n (toInt x).natAbs n.toNat)
    (hs : scalarStray w x.length k.n (toInt x).natAbs n.toNat =
      scalarStray v x'.length k.n (toInt x).natAbs n.toNat) :
    (∀ p ∈ [(I.wrappingDivFixU oc k x n, I.wrappingDivFixU oc k x' n),
        (I.divFixU oc k x n, I.divFixU oc k x' n)], SameRes Same p.1 p.2) ∧
    SameRes SameOpt (I.checkedDivFixU oc k x n) (I.checkedDivFixU oc k x' n) ∧
    SameRes SameFlag (I.overflowingDivFixU oc k x n) (I.overflowingDivFixU oc k x' n) ∧
    (∀ p ∈ [(I.wrappingRemFixU oc k x n, I.wrappingRemFixU oc k x' n),
        (I.remFixU oc k x n, I.remFixU oc k x' n)], p.1 = p.2) ∧
    I.checkedRemFixU oc k x n = I.checkedRemFixU oc k x' n ∧
    I.overflowingRemFixU oc k x n = I.overflowingRemFixU oc k x' n := by
  have gx := hx.symm
  have e := hx.builds.width
  obtain ⟨-, -, -, a1, a2, a3, a4, a5, a6⟩ :=
    C55_int_div_fixed_unsigned_all_partial hx.builds.left hx.builds.large hx.even k hn oc
  obtain ⟨-, -, -, b1, b2, b3, b4, b5, b6⟩ :=
    C55_int_div_fixed_unsigned_all_partial gx.builds.left gx.builds.large gx.even k hn oc
  rw [ScalarPanicsAlike] at hp
  rw [← hx.int, ← hs, ← hp] at b1 b2 b3 b4 b5 b6
  have same_eq : ∀ {α : Type} (a b : Res α), SameRes Eq a b ↔ a = b := by
    intro α a b
    cases a <;> cases b <;> simp [SameRes]
  simp only [List.mem_cons, List.not_mem_nil, or_false, forall_eq_or_imp, forall_eq, ← same_eq]
    at a1 a2 b1 b2 ⊢
  refine ⟨⟨Same.yields_same a1.1 b1.1 Iff.rfl fun _ _ _ h h' => Same.exactS e h h' rfl,
    Same.yields_same a1.2 b1.2 Iff.rfl fun _ _ _ h h' => Same.exactS e h h' rfl⟩,
    Same.yields_same a3 b3 Iff.rfl ?_, Same.yields_same a5 b5 Iff.rfl ?_,
    ⟨Same.yields_same a2.1 b2.1 Iff.rfl fun _ _ _ h h' => h.trans h'.symm,
    Same.yields_same a2.2 b2.2 Iff.rfl fun _ _ _ h h' => h.trans h'.symm⟩,
    Same.yields_same a4 b4 Iff.rfl ?_, Same.yields_same a6 b6 Iff.rfl ?_⟩
  · rintro - _ _ ⟨s, rfl, h⟩ ⟨t, rfl, h'⟩
    exact Same.exactS e h h' rfl
  · exact fun _ s t h h' => ⟨Same.exactS e h.2 h'.2 rfl, h.1.trans h'.1.symm⟩
  · rintro - _ _ ⟨s, rfl, h⟩ ⟨t, rfl, h'⟩
    rw [h, h']
  · exact fun _ s t h h' => Prod.ext (h.2.trans h'.2.symm) (h.1.trans h'.1.symm)

end

example := C40_uint_div_fixed_partial twins_ones .b128 (n := 0x80000000000000000000000000000005) (by decide) true
example := C40_uint_rem_fixed_partial twins_ones .b64 (n := 7) (by decide) true
example := C40_int_div_fixed_signed_partial twins_b .b32 (n := -7) (by decide)
example := C40_int_div_fixed_unsigned_partial twins_b .b32 (n := 7) (by decide) true
  (by decide +kernel) (by decide +kernel)

/-- C40: division by a scalar that is zero agrees, except that the unchecked forms return zero for a zero
dividend in a build whose limbs are smaller than the scalar. -/
theorem C40_uint_div_fixed_zero_partial (hx : Twins x x') (k : Fix) :
    U.checkedDivRemFix k x 0 = .ok none ∧ U.checkedDivRemFix k x' 0 = .ok none ∧
    U.checkedDivFix k x 0 = .ok none ∧ U.checkedDivFix k x' 0 = .ok none ∧
    U.checkedRemFix k x 0 = .ok none ∧ U.checkedRemFix k x' 0 = .ok none ∧
    U.divFix true k x 0 = .panic ∧ U.divFix true k x' 0 = .panic ∧
    U.remFix true k x 0 = .panic ∧ U.remFix true k x' 0 = .panic ∧
    (∀ p ∈ [(U.wrappingDivFix k x 0, U.wrappingDivFix k x' 0), (U.divFix false k x 0, U.divFix false k x' 0)],
      SameRes Same p.1 p.2 ↔ (toNat x = 0 → (w < k.n ↔ v < k.n))) ∧
    (∀ p ∈ [(U.wrappingRemFix k x 0, U.wrappingRemFix k x' 0), (U.remFix false k x 0, U.remFix false k x' 0)],
      p.1 = p.2 ↔ (toNat x = 0 → (w < k.n ↔ v < k.n))) := by
  have gx := hx.symm
  have e := hx.builds.width
  obtain ⟨a1, a2, a3, -, a4, a5, -⟩ := C55_uint_div_fixed_zero hx.builds.left hx.builds.large k
  obtain ⟨b1, b2, b3, -, b4, b5, -⟩ := C55_uint_div_fixed_zero gx.builds.left gx.builds.large k
  obtain ⟨c, d⟩ := C55_uint_div_fixed_zero_forms hx.builds.left hx.builds.large k
  obtain ⟨c', d'⟩ := C55_uint_div_fixed_zero_forms gx.builds.left gx.builds.large k
  rw [← hx.value] at c' d'
  refine ⟨a1, b1, a2, b2, a3, b3, a4, b4, a5, b5, ?_⟩
  simp only [List.mem_cons, List.not_mem_nil, or_false, forall_eq_or_imp, forall_eq]
  by_cases h0 : toNat x = 0
  · by_cases hw : w < k.n <;> by_cases hv : v < k.n
    · obtain ⟨q, hq, e1, e2, e3, e4, -⟩ := d h0 hw
      obtain ⟨q', hq', f1, f2, f3, f4, -⟩ := d' h0 hv
      have := Same.exactU e hq hq' rfl
      simp only [e1, e2, e3, e4, f1, f2, f3, f4]
      simp [SameRes, this, hw, hv]
    · obtain ⟨q, hq, e1, e2, e3, e4, -⟩ := d h0 hw
      obtain ⟨f1, f2, f3, f4, -⟩ := c' (.inr (not_lt.1 hv))
      simp only [e1, e2, e3, e4, f1, f2, f3, f4]
      simp [SameRes, hw, hv, h0]
    · obtain ⟨e1, e2, e3, e4, -⟩ := c (.inr (not_lt.1 hw))
      obtain ⟨q', hq', f1, f2, f3, f4, -⟩ := d' h0 hv
      simp only [e1, e2, e3, e4, f1, f2, f3, f4]
      simp [SameRes, hw, hv, h0]
    · obtain ⟨e1, e2, e3, e4, -⟩ := c (.inr (not_lt.1 hw))
      obtain ⟨f1, f2, f3, f4, -⟩ := c' (.inr (not_lt.1 hv))
      simp only [e1, e2, e3, e4, f1, f2, f3, f4]
      simp [SameRes, hw, hv]
  · obtain ⟨e1, e2, e3, e4, -⟩ := c (.inl h0)
    obtain ⟨f1, f2, f3, f4, -⟩ := c' (.inl h0)
    simp only [e1, e2, e3, e4, f1, f2, f3, f4]
    simp [SameRes, h0]

example := C40_uint_div_fixed_zero_partial twins_ones .b64

/-- C40 does not hold for division by scalars of a fixed width: the build with 32-bit limbs panics, the
one with 64-bit limbs returns the quotient. -/
theorem C40_uint_div_fixed_false : ∃ (x : Limbs 32) (x' q : Limbs 64), Twins x x' ∧
    U.wrappingDivFix .b64 x 0x80000000ffffffff = .panic ∧
    U.wrappingDivFix .b64 x' 0x80000000ffffffff = .ok q :=
  ⟨[0xfffffffa, 0x7, 0x0, 0x80000000, 0x0, 0x0, 0x0, 0x0],
    [0x7fffffffa, 0x8000000000000000, 0x0, 0x0], [0xfffffffe00000006, 0x0, 0x0, 0x0], by decide +kernel⟩

/-- C40 does not hold for multiplication of signed numbers by scalars of a fixed width: the build with
32-bit limbs takes the product for representable, the one with 64-bit limbs does not. -/
theorem C40_int_mul_fixed_false : ∃ (x r : Limbs 32) (x' r' : Limbs 64), Twins x x' ∧
    I.overflowingMulFixI .b32 x (-3) = .ok (r, false) ∧
    I.overflowingMulFixI .b32 x' (-3) = .ok (r', true) :=
  ⟨[0x0, 0x0, 0x0, 0x0, 0x0, 0x0, 0xaaaaab00, 0x2aaaaaaa], [0x0, 0x0, 0x0, 0x0, 0x0, 0x0, 0xffffff00, 0x7fffffff],
    [0x0, 0x0, 0x0, 0x2aaaaaaaaaaaab00], [0x0, 0x0, 0x0, 0x7fffffffffffff00], by decide +kernel⟩

/-- C40 does not hold for multiplication of signed numbers by 128-bit scalars: `1 * 2^32` is `2^96` on
32-bit limbs. -/
theorem C40_int_mul_wide_false : ∃ (x : Limbs 32) (x' : Limbs 64), Twins x x' ∧
    I.wrappingMulFixU .b128 x 0x100000000 = .ok [0, 0, 0, 1, 0, 0, 0, 0] ∧
    I.wrappingMulFixU .b128 x' 0x100000000 = .ok [0x100000000, 0, 0, 0] :=
  ⟨[1, 0, 0, 0, 0, 0, 0, 0], [1, 0, 0, 0], by decide +kernel⟩

end I256
