import Verif.Lemmas.FixedDiv

/-!
# Division of signed numbers by four-limb scalars, with the bits left in the remainder
-/

namespace I256

variable {w : Nat} {x : Limbs w}

theorem scalarStray_zero_num (N n y : Nat) : scalarStray w N n 0 y = 0 := by
  unfold scalarStray
  split
  · rw [stray_zero_num, Nat.zero_mod]
  · rfl

/-- Stray bits only occur for scalars of four limbs. -/
theorem scalarStray_four {N n X Y : Nat} (h : scalarStray w N n X Y ≠ 0) : n = 4 * w := by
  unfold scalarStray at h
  by_contra hc
  rw [if_neg hc] at h
  exact h rfl

theorem strayMod (b k r : Nat) {n : Nat} (hb : b ≤ n) (hr : r < 2 ^ b) :
    (r + 2 ^ b * k) % 2 ^ n = r + 2 ^ b * k % 2 ^ n ∧ (2 ^ b * k % 2 ^ n ≠ 0 → 2 ^ b ≤ 2 ^ b * k % 2 ^ n) := by
  obtain ⟨m, rfl⟩ : ∃ m, n = b + m := ⟨n - b, by omega⟩
  rw [pow_add, Nat.mul_mod_mul_left]
  have h1 : k % 2 ^ m < 2 ^ m := Nat.mod_lt _ (by positivity)
  generalize hB : 2 ^ b = B at *
  generalize hM : 2 ^ m = M at *
  refine ⟨?_, fun h => Nat.le_mul_of_pos_right _ (Nat.pos_of_ne_zero fun h0 => h (by rw [h0, Nat.mul_zero]))⟩
  have e : r + B * k = r + B * (k % M) + (B * M) * (k / M) := by
    conv_lhs => rw [← Nat.mod_add_div k M]
    ring
  rw [e, Nat.add_mul_mod_self_left, Nat.mod_eq_of_lt]
  calc r + B * (k % M) < B + B * (k % M) := by omega
    _ = B * (k % M + 1) := by ring
    _ ≤ B * M := Nat.mul_le_mul_left _ h1

/-- What is left lies above the divisor and does not wrap. -/
theorem stray_above {N n X Y : Nat} (hY : Y ≠ 0) (hn : Y < 2 ^ n) :
    (X % Y + strayRem w N X Y) % 2 ^ n = X % Y + strayRem w N X Y % 2 ^ n ∧
    (strayRem w N X Y % 2 ^ n ≠ 0 → Y < strayRem w N X Y % 2 ^ n) := by
  have hb : bitLen Y ≤ n := by
    unfold bitLen
    rw [if_neg hY]
    exact (Nat.log2_lt hY).2 hn
  have hl := lt_two_pow_bitLen Y
  have hm := Nat.mod_lt X (Nat.pos_of_ne_zero hY)
  obtain ⟨h1, h2⟩ := strayMod (bitLen Y) (flagNum w (addBack w X Y) (N - nLimbs w Y)) (X % Y) hb (by omega)
  rw [strayRem]
  exact ⟨h1, fun h => lt_of_lt_of_le hl (h2 h)⟩

theorem emod_nat_of_neg' {a : Int} {v : Nat} (ha : a < 0) :
    a - (-((a.natAbs / v : Nat) : Int) - 1) * v = v - (a.natAbs % v : Nat) := by
  have h := Nat.div_add_mod a.natAbs v
  have h' : (v : Int) * ((a.natAbs / v : Nat) : Int) + ((a.natAbs % v : Nat) : Int) = a.natAbs := by
    exact_mod_cast h
  generalize a.natAbs / v = q at *
  generalize a.natAbs % v = r at *
  have : (-(q : Int) - 1) * v = -(v * q) - v := by ring
  omega

theorem sub_ofInt {m : Nat} (a b : BitVec m) : a - b = BitVec.ofInt m ((a.toNat : Int) - b.toNat) := by
  apply BitVec.eq_of_toInt_eq
  rw [BitVec.toInt_sub, BitVec.toInt_ofInt, BitVec.toInt_eq_toNat_bmod a, BitVec.toInt_eq_toNat_bmod b]
  simp

/-- A negative number divided by an unsigned scalar when the remainder exceeds the scalar. -/
theorem divRemUnsigned_neg (hw : 1 < w) {n : Nat} {d : Limbs w} {v rem : BitVec n} (h2 : 2 ≤ x.length)
    (hv : 2 ≤ v.toNat) (dl : d.length = x.length) (dv : toNat d = (toInt x).natAbs / v.toNat)
    (rv : v.toNat < rem.toNat) (hn : toInt x < 0) (oc : Bool) :
    Yields (oc = true) (fun p => ExactS x.length (-(((toInt x).natAbs / v.toNat : Nat) : Int) - 1) p.1 ∧
      p.2 = v - rem) (I.divRemUnsigned oc x v (.ok (d, rem))) := by
  have hxe : x ≠ [] := length_ne (n := 1) (by omega)
  have hx := toInt_InS x
  rw [show bits x = w * x.length from rfl] at hx
  have hsg := signAdjust (by omega : 0 < w) (I.isNegative x) h2 dl dv
  have hdl : (toInt x).natAbs / v.toNat ≤ (toInt x).natAbs := Nat.div_le_self _ _
  rw [I.divRemUnsigned, Res.bind_ok]
  simp only
  rw [isNegative_eq (by omega) hxe] at hsg ⊢
  have hre : (rem != 0) = true := by
    rw [bne_iff_ne]
    rintro rfl
    simp at rv
  rw [hre]
  simp only [hn, decide_true, if_true, Bool.true_and] at hsg ⊢
  have hex := hsg.exact (by unfold InS at hx ⊢; omega)
  have h1 := ofU8S (w := w) (N := x.length) (v := 1) (by omega) h2 (one_lt_two_pow' (by omega))
  have ho := subOpS hw (x := I.wrappingNeg d) (y := ofU8 (I.wrappingNeg d).length 1)
    (length_ne (n := 1) (by rw [hex.1]; omega)) (by rw [hex.1, h1.1]) oc
  rw [hex.1, hex.2, h1.2] at ho
  have hd2 : (toInt x).natAbs / v.toNat ≤ (toInt x).natAbs / 2 := Nat.div_le_div_left hv (by omega)
  have hp4 : (4:Int) ≤ 2 ^ (w * x.length) := by
    have := Nat.mul_le_mul hw h2
    calc (4:Int) = 2 ^ 2 := by norm_num
      _ ≤ 2 ^ (w * x.length) := pow_le_pow_right₀ (by norm_num) (by omega)
  obtain ⟨q, eq, hq⟩ := ho.exact (by unfold InS at hx ⊢; omega)
  rw [hex.1, eq, Res.bind_ok]
  have hul : v.ult rem = true := by rw [BitVec.ult_iff_lt, BitVec.lt_def]; omega
  rw [hul, Bool.and_true]
  cases oc
  · exact ⟨fun h => (by cases h), fun _ => ⟨_, rfl, hq, rfl⟩⟩
  · exact ⟨fun _ => rfl, fun h => absurd rfl h⟩

section
variable (hw : w = 32 ∨ w = 64) (hx : 256 ≤ w * x.length) (he : x.length % 2 = 0)
include hw hx he

/-- Signed number, unsigned scalar, whatever is left in the remainder. -/
theorem iDivRemFixU_all (k : Fix) {n : BitVec k.n} (hn : n ≠ 0) (oc : Bool) :
    let s := scalarStray w x.length k.n (toInt x).natAbs n.toNat
    let z := toInt x / n.toNat -
      (if toInt x < 0 ∧ (n.toNat : Int) ∣ toInt x ∧ s ≠ 0 then 1 else 0)
    Yields (ScalarPanics w k.n (toInt x).natAbs n.toNat ∨ (oc = true ∧ toInt x < 0 ∧ s ≠ 0))
      (fun p => ExactS x.length z p.1 ∧
        p.2 = BitVec.ofInt k.n (toInt x - z * n.toNat + (toInt x).sign * s))
      (I.wrappingDivRemFixU oc k x n) := by
  intro s z
  have hn0 : n.toNat ≠ 0 := fun h => hn (BitVec.eq_of_toNat_eq (by simpa using h))
  by_cases hs : s = 0
  · have hz : z = toInt x / n.toNat := by
      show toInt x / n.toNat - _ = _
      rw [if_neg (fun h => h.2.2 hs), sub_zero]
    rw [hz, hs]
    refine ((iDivRemFixU hw hx he k hn hs oc).congr ?_).mono fun p hp => ⟨hp.1, ?_⟩
    · constructor
      · exact .inl
      · rintro (h | h)
        · exact h
        · exact absurd rfl h.2.2
    · have e : toInt x - toInt x / n.toNat * n.toNat = toInt x % n.toNat := by
        rw [Int.emod_def]; ring
      rw [Nat.cast_zero, mul_zero, add_zero, e, ← hp.2, BitVec.ofInt_natCast, BitVec.ofNat_toNat,
        BitVec.setWidth_eq]
  · have h4 : k.n = 4 * w := scalarStray_four hs
    obtain ⟨rfl, rfl⟩ : w = 32 ∧ k = .b128 := by
      rcases hw with rfl | rfl <;> cases k <;> simp [Fix.n] at h4 ⊢
    obtain ⟨xl, xv⟩ := unsignedAbs_natAbs (by decide : 0 < 32) (by omega : 2 ≤ x.length) he
    obtain ⟨q, r, e, ⟨ql, qv⟩, rv⟩ := Div.fromU128_spec (x := I.unsignedAbs x) (by omega) hn
    have e' : I.wrappingDivRemFixU oc .b128 x n = I.divRemUnsigned oc x n (.ok (q, r)) := by
      rw [← e]; rfl
    rw [e']
    rw [xv] at qv rv
    rw [xl] at rv
    have hse : s = strayRem 32 x.length (toInt x).natAbs n.toNat % 2 ^ 128 := by
      show scalarStray _ _ _ _ _ = _
      rw [scalarStray, if_pos h4]
    obtain ⟨ha, hb⟩ := stray_above (w := 32) (N := x.length) (X := (toInt x).natAbs) hn0 n.isLt
    have ha' : r.toNat = (toInt x).natAbs % n.toNat + s := by rw [rv, hse]; exact ha
    have hb' : n.toNat < s := by rw [hse]; exact hb (by rw [← hse]; exact hs)
    have hnp : ¬ ScalarPanics 32 (Fix.b128).n (toInt x).natAbs n.toNat := fun h => by
      have := h.1
      simp [Fix.n] at this
    have hn2 : 2 ≤ n.toNat := by
      by_contra hc
      refine hs ?_
      rw [hse, Clean.stray (addBack_clean_of_small (.inl ?_)), Nat.zero_mod]
      have h1 : n.toNat = 1 := by omega
      have : nLimbs 32 1 = 0 + 1 := nLimbs_unique (by decide) (k := 0) (by simp) (by norm_num)
      rw [h1, this]; norm_num
    have hri : ((r.toNat : Nat) : Int) = ((toInt x).natAbs % n.toNat : Nat) + s := by rw [ha']; push_cast; rfl
    by_cases hneg : toInt x < 0
    · have hz : z = -(((toInt x).natAbs / n.toNat : Nat) : Int) - 1 := by
        show toInt x / n.toNat - _ = _
        have hd : (n.toNat : Int) ∣ toInt x ↔ (toInt x).natAbs % n.toNat = 0 := by
          rw [← Int.natAbs_dvd_natAbs, Int.natAbs_natCast, Nat.dvd_iff_mod_eq_zero]
        rw [(ediv_nat_of_neg hneg hn0).1]
        by_cases h0 : (toInt x).natAbs % n.toNat = 0
        · rw [if_pos h0, if_pos ⟨hneg, hd.2 h0, hs⟩]
        · rw [if_neg h0, if_neg (fun h => h0 (hd.1 h.2.1)), sub_zero]
      rw [hz]
      refine ((divRemUnsigned_neg (by decide) (by omega) hn2 (ql.trans xl) qv (by omega) hneg
        oc).congr ?_).mono fun p hp => ⟨hp.1, ?_⟩
      · constructor
        · exact fun h => .inr ⟨h, hneg, hs⟩
        · rintro (h | h)
          · exact absurd h hnp
          · exact h.1
      · rw [hp.2, emod_nat_of_neg' hneg, Int.sign_eq_neg_one_of_neg hneg]
        rw [show (n.toNat : Int) - ((toInt x).natAbs % n.toNat : Nat) + -1 * (s : Int) =
          (n.toNat : Int) - (r.toNat : Int) by omega]
        exact sub_ofInt (m := 128) n r
    · have hz : z = toInt x / n.toNat := by
        show toInt x / n.toNat - _ = _
        rw [if_neg (fun h => hneg h.1), sub_zero]
      have hxe : x ≠ [] := length_ne (n := 1) (by omega)
      have hxI := toInt_InS x
      rw [show bits x = 32 * x.length from rfl] at hxI
      have hsg := signAdjust (by decide : 0 < 32) (I.isNegative x) (by omega) (ql.trans xl) qv
      have hdl : (toInt x).natAbs / n.toNat ≤ (toInt x).natAbs := Nat.div_le_self _ _
      have hxn : toInt x = ((toInt x).natAbs : Int) := by omega
      rw [I.divRemUnsigned, Res.bind_ok]
      simp only
      rw [isNegative_eq (by omega) hxe, decide_eq_false hneg] at hsg ⊢
      simp only [Bool.false_and, Bool.false_eq_true, if_false] at hsg ⊢
      have hex := hsg.exact (by unfold InS at hxI ⊢; omega)
      have hq : toInt x / n.toNat = (((toInt x).natAbs / n.toNat : Nat) : Int) := by
        rw [hxn]; simp
      refine ⟨?_, fun _ => ⟨_, rfl, ?_, ?_⟩⟩
      · rintro (h | h)
        · exact absurd h hnp
        · exact absurd h.2.1 hneg
      · rw [hz, hq]; exact hex
      · have e0 : toInt x - toInt x / n.toNat * n.toNat = ((toInt x).natAbs % n.toNat : Nat) := by
          have : toInt x - toInt x / n.toNat * n.toNat = toInt x % n.toNat := by
            rw [Int.emod_def]; ring
          rw [this, hxn]; simp
        have hs1 : (toInt x).sign = 1 := by
          refine Int.sign_eq_one_of_pos ?_
          by_contra hc
          have h0 : toInt x = 0 := by omega
          refine hs ?_
          show scalarStray _ _ _ _ _ = 0
          rw [h0, Int.natAbs_zero, scalarStray_zero_num]
        rw [hz, e0, hs1, one_mul, ← hri, BitVec.ofInt_natCast, BitVec.ofNat_toNat]
        exact (BitVec.setWidth_eq r).symm

/-- Signed number, signed scalar, whatever is left in the remainder. -/
theorem iDivRemFixI_all (k : Fix) {n : BitVec k.n} (hn : n ≠ 0) :
    let s := scalarStray w x.length k.n (toInt x).natAbs n.toInt.natAbs
    let R := fun r : BitVec k.n =>
      r = BitVec.ofInt k.n ((toInt x).tmod n.toInt + (toInt x).sign * s)
    Yields (ScalarPanics w k.n (toInt x).natAbs n.toInt.natAbs)
      (fun p => WrapS x.length ((toInt x).tdiv n.toInt) p.1 ∧ R p.2) (I.wrappingDivRemFixI k x n) ∧
    Yields (ScalarPanics w k.n (toInt x).natAbs n.toInt.natAbs)
      (fun p => OverS x.length ((toInt x).tdiv n.toInt) (p.1.1, p.2) ∧ R p.1.2)
      (I.overflowingDivRemFixI k x n) := by
  intro s R
  by_cases hs : s = 0
  · have hR : ∀ r : BitVec k.n, r.toInt = (toInt x).tmod n.toInt → R r := fun r h => by
      show r = _
      rw [hs, Nat.cast_zero, mul_zero, add_zero, ← h, BitVec.ofInt_toInt]
    exact ⟨(iDivRemFixI hw hx he k hn hs).mono fun p hp => ⟨hp.1, hR _ hp.2⟩,
      (iDivRemFixI_over hw hx he k hn hs).mono fun p hp => ⟨hp.1, hR _ hp.2⟩⟩
  · have h4 : k.n = 4 * w := scalarStray_four hs
    obtain ⟨rfl, rfl⟩ : w = 32 ∧ k = .b128 := by
      rcases hw with rfl | rfl <;> cases k <;> simp [Fix.n] at h4 ⊢
    have hv0 : n.toInt ≠ 0 := fun h => hn (BitVec.eq_of_toInt_eq (by simpa using h))
    have hnp : ¬ ScalarPanics 32 (Fix.b128).n (toInt x).natAbs n.toInt.natAbs := fun h => by
      have := h.1
      simp [Fix.n] at this
    have hse : s = strayRem 32 x.length (toInt x).natAbs n.toInt.natAbs % 2 ^ 128 := by
      show scalarStray _ _ _ _ _ = _
      rw [scalarStray, if_pos h4]
    have h : Yields (ScalarPanics 32 (Fix.b128).n (toInt x).natAbs n.toInt.natAbs)
        (fun p => WrapS x.length ((toInt x).tdiv n.toInt) p.1 ∧ R p.2)
        (I.wrappingDivRemFixI .b128 x n) := by
      obtain ⟨xl, xv⟩ := unsignedAbs_natAbs (by decide : 0 < 32) (by omega : 2 ≤ x.length) he
      have hpa : (I.primAbs n).toNat = n.toInt.natAbs := primAbs_toNat n
      have hpv : I.primAbs n ≠ 0 := fun h => by
        rw [h] at hpa
        simp at hpa
        omega
      obtain ⟨q, r, e, ⟨ql, qv⟩, rv⟩ := Div.fromU128_spec (x := I.unsignedAbs x) (by omega) hpv
      have e' : I.wrappingDivRemFixI .b128 x n = I.divRemSigned x n (.ok (q, r)) := by
        rw [← e]; rfl
      rw [e']
      rw [hpa, xv] at qv rv
      rw [xl] at rv
      have hb : 2 * n.toInt.natAbs ≤ 2 ^ 128 := natAbs_toInt_le n
      obtain ⟨ha, -⟩ := stray_above (w := 32) (N := x.length) (X := (toInt x).natAbs)
        (Y := n.toInt.natAbs) (n := 128) (by omega) (by omega)
      have ha' : r.toNat = (toInt x).natAbs % n.toInt.natAbs + s := by rw [rv, hse]; exact ha
      have hxe : x ≠ [] := length_ne (n := 1) (by omega)
      rw [I.divRemSigned, Res.map_ok]
      refine .ok hnp ⟨?_, ?_⟩
      · have hsg := signAdjust (by omega : 0 < 32) (I.isNegative x != n.slt 0) (by omega)
          (ql.trans xl) qv
        have hs : n.slt 0 = decide (n.toInt < 0) := by
          rw [Bool.eq_iff_iff, BitVec.slt_iff_toInt_lt]; simp
        rw [isNegative_eq (by omega) hxe, hs] at hsg ⊢
        rwa [tdiv_natAbs] at hsg
      · show _ = BitVec.ofInt _ _
        have ht := tmod_natAbs (toInt x) n.toInt s (fun h0 => by
          show scalarStray _ _ _ _ _ = 0
          rw [h0, Int.natAbs_zero, scalarStray_zero_num])
        rw [← ht, ← ha', isNegative_eq (by omega) hxe]
        simp only [decide_eq_true_eq]
        have hof : (BitVec.ofNat 128 r.toNat : BitVec 128) = r := by
          rw [BitVec.ofNat_toNat, BitVec.setWidth_eq]
        split
        · apply BitVec.eq_of_toInt_eq
          rw [BitVec.toInt_ofInt, BitVec.toInt_neg, BitVec.toInt_eq_toNat_bmod r]
          simp [Fix.n]
        · rw [BitVec.ofInt_natCast]
          exact hof.symm
    refine ⟨h, ?_⟩
    have hne : n.toInt ≠ -1 := fun h1 => by
      refine hs ?_
      rw [hse, (clean_neg_one (by decide) h1).stray, Nat.zero_mod]
    have hI : InS (32 * x.length) ((toInt x).tdiv n.toInt) :=
      (tdiv_InS (show 0 < 32 * x.length by omega) (toInt_InS x)
        (InS_mono (show 128 ≤ 32 * x.length by omega) (bv_InS n))).2 fun h => hne h.2
    have e : I.overflowingDivRemFixI .b128 x n =
        (I.wrappingDivRemFixI .b128 x n).map (·, false) := by
      have e1 : I.overflowingDivRemFixI .b128 x n =
        I.overflowingDivRemSigned x n (I.wrappingDivRemFixI .b128 x n) := rfl
      rw [e1, I.overflowingDivRemSigned]
      have : (n == BitVec.allOnes (Fix.b128).n) = false := by
        rw [beq_eq_false_iff_ne]
        rintro rfl
        exact hne (by decide)
      rw [this, Bool.and_false, if_neg (by simp)]
    rw [e]
    refine h.map fun p hp => ⟨⟨hp.1, ?_⟩, hp.2⟩
    simp [hI]

omit hw hx he in
theorem dU_zero {n : Nat} (oc : Bool) (h : I.isNegative x = false) (q : Limbs w) :
    I.divRemUnsigned oc x (0 : BitVec n) (.ok (q, 0)) = .ok (q, 0) := by
  rw [I.divRemUnsigned, Res.bind_ok, h]
  rfl

omit hw hx he in
theorem dI_zero {n : Nat} (h : I.isNegative x = false) (q : Limbs w) :
    I.divRemSigned x (0 : BitVec n) (.ok (q, 0)) = .ok (q, 0) := by
  have : (0 : BitVec n).slt 0 = false := by
    rw [← Bool.not_eq_true, BitVec.slt_iff_toInt_lt]; simp
  rw [I.divRemSigned, Res.map_ok, h, this]
  rfl

/-- A zero scalar divisor of a signed number, wrapping forms. -/
theorem iDivRemFix_zero (k : Fix) (oc : Bool) :
    (toInt x ≠ 0 ∨ k.n ≤ w → I.wrappingDivRemFixU oc k x 0 = .panic ∧
      I.wrappingDivRemFixI k x 0 = .panic) ∧
    (toInt x = 0 → w < k.n → ∃ q, ExactS x.length 0 q ∧ I.wrappingDivRemFixU oc k x 0 = .ok (q, 0) ∧
      I.wrappingDivRemFixI k x 0 = .ok (q, 0)) := by
  have hl : 2 ≤ x.length := by rcases hw with rfl | rfl <;> omega
  have hxe : x ≠ [] := length_ne (n := 1) (by omega)
  obtain ⟨xl, xv⟩ := unsignedAbs_natAbs (by omega : 0 < w) hl he
  have hae : I.unsignedAbs x ≠ [] := length_ne (n := 1) (by omega)
  have hi : toInt x = 0 → I.isNegative x = false := fun h => by
    rw [isNegative_eq (by omega) hxe, h]; rfl
  have h1 : ExactS (w := w) x.length 0 (Div.scalar1 x.length 0) := by
    have := Div.scalar1_spec (by omega : 0 < x.length) (0 : BitVec w)
    refine ⟨this.1, ?_⟩
    rw [toInt_eq_zero_iff, this.2]
    simp
  have hlm : Div.limb (I.unsignedAbs x) 0 = .panic := Div.limb_zero hae
  have hp : ∀ m, I.primAbs (0 : BitVec m) = 0 := fun m => by
    unfold I.primAbs
    split <;> simp
  have hUl : I.wrappingDivRemULimb oc x 0 = .panic := by rw [I.wrappingDivRemULimb, hlm]; rfl
  have hIl : I.wrappingDivRemILimb x 0 = .panic := by rw [I.wrappingDivRemILimb, hp, hlm]; rfl
  have hwd := Div.wideDiv_zero (w := w) (x := I.unsignedAbs x) (by omega) (by omega)
  rw [xv, xl] at hwd
  rcases hw with rfl | rfl
  · cases k
    · exact ⟨fun _ => ⟨by
        rw [I.wrappingDivRemFixU, show (0 : BitVec (Fix.b32).n).setWidth 32 = 0 by decide, hUl]; rfl, by
        rw [I.wrappingDivRemFixI, show (0 : BitVec (Fix.b32).n).signExtend 32 = 0 by decide, hIl]; rfl⟩,
        fun _ h => by simp [Fix.n] at h⟩
    · have e : I.wrappingDivRemFixU oc .b64 x 0 = (I.divRemUnsigned oc x (0 : BitVec (32 + 32))
          (Div.wideDiv (I.unsignedAbs x) (0 : BitVec (32 + 32)))).map
            fun (q, r) => (q, r.setWidth 64) := rfl
      have e' : I.wrappingDivRemFixI .b64 x 0 = (I.divRemSigned x (0 : BitVec (32 + 32))
          (Div.wideDiv (I.unsignedAbs x) (I.primAbs (0 : BitVec (32 + 32))))).map
            fun (q, r) => (q, r.setWidth 64) := rfl
      rw [e, e', hp]
      refine ⟨fun h => ?_, fun h _ => ⟨_, h1, ?_⟩⟩
      · rw [hwd.1 (by have := h.resolve_right (by decide); omega)]; exact ⟨rfl, rfl⟩
      · rw [hwd.2 (by omega), dU_zero oc (hi h), dI_zero (hi h)]; exact ⟨rfl, rfl⟩
    · have hd := Div.fromU128_zero (x := I.unsignedAbs x) (by omega)
      rw [xv, xl] at hd
      have e : I.wrappingDivRemFixU oc .b128 x 0 = I.divRemUnsigned oc x 0
        (Div.fromU128 (I.unsignedAbs x) 0) := rfl
      have e' : I.wrappingDivRemFixI .b128 x 0 = I.divRemSigned x 0
        (Div.fromU128 (I.unsignedAbs x) (I.primAbs 0)) := rfl
      rw [e, e', hp]
      refine ⟨fun h => ?_, fun h _ => ⟨_, h1, ?_⟩⟩
      · rw [hd.1 (by have := h.resolve_right (by decide); omega)]; exact ⟨rfl, rfl⟩
      · rw [hd.2 (by omega)]; exact ⟨dU_zero oc (hi h) _, dI_zero (hi h) _⟩
  · cases k
    · exact ⟨fun _ => ⟨by
        rw [I.wrappingDivRemFixU, show (0 : BitVec (Fix.b32).n).setWidth 64 = 0 by decide, hUl]; rfl, by
        rw [I.wrappingDivRemFixI, show (0 : BitVec (Fix.b32).n).signExtend 64 = 0 by decide, hIl]; rfl⟩,
        fun _ h => by simp [Fix.n] at h⟩
    · exact ⟨fun _ => ⟨by
        rw [I.wrappingDivRemFixU, if_neg (by decide),
          show (0 : BitVec (Fix.b64).n).setWidth 64 = 0 by decide, hUl]; rfl, by
        rw [I.wrappingDivRemFixI, if_neg (by decide),
          show (0 : BitVec (Fix.b64).n).signExtend 64 = 0 by decide, hIl]; rfl⟩,
        fun _ h => by simp [Fix.n] at h⟩
    · have e : I.wrappingDivRemFixU oc .b128 x 0 = (I.divRemUnsigned oc x (0 : BitVec (64 + 64))
          (Div.wideDiv (I.unsignedAbs x) (0 : BitVec (64 + 64)))).map
            fun (q, r) => (q, r.setWidth 128) := rfl
      have e' : I.wrappingDivRemFixI .b128 x 0 = (I.divRemSigned x (0 : BitVec (64 + 64))
          (Div.wideDiv (I.unsignedAbs x) (I.primAbs (0 : BitVec (64 + 64))))).map
            fun (q, r) => (q, r.setWidth 128) := rfl
      rw [e, e', hp]
      refine ⟨fun h => ?_, fun h _ => ⟨_, h1, ?_⟩⟩
      · rw [hwd.1 (by have := h.resolve_right (by decide); omega)]; exact ⟨rfl, rfl⟩
      · rw [hwd.2 (by omega), dU_zero oc (hi h), dI_zero (hi h)]; exact ⟨rfl, rfl⟩

end

/-- A zero scalar is not `-1`: the overflowing division is the wrapping one. -/
theorem overflowingDivRemFixI_zero (hw : w = 32 ∨ w = 64) (k : Fix) :
    I.overflowingDivRemFixI k x 0 = (I.wrappingDivRemFixI k x 0).map (·, false) := by
  have key : ∀ (n : Nat) (_ : 0 < n) (r : Res (Limbs w × BitVec n)),
      I.overflowingDivRemSigned x (0 : BitVec n) r = r.map (·, false) := fun n hn r => by
    have : ((0 : BitVec n) == BitVec.allOnes n) = false := by
      rw [beq_eq_false_iff_ne]
      intro h
      have := congrArg BitVec.toNat h
      rw [BitVec.toNat_allOnes] at this
      have h2 : 2 ≤ 2 ^ n := by
        calc 2 = 2 ^ 1 := rfl
          _ ≤ 2 ^ n := Nat.pow_le_pow_right (by decide) hn
      simp at this
      omega
    rw [I.overflowingDivRemSigned, this, Bool.and_false]
    rfl
  rcases hw with rfl | rfl <;> cases k
  · have e : (0 : BitVec (Fix.b32).n).signExtend 32 = 0 := by decide
    rw [I.overflowingDivRemFixI, I.wrappingDivRemFixI, e, I.overflowingDivRemILimb, key _ (by decide)]
    cases I.wrappingDivRemILimb x 0 <;> rfl
  · rw [I.overflowingDivRemFixI]
    exact key _ (by decide) _
  · rw [I.overflowingDivRemFixI, if_neg (by decide)]
    exact key _ (by decide) _
  · have e : (0 : BitVec (Fix.b32).n).signExtend 64 = 0 := by decide
    rw [I.overflowingDivRemFixI, I.wrappingDivRemFixI, e, I.overflowingDivRemILimb, key _ (by decide)]
    cases I.wrappingDivRemILimb x 0 <;> rfl
  · rw [I.overflowingDivRemFixI]
    exact key _ (by decide) _
  · have e : (0 : BitVec (Fix.b128).n).signExtend (64 + 64) = 0 := by decide
    rw [I.overflowingDivRemFixI, I.wrappingDivRemFixI, if_pos rfl, if_pos rfl, e,
      I.overflowingDivRemIWide, key _ (by decide)]
    cases I.wrappingDivRemIWide x 0 <;> rfl

end I256
