import Verif.Lemmas.DivMult

/-!
# Scalar divisors of the signed types
-/

namespace I256

variable {w : Nat}

theorem ediv_nat_of_neg {x : Int} {v : Nat} (hx : x < 0) (hv : v ≠ 0) :
    x / v = (if x.natAbs % v = 0 then -((x.natAbs / v : Nat) : Int) else -((x.natAbs / v : Nat) : Int) - 1) ∧
    x % v = (if x.natAbs % v = 0 then 0 else (v : Int) - (x.natAbs % v : Nat)) := by
  have h := Nat.div_add_mod x.natAbs v
  have hm := Nat.mod_lt x.natAbs (Nat.pos_of_ne_zero hv)
  have hxe : x = -(x.natAbs : Int) := by omega
  have h' : (v : Int) * ((x.natAbs / v : Nat) : Int) + ((x.natAbs % v : Nat) : Int) = x.natAbs := by
    exact_mod_cast h
  generalize x.natAbs / v = q at *
  generalize x.natAbs % v = r at *
  apply (Int.ediv_emod_unique (by omega)).2
  split
  · refine ⟨?_, by omega, by omega⟩
    rw [Int.mul_neg]; omega
  · refine ⟨?_, by omega, by omega⟩
    rw [Int.mul_sub, Int.mul_neg, Int.mul_one]; omega

/-- Signed by unsigned scalar, given the unsigned division of the magnitude. -/
theorem divRemUnsigned_spec (hw : 1 < w) {n : Nat} {x d : Limbs w} {v rem : BitVec n} (h2 : 2 ≤ x.length)
    (hv : v ≠ 0) (dl : d.length = x.length) (dv : toNat d = (toInt x).natAbs / v.toNat)
    (rv : rem.toNat = (toInt x).natAbs % v.toNat) (oc : Bool) :
    ∃ q r, I.divRemUnsigned oc x v (.ok (d, rem)) = .ok (q, r) ∧
      ExactS x.length (toInt x / v.toNat) q ∧ (r.toNat : Int) = toInt x % v.toNat := by
  have hv0 : v.toNat ≠ 0 := fun h => hv (BitVec.eq_of_toNat_eq (by simpa using h))
  have hxe : x ≠ [] := length_ne (n := 1) (by omega)
  have hx := toInt_InS x
  rw [show bits x = w * x.length from rfl] at hx
  have hsg := signAdjust (by omega : 0 < w) (I.isNegative x) h2 dl dv
  have hdl : (toInt x).natAbs / v.toNat ≤ (toInt x).natAbs := Nat.div_le_self _ _
  rw [I.divRemUnsigned, Res.bind_ok]
  simp only
  rw [isNegative_eq (by omega) hxe] at hsg ⊢
  have hre : (rem != 0) = decide ((toInt x).natAbs % v.toNat ≠ 0) := by
    rw [← rv, Bool.eq_iff_iff]
    simp [bne_iff_ne, ← BitVec.toNat_inj]
  by_cases hn : toInt x < 0
  · obtain ⟨e1, e2⟩ := ediv_nat_of_neg hn hv0
    rw [e1, e2, hre]
    simp only [hn, decide_true, if_true, Bool.true_and, decide_eq_true_eq] at hsg ⊢
    have hex := hsg.exact (by unfold InS at hx ⊢; omega)
    by_cases h0 : (toInt x).natAbs % v.toNat = 0
    · rw [if_neg (by simpa using h0), if_pos h0, if_pos h0]
      refine ⟨_, _, rfl, hex, by omega⟩
    · rw [if_pos h0, if_neg h0, if_neg h0]
      have h1 := ofU8S (w := w) (N := x.length) (v := 1) (by omega) h2 (one_lt_two_pow' (by omega))
      have ho := subOpS hw (x := I.wrappingNeg d) (y := ofU8 (I.wrappingNeg d).length 1)
        (length_ne (n := 1) (by rw [hex.1]; omega)) (by rw [hex.1, h1.1]) oc
      rw [hex.1, hex.2, h1.2] at ho
      have hv2 : 2 ≤ v.toNat := by
        by_contra hc
        have : v.toNat = 1 := by omega
        rw [this, Nat.mod_one] at h0
        exact h0 rfl
      have hd2 : (toInt x).natAbs / v.toNat ≤ (toInt x).natAbs / 2 :=
        Nat.div_le_div_left hv2 (by omega)
      have hp4 : (4:Int) ≤ 2 ^ (w * x.length) := by
        have := Nat.mul_le_mul hw h2
        calc (4:Int) = 2 ^ 2 := by norm_num
          _ ≤ 2 ^ (w * x.length) := pow_le_pow_right₀ (by norm_num) (by omega)
      obtain ⟨q, eq, hq⟩ := ho.exact (by unfold InS at hx ⊢; omega)
      rw [hex.1, eq, Res.bind_ok]
      have hlt := Nat.mod_lt (toInt x).natAbs (Nat.pos_of_ne_zero hv0)
      have hul : v.ult rem = false := by
        rw [← Bool.not_eq_true, BitVec.ult_iff_lt, BitVec.lt_def]; omega
      rw [hul, Bool.and_false, if_neg (by simp)]
      refine ⟨_, _, rfl, hq, ?_⟩
      rw [BitVec.toNat_sub_of_le (by rw [BitVec.le_def]; omega), rv]
      omega
  · rw [decide_eq_false hn] at hsg ⊢
    rw [if_neg (by simp)] at hsg
    simp only [Bool.false_and, Bool.false_eq_true, if_false] at hsg ⊢
    have hxn : toInt x = ((toInt x).natAbs : Int) := by omega
    have hex := hsg.exact (by unfold InS at hx ⊢; omega)
    refine ⟨_, _, rfl, ?_, ?_⟩
    · rw [hxn]; exact_mod_cast hex
    · rw [hxn, rv]; simp

theorem primAbs_toNat {n : Nat} (v : BitVec n) : (I.primAbs v).toNat = v.toInt.natAbs := by
  unfold I.primAbs
  have h : (v.slt 0 = true) ↔ v.toInt < 0 := by rw [BitVec.slt_iff_toInt_lt]; simp
  have hv := v.isLt
  have hc := BitVec.toInt_eq_toNat_cond v
  have hp : ((2 ^ n : Nat) : Int) = 2 ^ n := by norm_cast
  simp only [h]
  split
  · rename_i hn
    rw [BitVec.toNat_neg]
    split at hc
    · omega
    · rw [Nat.mod_eq_of_lt (by omega)]; omega
  · split at hc <;> omega

theorem natAbs_toInt_le {n : Nat} (v : BitVec n) : 2 * v.toInt.natAbs ≤ 2 ^ n := by
  have hc := BitVec.toInt_eq_toNat_cond v
  have hv := v.isLt
  have hp : ((2 ^ n : Nat) : Int) = 2 ^ n := by norm_cast
  split at hc <;> omega

/-- Signed by signed scalar, given the unsigned division of the magnitudes. -/
theorem divRemSigned_spec (hw : 1 < w) {n : Nat} {x d : Limbs w} {v rem : BitVec n} (h2 : 2 ≤ x.length)
    (hv : v ≠ 0) (dl : d.length = x.length) (dv : toNat d = (toInt x).natAbs / v.toInt.natAbs)
    (rv : rem.toNat = (toInt x).natAbs % v.toInt.natAbs) :
    ∃ q r, I.divRemSigned x v (.ok (d, rem)) = .ok (q, r) ∧
      WrapS x.length ((toInt x).tdiv v.toInt) q ∧ r.toInt = (toInt x).tmod v.toInt := by
  have hv0 : v.toInt ≠ 0 := fun h => hv (BitVec.eq_of_toInt_eq (by simpa using h))
  have hxe : x ≠ [] := length_ne (n := 1) (by omega)
  rw [I.divRemSigned, Res.map_ok]
  refine ⟨_, _, rfl, ?_, ?_⟩
  · have hsg := signAdjust (by omega : 0 < w) (I.isNegative x != v.slt 0) h2 dl dv
    have hs : v.slt 0 = decide (v.toInt < 0) := by
      rw [Bool.eq_iff_iff, BitVec.slt_iff_toInt_lt]; simp
    rw [isNegative_eq (by omega) hxe, hs] at hsg ⊢
    rwa [tdiv_natAbs] at hsg
  · have hb := natAbs_toInt_le v
    have hlt := Nat.mod_lt (toInt x).natAbs (y := v.toInt.natAbs) (by omega)
    have hrt : rem.toInt = rem.toNat := by
      rw [BitVec.toInt_eq_toNat_cond, if_pos (by omega)]
    have ht := tmod_natAbs (toInt x) v.toInt 0 (fun _ => rfl)
    simp only [Nat.add_zero, Nat.cast_zero, mul_zero, add_zero] at ht
    rw [← ht, isNegative_eq (by omega) hxe]
    simp only [decide_eq_true_eq]
    have hp : ((2 ^ n : Nat) : Int) = 2 ^ n := by norm_cast
    split
    · rw [BitVec.toInt_neg, hrt, rv]
      have := bmod_of_InS (n := n) (z := -(((toInt x).natAbs % v.toInt.natAbs : Nat) : Int))
        (by unfold InS; omega)
      exact_mod_cast this
    · rw [hrt, rv]

theorem limbU (hw : 1 < w) {x : Limbs w} (h2 : 2 ≤ x.length) (he : x.length % 2 = 0) {v : BitVec w}
    (hv : v ≠ 0) (oc : Bool) :
    ∃ q r, I.wrappingDivRemULimb oc x v = .ok (q, r) ∧
      ExactS x.length (toInt x / v.toNat) q ∧ (r.toNat : Int) = toInt x % v.toNat := by
  obtain ⟨xl, xv⟩ := unsignedAbs_natAbs (by omega : 0 < w) h2 he
  obtain ⟨d, rem, e, dl, dv, rv⟩ := Div.limb_spec hv (I.unsignedAbs x)
  rw [I.wrappingDivRemULimb, e]
  rw [xv] at dv rv
  exact divRemUnsigned_spec hw h2 hv (dl.trans xl) dv rv oc

theorem wideU (hw : 1 < w) {x : Limbs w} (h2 : 2 ≤ x.length) (he : x.length % 2 = 0)
    {v : BitVec (w + w)} (hv : v ≠ 0) (oc : Bool) :
    Yields (DivPanics w 2 (toInt x).natAbs v.toNat)
      (fun p => ExactS x.length (toInt x / v.toNat) p.1 ∧ (p.2.toNat : Int) = toInt x % v.toNat)
      (I.wrappingDivRemUWide oc x v) := by
  obtain ⟨xl, xv⟩ := unsignedAbs_natAbs (by omega : 0 < w) h2 he
  have h := Div.wideDiv_spec (by omega : 0 < w) (x := I.unsignedAbs x) (by omega) hv
  rw [xv] at h
  rw [I.wrappingDivRemUWide]
  refine ⟨fun hp => by rw [h.1 hp]; rfl, fun hp => ?_⟩
  obtain ⟨⟨d, rem⟩, e, ⟨dl, dv⟩, rv⟩ := h.2 hp
  obtain ⟨q, r, e', h'⟩ := divRemUnsigned_spec hw h2 hv (dl.trans xl) dv rv oc
  exact ⟨(q, r), by rw [e, e'], h'⟩

theorem limbS (hw : 1 < w) {x : Limbs w} (h2 : 2 ≤ x.length) (he : x.length % 2 = 0) {v : BitVec w}
    (hv : v ≠ 0) :
    ∃ q r, I.wrappingDivRemILimb x v = .ok (q, r) ∧
      WrapS x.length ((toInt x).tdiv v.toInt) q ∧ r.toInt = (toInt x).tmod v.toInt := by
  obtain ⟨xl, xv⟩ := unsignedAbs_natAbs (by omega : 0 < w) h2 he
  have hv0 : v.toInt ≠ 0 := fun h => hv (BitVec.eq_of_toInt_eq (by simpa using h))
  have hpv : I.primAbs v ≠ 0 := fun h => by
    have := primAbs_toNat v
    rw [h] at this
    simp at this
    omega
  obtain ⟨d, rem, e, dl, dv, rv⟩ := Div.limb_spec hpv (I.unsignedAbs x)
  rw [I.wrappingDivRemILimb, e]
  rw [xv, primAbs_toNat] at dv rv
  exact divRemSigned_spec hw h2 hv (dl.trans xl) dv rv

theorem wideS (hw : 1 < w) {x : Limbs w} (h2 : 2 ≤ x.length) (he : x.length % 2 = 0)
    {v : BitVec (w + w)} (hv : v ≠ 0) :
    Yields (DivPanics w 2 (toInt x).natAbs v.toInt.natAbs)
      (fun p => WrapS x.length ((toInt x).tdiv v.toInt) p.1 ∧ p.2.toInt = (toInt x).tmod v.toInt)
      (I.wrappingDivRemIWide x v) := by
  obtain ⟨xl, xv⟩ := unsignedAbs_natAbs (by omega : 0 < w) h2 he
  have hv0 : v.toInt ≠ 0 := fun h => hv (BitVec.eq_of_toInt_eq (by simpa using h))
  have hpv : I.primAbs v ≠ 0 := fun h => by
    have := primAbs_toNat v
    rw [h] at this
    simp at this
    omega
  have h := Div.wideDiv_spec (by omega : 0 < w) (x := I.unsignedAbs x) (by omega) hpv
  rw [xv, primAbs_toNat] at h
  rw [I.wrappingDivRemIWide]
  refine ⟨fun hp => by rw [h.1 hp]; rfl, fun hp => ?_⟩
  obtain ⟨⟨d, rem⟩, e, ⟨dl, dv⟩, rv⟩ := h.2 hp
  obtain ⟨q, r, e', h'⟩ := divRemSigned_spec hw h2 hv (dl.trans xl) dv rv
  exact ⟨(q, r), by rw [e, e'], h'⟩

end I256
