import Verif.Lemmas.Raw
import Verif.Model.Sub

/-!
# The literal additions and subtractions compute the functional ones
-/

namespace I256

variable {w : Nat}

namespace Raw

/-- Limb by limb with a carry, two arrays. -/
def zipC (g : BitVec w → BitVec w → Bool → BitVec w × Bool) :
    Limbs w → Limbs w → Bool → Limbs w × Bool
  | x :: xs, y :: ys, c => ((g x y c).1 :: (zipC g xs ys (g x y c).2).1, (zipC g xs ys (g x y c).2).2)
  | _, _, c => ([], c)

/-- Limb by limb with a carry, one array. -/
def mapC (g : BitVec w → Bool → BitVec w × Bool) : Limbs w → Bool → Limbs w × Bool
  | x :: xs, c => ((g x c).1 :: (mapC g xs (g x c).2).1, (mapC g xs (g x c).2).2)
  | [], c => ([], c)

theorem drop_getLimb {x : Limbs w} {i : Nat} (h : i < x.length) :
    x.drop i = getLimb x i :: x.drop (i + 1) := by
  rw [List.drop_eq_getElem_cons h]
  simp [getLimb, h]

theorem emit_zip (g : BitVec w → BitVec w → Bool → BitVec w × Bool) (x y : Limbs w) (k i : Nat)
    (c : Bool) (hx : i + k ≤ x.length) (hy : i + k ≤ y.length) :
    emit (fun i c => g (getLimb x i) (getLimb y i) c) k i c =
      zipC g ((x.drop i).take k) ((y.drop i).take k) c := by
  induction k generalizing i c with
  | zero => simp [emit, zipC]
  | succ k ih =>
    rw [drop_getLimb (x := x) (by omega), drop_getLimb (x := y) (by omega)]
    simp only [List.take_succ_cons, zipC, emit]
    rw [ih _ _ (by omega) (by omega)]

theorem emit_map (g : BitVec w → Bool → BitVec w × Bool) (x : Limbs w) (k i : Nat)
    (c : Bool) (hx : i + k ≤ x.length) :
    emit (fun i c => g (getLimb x i) c) k i c = mapC g ((x.drop i).take k) c := by
  induction k generalizing i c with
  | zero => simp [emit, mapC]
  | succ k ih =>
    rw [drop_getLimb (x := x) (by omega)]
    simp only [List.take_succ_cons, mapC, emit]
    rw [ih _ _ (by omega)]

theorem zipC_length (g : BitVec w → BitVec w → Bool → BitVec w × Bool) (x y : Limbs w) (c : Bool)
    (h : x.length = y.length) : (zipC g x y c).1.length = x.length := by
  induction x generalizing y c with
  | nil => simp [zipC]
  | cons a x ih =>
    cases y with
    | nil => simp at h
    | cons b y => simp [zipC, ih y _ (by simpa using h)]

theorem mapC_length (g : BitVec w → Bool → BitVec w × Bool) (x : Limbs w) (c : Bool) :
    (mapC g x c).1.length = x.length := by
  induction x generalizing c with
  | nil => simp [mapC]
  | cons a x ih => simp [mapC, ih]

theorem snoc_of_ne {x : Limbs w} (h : x ≠ []) : ∃ xs a, x = xs ++ [a] :=
  ⟨x.dropLast, x.getLast h, (List.dropLast_concat_getLast h).symm⟩

theorem getLimb_snoc (xs : Limbs w) (a : BitVec w) (i : Nat) (h : i = xs.length) :
    getLimb (xs ++ [a]) i = a := by
  subst h
  simp [getLimb]

theorem set_snoc (r : Limbs w) (z v : BitVec w) (i : Nat) (h : i = r.length) :
    (r ++ [z]).set i v = r ++ [v] := by
  subst h
  simp

theorem rhsUW_ok (be : Bool) {n : Nat} (hw : 0 < w) (hn : 2 ≤ n) (y : BitVec (w + w)) :
    rhsUW be n y = .ok (mem be (extUW n y)) := by
  unfold rhsUW
  rw [wr_rep be (by omega), Res.mbind_ok]
  have : shr y w = .ok (y >>> w) := if_pos (by omega)
  rw [this, Res.mbind_ok, wr_ok be (by simp; omega)]
  obtain ⟨m, rfl⟩ : ∃ m, n = m + 2 := ⟨n - 2, by omega⟩
  simp [extUW, List.replicate_succ, loLimb, hiLimb]

theorem rhsI_ok (be : Bool) {n : Nat} (hn : 1 ≤ n) (y : BitVec w) :
    rhsI be n y = .ok (mem be (extI n y)) := by
  unfold rhsI
  rw [wr_rep be (by omega)]
  obtain ⟨m, rfl⟩ : ∃ m, n = m + 1 := ⟨n - 1, by omega⟩
  simp [extI, List.replicate_succ, signLimb]

theorem rhsIW_ok (be : Bool) {n : Nat} (hw : 0 < w) (hn : 2 ≤ n) (y : BitVec (w + w)) :
    rhsIW be n y = .ok (mem be (extIW n y)) := by
  unfold rhsIW
  rw [wr_rep be (by omega), Res.mbind_ok]
  have : shr y w = .ok (y >>> w) := if_pos (by omega)
  rw [this, Res.mbind_ok, wr_ok be (by simp; omega)]
  obtain ⟨m, rfl⟩ : ∃ m, n = m + 2 := ⟨n - 2, by omega⟩
  simp [extIW, List.replicate_succ, loLimb, hiLimb, signLimb]

namespace Add

theorem zipLoop_ok (be : Bool) (x y : Limbs w) (hi lo : Nat) (done rest : Limbs w) (c : Bool)
    (hx : hi ≤ x.length) (hy : hi ≤ y.length) (hd : done.length = lo) (hl : lo ≤ hi)
    (hr : hi - lo ≤ rest.length) :
    zipLoop be (mem be x) (mem be y) hi (lo, mem be (done ++ rest), c) =
      .ok (hi, mem be (done ++ (zipC carryingAdd ((x.drop lo).take (hi - lo)) ((y.drop lo).take (hi - lo)) c).1
        ++ rest.drop (hi - lo)),
        (zipC carryingAdd ((x.drop lo).take (hi - lo)) ((y.drop lo).take (hi - lo)) c).2) := by
  unfold zipLoop
  rw [loop_emit be (fun i c => carryingAdd (getLimb x i) (getLimb y i) c) ?_ done rest c hd hl
    (by rw [mem_length]; omega) hr]
  · rw [emit_zip _ _ _ _ _ _ (by omega) (by omega)]
  · intro i s R h1 h2 h3
    simp only [rd_limb be (show i < x.length by omega), rd_limb be (show i < y.length by omega),
      Res.mbind_ok, wr_ok be h3]

theorem carryLoop_ok (be : Bool) (x : Limbs w) (hi lo : Nat) (done rest : Limbs w) (c : Bool)
    (hx : hi ≤ x.length) (hd : done.length = lo) (hl : lo ≤ hi)
    (hr : hi - lo ≤ rest.length) :
    carryLoop be (mem be x) hi (lo, mem be (done ++ rest), c) =
      .ok (hi, mem be (done ++ (mapC (fun a c => uAddO a (boolLimb w c)) ((x.drop lo).take (hi - lo)) c).1
        ++ rest.drop (hi - lo)),
        (mapC (fun a c => uAddO a (boolLimb w c)) ((x.drop lo).take (hi - lo)) c).2) := by
  unfold carryLoop
  rw [loop_emit be (fun i c => uAddO (getLimb x i) (boolLimb w c)) ?_ done rest c hd hl
    (by rw [mem_length]; omega) hr]
  · rw [emit_map (fun a c => uAddO a (boolLimb w c)) _ _ _ _ (by omega)]
  · intro i s R h1 h2 h3
    simp only [rd_limb be (show i < x.length by omega), Res.mbind_ok, wr_ok be h3]

theorem wrappingLoop_snoc (xs ys : Limbs w) (a b : BitVec w) (c : Bool) (h : xs.length = ys.length) :
    I256.Add.wrappingLoop (xs ++ [a]) (ys ++ [b]) c =
      (zipC carryingAdd xs ys c).1 ++ [a + b + boolLimb w (zipC carryingAdd xs ys c).2] := by
  induction xs generalizing ys c with
  | nil =>
    cases ys with
    | nil => rfl
    | cons _ _ => simp at h
  | cons x xs ih =>
    cases ys with
    | nil => simp at h
    | cons y ys =>
      have := ih ys (carryingAdd x y c).2 (by simpa using h)
      cases xs <;> cases ys <;> simp_all [I256.Add.wrappingLoop, zipC]

theorem overflowingLoop_eq (xs ys : Limbs w) (c : Bool) :
    I256.Add.overflowingLoop xs ys c = zipC carryingAdd xs ys c := by
  induction xs generalizing ys c with
  | nil => cases ys <;> rfl
  | cons x xs ih =>
    cases ys with
    | nil => rfl
    | cons y ys => simp [I256.Add.overflowingLoop, zipC, ih]

theorem carryWrapping_snoc (xs : Limbs w) (a : BitVec w) (c : Bool) :
    I256.Add.carryWrapping (xs ++ [a]) c =
      (mapC (fun a c => uAddO a (boolLimb w c)) xs c).1 ++ [a + boolLimb w (mapC (fun a c => uAddO a (boolLimb w c)) xs c).2] := by
  induction xs generalizing c with
  | nil => rfl
  | cons x xs ih =>
    have := ih (uAddO x (boolLimb w c)).2
    cases xs <;> simp_all [I256.Add.carryWrapping, mapC]

theorem carryOverflowing_eq (xs : Limbs w) (c : Bool) :
    I256.Add.carryOverflowing xs c = (mapC (fun a c => uAddO a (boolLimb w c)) xs c) := by
  induction xs generalizing c with
  | nil => rfl
  | cons x xs ih => simp [I256.Add.carryOverflowing, mapC, ih]

theorem sOverflowingLoop_snoc (xs ys : Limbs w) (a b : BitVec w) (c : Bool)
    (h : xs.length = ys.length) :
    I256.Add.sOverflowingLoop (xs ++ [a]) (ys ++ [b]) c =
      ((zipC carryingAdd xs ys c).1 ++
        [(sAddO (sAddO a b).1 (boolLimb w (zipC carryingAdd xs ys c).2)).1],
       (sAddO a b).2 ^^ (sAddO (sAddO a b).1 (boolLimb w (zipC carryingAdd xs ys c).2)).2) := by
  induction xs generalizing ys c with
  | nil =>
    cases ys with
    | nil => rfl
    | cons _ _ => simp at h
  | cons x xs ih =>
    cases ys with
    | nil => simp at h
    | cons y ys =>
      have := ih ys (carryingAdd x y c).2 (by simpa using h)
      cases xs <;> cases ys <;> simp_all [I256.Add.sOverflowingLoop, zipC]

theorem sCarryOverflowing_snoc (xs : Limbs w) (a : BitVec w) (c : Bool) :
    I256.Add.sCarryOverflowing (xs ++ [a]) c =
      ((mapC (fun a c => uAddO a (boolLimb w c)) xs c).1 ++ [(sAddO a (boolLimb w (mapC (fun a c => uAddO a (boolLimb w c)) xs c).2)).1],
       (sAddO a (boolLimb w (mapC (fun a c => uAddO a (boolLimb w c)) xs c).2)).2) := by
  induction xs generalizing c with
  | nil => rfl
  | cons x xs ih =>
    have := ih (uAddO x (boolLimb w c)).2
    cases xs <;> simp_all [I256.Add.sCarryOverflowing, mapC]

theorem wrappingMnLoop_append (xs ys zs : Limbs w) (c : Bool) (h : xs.length = ys.length)
    (hz : zs ≠ []) :
    I256.Add.wrappingMnLoop (xs ++ zs) ys c =
      (zipC carryingAdd xs ys c).1 ++ I256.Add.carryWrapping zs (zipC carryingAdd xs ys c).2 := by
  induction xs generalizing ys c with
  | nil =>
    cases ys with
    | nil => cases zs <;> simp_all [I256.Add.wrappingMnLoop, zipC]
    | cons _ _ => simp at h
  | cons x xs ih =>
    cases ys with
    | nil => simp at h
    | cons y ys => simp [I256.Add.wrappingMnLoop, zipC, ih ys _ (by simpa using h)]

theorem overflowingMnLoop_append (xs ys zs : Limbs w) (c : Bool) (h : xs.length = ys.length)
    (hz : zs ≠ []) :
    I256.Add.overflowingMnLoop (xs ++ zs) ys c =
      ((zipC carryingAdd xs ys c).1 ++ (I256.Add.carryOverflowing zs (zipC carryingAdd xs ys c).2).1,
        (I256.Add.carryOverflowing zs (zipC carryingAdd xs ys c).2).2) := by
  induction xs generalizing ys c with
  | nil =>
    cases ys with
    | nil => cases zs <;> simp_all [I256.Add.overflowingMnLoop, zipC]
    | cons _ _ => simp at h
  | cons x xs ih =>
    cases ys with
    | nil => simp at h
    | cons y ys => simp [I256.Add.overflowingMnLoop, zipC, ih ys _ (by simpa using h)]

theorem wrappingFull_ok (be : Bool) (x y : Limbs w) (h : x.length = y.length) (h2 : 1 ≤ x.length) :
    wrappingFull be (mem be x) (mem be y) = .ok (mem be (I256.Add.wrappingFull x y)) := by
  obtain ⟨xs, a, rfl⟩ := snoc_of_ne (x := x) (by rintro rfl; simp at h2)
  obtain ⟨ys, b, rfl⟩ := snoc_of_ne (x := y) (by rintro rfl; simp at h)
  have hl : xs.length = ys.length := by simpa using h
  unfold wrappingFull
  rw [mem_length, usub_ok (by simp), Res.mbind_ok]
  have hz := zipLoop_ok be (xs ++ [a]) (ys ++ [b]) ((xs ++ [a]).length - 1) 0 []
    (List.replicate (xs ++ [a]).length 0) false (by simp) (by simp [hl]) rfl (by simp) (by simp)
  rw [List.nil_append, mem_replicate] at hz
  rw [hz, Res.mbind_ok]
  have hzl := zipC_length carryingAdd xs ys false hl
  simp only [rd_limb be (show (xs ++ [a]).length - 1 < (xs ++ [a]).length by simp),
    rd_limb be (show (xs ++ [a]).length - 1 < (ys ++ [b]).length by simp [hl]), Res.mbind_ok]
  simp only [List.length_append, List.length_cons, List.length_nil, Nat.zero_add,
    Nat.add_sub_cancel, Nat.sub_zero, List.drop_zero, List.take_left, List.drop_replicate,
    List.nil_append, Nat.add_sub_cancel_left, List.replicate_one,
    getLimb_snoc xs a _ rfl, getLimb_snoc ys b _ hl]
  rw [show (ys ++ [b]).take xs.length = ys by rw [hl]; simp]
  rw [wr_ok be (by simp [hzl]), set_snoc _ _ _ _ hzl.symm, I256.Add.wrappingFull,
    wrappingLoop_snoc _ _ _ _ _ hl]

theorem sWrappingFull_ok (be : Bool) (x y : Limbs w) (h : x.length = y.length)
    (h2 : 2 ≤ x.length) :
    sWrappingFull be (mem be x) (mem be y) = .ok (mem be (I256.Add.wrappingFull x y)) := by
  unfold sWrappingFull
  rw [mem_length, assert_ok (by simpa using h2), Res.mbind_ok, wrappingFull_ok be x y h (by omega)]

theorem overflowingFull_ok (be : Bool) (x y : Limbs w) (h : x.length = y.length) :
    overflowingFull be (mem be x) (mem be y) =
      .ok (mem be (I256.Add.overflowingFull x y).1, (I256.Add.overflowingFull x y).2) := by
  unfold overflowingFull
  rw [mem_length]
  have hz := zipLoop_ok be x y x.length 0 []
    (List.replicate x.length 0) false (by simp) (by simp [h]) rfl (by simp) (by simp)
  rw [List.nil_append, mem_replicate] at hz
  rw [hz, Res.mbind_ok]
  have ey : y.take x.length = y := by rw [h]; simp
  simp [I256.Add.overflowingFull, overflowingLoop_eq, ey]

theorem wrappingLimb_ok (be : Bool) (x : Limbs w) (y : BitVec w) (h2 : 2 ≤ x.length) :
    wrappingLimb be (mem be x) y = .ok (mem be (I256.Add.wrappingLimb x y)) := by
  obtain ⟨x0, xs, rfl⟩ : ∃ x0 xs, x = x0 :: xs := by
    cases x with
    | nil => simp at h2
    | cons x0 xs => exact ⟨x0, xs, rfl⟩
  obtain ⟨xs, a, rfl⟩ := snoc_of_ne (x := xs) (by rintro rfl; simp at h2)
  unfold wrappingLimb
  rw [mem_length, assert_ok (by simpa using h2), Res.mbind_ok, rd_limb be (by simp), Res.mbind_ok]
  have h0 : getLimb (x0 :: (xs ++ [a])) 0 = x0 := rfl
  simp only [h0]
  rw [wr_rep be (by simp), Res.mbind_ok, usub_ok (by simp), Res.mbind_ok]
  have hz := carryLoop_ok be (x0 :: (xs ++ [a])) ((x0 :: (xs ++ [a])).length - 1) 1 [(uAddO x0 y).1]
    (List.replicate (xs ++ [a]).length 0) (uAddO x0 y).2 (by simp) rfl (by simp) (by simp)
  have e : (List.replicate (x0 :: (xs ++ [a])).length 0#w).set 0 (uAddO x0 y).1 =
      [(uAddO x0 y).1] ++ List.replicate (xs ++ [a]).length 0#w := by
    simp [List.replicate_succ]
  simp only [BitVec.ofNat_eq_ofNat] at hz ⊢
  rw [e, hz, Res.mbind_ok]
  have hl := mapC_length (fun a c => uAddO a (boolLimb w c)) xs (uAddO x0 y).2
  simp only [rd_limb be (show (x0 :: (xs ++ [a])).length - 1 < (x0 :: (xs ++ [a])).length by simp),
    Res.mbind_ok]
  simp only [List.length_append, List.length_cons, List.length_nil, Nat.zero_add,
    Nat.add_sub_cancel, List.drop_succ_cons, List.drop_zero, List.take_left, List.drop_replicate,
    Nat.add_sub_cancel_left, List.replicate_one]
  rw [← List.cons_append, getLimb_snoc _ _ _ (by simp), wr_ok be (by simp [hl]),
    set_snoc _ _ _ _ (by simp [hl]), List.cons_append]
  simp [I256.Add.wrappingLimb, carryWrapping_snoc]

theorem overflowingLimb_ok (be : Bool) (x : Limbs w) (y : BitVec w) (h2 : 2 ≤ x.length) :
    overflowingLimb be (mem be x) y =
      .ok (mem be (I256.Add.overflowingLimb x y).1, (I256.Add.overflowingLimb x y).2) := by
  obtain ⟨x0, xs, rfl⟩ : ∃ x0 xs, x = x0 :: xs := by
    cases x with
    | nil => simp at h2
    | cons x0 xs => exact ⟨x0, xs, rfl⟩
  unfold overflowingLimb
  rw [mem_length, assert_ok (by simpa using h2), Res.mbind_ok, rd_limb be (by simp), Res.mbind_ok]
  have h0 : getLimb (x0 :: xs) 0 = x0 := rfl
  simp only [h0]
  rw [wr_rep be (by simp), Res.mbind_ok]
  have hz := carryLoop_ok be (x0 :: xs) (x0 :: xs).length 1 [(uAddO x0 y).1]
    (List.replicate xs.length 0) (uAddO x0 y).2 (by simp) rfl (by simp) (by simp)
  have e : (List.replicate (x0 :: xs).length 0#w).set 0 (uAddO x0 y).1 =
      [(uAddO x0 y).1] ++ List.replicate xs.length 0#w := by
    simp [List.replicate_succ]
  simp only [BitVec.ofNat_eq_ofNat] at hz ⊢
  rw [e, hz, Res.mbind_ok]
  simp [I256.Add.overflowingLimb, carryOverflowing_eq]

theorem wrappingMn_ok (be : Bool) (x y : Limbs w) (h2 : 2 ≤ y.length) (h : y.length < x.length) :
    wrappingMn be (mem be x) (mem be y) = (I256.Add.wrappingMn x y).map (mem be) := by
  obtain ⟨xs, a, rfl⟩ := snoc_of_ne (x := x) (by rintro rfl; simp at h)
  have hle : y.length ≤ xs.length := by simp at h; omega
  unfold wrappingMn
  rw [mem_length, mem_length, assert_ok (by simp; omega), Res.mbind_ok]
  have hz := zipLoop_ok be (xs ++ [a]) y y.length 0 []
    (List.replicate (xs ++ [a]).length 0) false (by omega) (by simp) rfl (by simp) (by simp; omega)
  rw [List.nil_append, mem_replicate] at hz
  rw [hz]
  simp only [Res.mbind_ok, usub_ok (show 1 ≤ (xs ++ [a]).length by simp)]
  have e1 : ((xs ++ [a]).drop 0).take (y.length - 0) = xs.take y.length := by
    simp [List.take_append_of_le_length hle]
  have e2 : (y.drop 0).take (y.length - 0) = y := by simp
  rw [e1, e2]
  have hzl := zipC_length carryingAdd (xs.take y.length) y false (by simp [hle])
  have hc := carryLoop_ok be (xs ++ [a]) ((xs ++ [a]).length - 1) y.length
    (zipC carryingAdd (xs.take y.length) y false).1 (List.replicate (xs.length + 1 - y.length) 0)
    (zipC carryingAdd (xs.take y.length) y false).2 (by simp) (by simp [hzl, hle]) (by simpa using hle)
    (by simp; omega)
  simp only [List.nil_append, Nat.sub_zero, List.drop_replicate, List.length_append,
    List.length_cons, List.length_nil, Nat.zero_add, Nat.add_sub_cancel] at hc ⊢
  rw [hc, Res.mbind_ok]
  have e3 : ((xs ++ [a]).drop y.length).take (xs.length - y.length) = xs.drop y.length := by
    rw [List.drop_append_of_le_length hle, List.take_append_of_le_length (by simp),
      List.take_of_length_le (by simp)]
  have e4 : xs.length + 1 - y.length - (xs.length - y.length) = 1 := by omega
  rw [e3, e4]
  have hcl := mapC_length (fun a c => uAddO a (boolLimb w c)) (xs.drop y.length)
    (zipC carryingAdd (xs.take y.length) y false).2
  simp only [rd_limb be (show xs.length < (xs ++ [a]).length by simp), Res.mbind_ok,
    getLimb_snoc xs a _ rfl, List.replicate_one]
  rw [wr_ok be (by simp [hcl, hzl, hle]; omega), set_snoc _ _ _ _ (by simp [hcl, hzl, hle])]
  have e5 : xs ++ [a] = xs.take y.length ++ (xs.drop y.length ++ [a]) := by
    rw [← List.append_assoc, List.take_append_drop]
  rw [I256.Add.wrappingMn, if_pos ⟨h2, by simp; omega⟩, Res.map_ok, e5,
    wrappingMnLoop_append _ _ _ _ (by simp [hle]) (by simp), carryWrapping_snoc]
  simp

theorem overflowingMn_ok (be : Bool) (x y : Limbs w) (h2 : 2 ≤ y.length) (h : y.length < x.length) :
    overflowingMn be (mem be x) (mem be y) =
      (I256.Add.overflowingMn x y).map fun r => (mem be r.1, r.2) := by
  unfold overflowingMn
  rw [mem_length, mem_length, assert_ok (by simp; omega), Res.mbind_ok]
  have hz := zipLoop_ok be x y y.length 0 []
    (List.replicate x.length 0) false (by omega) (by simp) rfl (by simp) (by simp; omega)
  rw [List.nil_append, mem_replicate] at hz
  rw [hz, Res.mbind_ok]
  have e1 : (x.drop 0).take (y.length - 0) = x.take y.length := by simp
  have e2 : (y.drop 0).take (y.length - 0) = y := by simp
  rw [e1, e2]
  have hzl := zipC_length carryingAdd (x.take y.length) y false (by simp; omega)
  have hc := carryLoop_ok be x x.length y.length
    (zipC carryingAdd (x.take y.length) y false).1 (List.replicate (x.length - y.length) 0)
    (zipC carryingAdd (x.take y.length) y false).2 (by simp) (by simp [hzl]; omega) (by omega)
    (by simp)
  simp only [List.nil_append, Nat.sub_zero, List.drop_replicate] at hc ⊢
  rw [hc, Res.mbind_ok]
  have e3 : (x.drop y.length).take (x.length - y.length) = x.drop y.length :=
    List.take_of_length_le (by simp)
  rw [e3, I256.Add.overflowingMn, if_pos ⟨h2, by omega⟩, Res.map_ok]
  have e5 := overflowingMnLoop_append (x.take y.length) y (x.drop y.length) false (by simp; omega)
    (by intro h0; have := congrArg List.length h0; simp at this; omega)
  rw [List.take_append_drop] at e5
  rw [e5, carryOverflowing_eq]
  simp

theorem wrappingWide_ok (be : Bool) (hw : 0 < w) (x : Limbs w) (y : BitVec (w + w))
    (h : 2 < x.length) :
    wrappingWide be (mem be x) y = (I256.Add.wrappingWide x y).map (mem be) := by
  unfold wrappingWide
  rw [rhsUW_ok be hw (Nat.le_refl 2), Res.mbind_ok]
  exact wrappingMn_ok be x (extUW 2 y) (by simp [extUW]) (by simpa [extUW] using h)

theorem overflowingWide_ok (be : Bool) (hw : 0 < w) (x : Limbs w) (y : BitVec (w + w))
    (h : 2 < x.length) :
    overflowingWide be (mem be x) y =
      (I256.Add.overflowingWide x y).map fun r => (mem be r.1, r.2) := by
  unfold overflowingWide
  rw [rhsUW_ok be hw (Nat.le_refl 2), Res.mbind_ok]
  exact overflowingMn_ok be x (extUW 2 y) (by simp [extUW]) (by simpa [extUW] using h)

theorem sOverflowingFull_ok (be : Bool) (x y : Limbs w) (h : x.length = y.length)
    (h2 : 2 ≤ x.length) :
    sOverflowingFull be (mem be x) (mem be y) =
      .ok (mem be (I256.Add.sOverflowingFull x y).1, (I256.Add.sOverflowingFull x y).2) := by
  obtain ⟨xs, a, rfl⟩ := snoc_of_ne (x := x) (by rintro rfl; simp at h2)
  obtain ⟨ys, b, rfl⟩ := snoc_of_ne (x := y) (by rintro rfl; simp at h)
  have hl : xs.length = ys.length := by simpa using h
  unfold sOverflowingFull
  rw [mem_length, assert_ok (by simpa using h2), Res.mbind_ok, usub_ok (by simp), Res.mbind_ok]
  have hz := zipLoop_ok be (xs ++ [a]) (ys ++ [b]) ((xs ++ [a]).length - 1) 0 []
    (List.replicate (xs ++ [a]).length 0) false (by simp) (by simp [hl]) rfl (by simp) (by simp)
  rw [List.nil_append, mem_replicate] at hz
  rw [hz, Res.mbind_ok]
  have hzl := zipC_length carryingAdd xs ys false hl
  simp only [rd_limb be (show (xs ++ [a]).length - 1 < (xs ++ [a]).length by simp),
    rd_limb be (show (xs ++ [a]).length - 1 < (ys ++ [b]).length by simp [hl]), Res.mbind_ok]
  simp only [List.length_append, List.length_cons, List.length_nil, Nat.zero_add,
    Nat.add_sub_cancel, Nat.sub_zero, List.drop_zero, List.take_left, List.drop_replicate,
    List.nil_append, Nat.add_sub_cancel_left, List.replicate_one,
    getLimb_snoc xs a _ rfl, getLimb_snoc ys b _ hl]
  rw [show (ys ++ [b]).take xs.length = ys by rw [hl]; simp]
  rw [wr_ok be (by simp [hzl]), set_snoc _ _ _ _ hzl.symm, I256.Add.sOverflowingFull,
    sOverflowingLoop_snoc _ _ _ _ _ hl]
  rfl

theorem sOverflowingULimb_ok (be : Bool) (x : Limbs w) (y : BitVec w) (h2 : 2 ≤ x.length) :
    sOverflowingULimb be (mem be x) y =
      .ok (mem be (I256.Add.sOverflowingULimb x y).1, (I256.Add.sOverflowingULimb x y).2) := by
  obtain ⟨x0, xs, rfl⟩ : ∃ x0 xs, x = x0 :: xs := by
    cases x with
    | nil => simp at h2
    | cons x0 xs => exact ⟨x0, xs, rfl⟩
  obtain ⟨xs, a, rfl⟩ := snoc_of_ne (x := xs) (by rintro rfl; simp at h2)
  unfold sOverflowingULimb
  rw [mem_length, assert_ok (by simpa using h2), Res.mbind_ok, rd_limb be (by simp), Res.mbind_ok]
  have h0 : getLimb (x0 :: (xs ++ [a])) 0 = x0 := rfl
  simp only [h0]
  rw [wr_rep be (by simp), Res.mbind_ok, usub_ok (by simp), Res.mbind_ok]
  have hz := carryLoop_ok be (x0 :: (xs ++ [a])) ((x0 :: (xs ++ [a])).length - 1) 1 [(uAddO x0 y).1]
    (List.replicate (xs ++ [a]).length 0) (uAddO x0 y).2 (by simp) rfl (by simp) (by simp)
  have e : (List.replicate (x0 :: (xs ++ [a])).length 0#w).set 0 (uAddO x0 y).1 =
      [(uAddO x0 y).1] ++ List.replicate (xs ++ [a]).length 0#w := by
    simp [List.replicate_succ]
  simp only [BitVec.ofNat_eq_ofNat] at hz ⊢
  rw [e, hz, Res.mbind_ok]
  have hl := mapC_length (fun a c => uAddO a (boolLimb w c)) xs (uAddO x0 y).2
  simp only [rd_limb be (show (x0 :: (xs ++ [a])).length - 1 < (x0 :: (xs ++ [a])).length by simp),
    Res.mbind_ok]
  simp only [List.length_append, List.length_cons, List.length_nil, Nat.zero_add,
    Nat.add_sub_cancel, List.drop_succ_cons, List.drop_zero, List.take_left, List.drop_replicate,
    Nat.add_sub_cancel_left, List.replicate_one]
  rw [← List.cons_append, getLimb_snoc _ _ _ (by simp), wr_ok be (by simp [hl]),
    set_snoc _ _ _ _ (by simp [hl]), List.cons_append]
  simp [I256.Add.sOverflowingULimb, sCarryOverflowing_snoc]

theorem sWrappingILimb_ok (be : Bool) (x : Limbs w) (y : BitVec w) (h2 : 2 ≤ x.length) :
    sWrappingILimb be (mem be x) y = .ok (mem be (I256.Add.sWrappingILimb x y)) := by
  unfold sWrappingILimb
  rw [mem_length, rhsI_ok be (by omega), Res.mbind_ok]
  exact sWrappingFull_ok be x _ (by simp [extI]; omega) h2

theorem sOverflowingILimb_ok (be : Bool) (x : Limbs w) (y : BitVec w) (h2 : 2 ≤ x.length) :
    sOverflowingILimb be (mem be x) y = .ok (mem be (I256.Add.sOverflowingILimb x y).1, (I256.Add.sOverflowingILimb x y).2) := by
  unfold sOverflowingILimb
  rw [mem_length, rhsI_ok be (by omega), Res.mbind_ok]
  exact sOverflowingFull_ok be x _ (by simp [extI]; omega) h2

theorem sWrappingUWide_ok (be : Bool) (hw : 0 < w) (x : Limbs w) (y : BitVec (w + w)) (h2 : 2 ≤ x.length) :
    sWrappingUWide be (mem be x) y = .ok (mem be (I256.Add.sWrappingUWide x y)) := by
  unfold sWrappingUWide
  rw [mem_length, rhsUW_ok be hw (by omega), Res.mbind_ok]
  exact sWrappingFull_ok be x _ (by simp [extUW]; omega) h2

theorem sOverflowingUWide_ok (be : Bool) (hw : 0 < w) (x : Limbs w) (y : BitVec (w + w)) (h2 : 2 ≤ x.length) :
    sOverflowingUWide be (mem be x) y = .ok (mem be (I256.Add.sOverflowingUWide x y).1, (I256.Add.sOverflowingUWide x y).2) := by
  unfold sOverflowingUWide
  rw [mem_length, rhsUW_ok be hw (by omega), Res.mbind_ok]
  exact sOverflowingFull_ok be x _ (by simp [extUW]; omega) h2

theorem sWrappingIWide_ok (be : Bool) (hw : 0 < w) (x : Limbs w) (y : BitVec (w + w)) (h2 : 2 ≤ x.length) :
    sWrappingIWide be (mem be x) y = .ok (mem be (I256.Add.sWrappingIWide x y)) := by
  unfold sWrappingIWide
  rw [mem_length, rhsIW_ok be hw (by omega), Res.mbind_ok]
  exact sWrappingFull_ok be x _ (by simp [extIW]; omega) h2

theorem sOverflowingIWide_ok (be : Bool) (hw : 0 < w) (x : Limbs w) (y : BitVec (w + w)) (h2 : 2 ≤ x.length) :
    sOverflowingIWide be (mem be x) y = .ok (mem be (I256.Add.sOverflowingIWide x y).1, (I256.Add.sOverflowingIWide x y).2) := by
  unfold sOverflowingIWide
  rw [mem_length, rhsIW_ok be hw (by omega), Res.mbind_ok]
  exact sOverflowingFull_ok be x _ (by simp [extIW]; omega) h2

end Add

namespace Sub

theorem zipLoop_ok (be : Bool) (x y : Limbs w) (hi lo : Nat) (done rest : Limbs w) (c : Bool)
    (hx : hi ≤ x.length) (hy : hi ≤ y.length) (hd : done.length = lo) (hl : lo ≤ hi)
    (hr : hi - lo ≤ rest.length) :
    zipLoop be (mem be x) (mem be y) hi (lo, mem be (done ++ rest), c) =
      .ok (hi, mem be (done ++ (zipC borrowingSub ((x.drop lo).take (hi - lo)) ((y.drop lo).take (hi - lo)) c).1
        ++ rest.drop (hi - lo)),
        (zipC borrowingSub ((x.drop lo).take (hi - lo)) ((y.drop lo).take (hi - lo)) c).2) := by
  unfold zipLoop
  rw [loop_emit be (fun i c => borrowingSub (getLimb x i) (getLimb y i) c) ?_ done rest c hd hl
    (by rw [mem_length]; omega) hr]
  · rw [emit_zip _ _ _ _ _ _ (by omega) (by omega)]
  · intro i s R h1 h2 h3
    simp only [rd_limb be (show i < x.length by omega), rd_limb be (show i < y.length by omega),
      Res.mbind_ok, wr_ok be h3]

theorem carryLoop_ok (be : Bool) (x : Limbs w) (hi lo : Nat) (done rest : Limbs w) (c : Bool)
    (hx : hi ≤ x.length) (hd : done.length = lo) (hl : lo ≤ hi)
    (hr : hi - lo ≤ rest.length) :
    carryLoop be (mem be x) hi (lo, mem be (done ++ rest), c) =
      .ok (hi, mem be (done ++ (mapC (fun a c => uSubO a (boolLimb w c)) ((x.drop lo).take (hi - lo)) c).1
        ++ rest.drop (hi - lo)),
        (mapC (fun a c => uSubO a (boolLimb w c)) ((x.drop lo).take (hi - lo)) c).2) := by
  unfold carryLoop
  rw [loop_emit be (fun i c => uSubO (getLimb x i) (boolLimb w c)) ?_ done rest c hd hl
    (by rw [mem_length]; omega) hr]
  · rw [emit_map (fun a c => uSubO a (boolLimb w c)) _ _ _ _ (by omega)]
  · intro i s R h1 h2 h3
    simp only [rd_limb be (show i < x.length by omega), Res.mbind_ok, wr_ok be h3]

theorem wrappingLoop_snoc (xs ys : Limbs w) (a b : BitVec w) (c : Bool) (h : xs.length = ys.length) :
    I256.Sub.wrappingLoop (xs ++ [a]) (ys ++ [b]) c =
      (zipC borrowingSub xs ys c).1 ++ [a - b - boolLimb w (zipC borrowingSub xs ys c).2] := by
  induction xs generalizing ys c with
  | nil =>
    cases ys with
    | nil => rfl
    | cons _ _ => simp at h
  | cons x xs ih =>
    cases ys with
    | nil => simp at h
    | cons y ys =>
      have := ih ys (borrowingSub x y c).2 (by simpa using h)
      cases xs <;> cases ys <;> simp_all [I256.Sub.wrappingLoop, zipC]

theorem overflowingLoop_eq (xs ys : Limbs w) (c : Bool) :
    I256.Sub.overflowingLoop xs ys c = zipC borrowingSub xs ys c := by
  induction xs generalizing ys c with
  | nil => cases ys <;> rfl
  | cons x xs ih =>
    cases ys with
    | nil => rfl
    | cons y ys => simp [I256.Sub.overflowingLoop, zipC, ih]

theorem carryWrapping_snoc (xs : Limbs w) (a : BitVec w) (c : Bool) :
    I256.Sub.carryWrapping (xs ++ [a]) c =
      (mapC (fun a c => uSubO a (boolLimb w c)) xs c).1 ++ [a - boolLimb w (mapC (fun a c => uSubO a (boolLimb w c)) xs c).2] := by
  induction xs generalizing c with
  | nil => rfl
  | cons x xs ih =>
    have := ih (uSubO x (boolLimb w c)).2
    cases xs <;> simp_all [I256.Sub.carryWrapping, mapC]

theorem carryOverflowing_eq (xs : Limbs w) (c : Bool) :
    I256.Sub.carryOverflowing xs c = (mapC (fun a c => uSubO a (boolLimb w c)) xs c) := by
  induction xs generalizing c with
  | nil => rfl
  | cons x xs ih => simp [I256.Sub.carryOverflowing, mapC, ih]

theorem sOverflowingLoop_snoc (xs ys : Limbs w) (a b : BitVec w) (c : Bool)
    (h : xs.length = ys.length) :
    I256.Sub.sOverflowingLoop (xs ++ [a]) (ys ++ [b]) c =
      ((zipC borrowingSub xs ys c).1 ++
        [(sSubO (sSubO a b).1 (boolLimb w (zipC borrowingSub xs ys c).2)).1],
       (sSubO a b).2 ^^ (sSubO (sSubO a b).1 (boolLimb w (zipC borrowingSub xs ys c).2)).2) := by
  induction xs generalizing ys c with
  | nil =>
    cases ys with
    | nil => rfl
    | cons _ _ => simp at h
  | cons x xs ih =>
    cases ys with
    | nil => simp at h
    | cons y ys =>
      have := ih ys (borrowingSub x y c).2 (by simpa using h)
      cases xs <;> cases ys <;> simp_all [I256.Sub.sOverflowingLoop, zipC]

theorem sCarryOverflowing_snoc (xs : Limbs w) (a : BitVec w) (c : Bool) :
    I256.Sub.sCarryOverflowing (xs ++ [a]) c =
      ((mapC (fun a c => uSubO a (boolLimb w c)) xs c).1 ++ [(sSubO a (boolLimb w (mapC (fun a c => uSubO a (boolLimb w c)) xs c).2)).1],
       (sSubO a (boolLimb w (mapC (fun a c => uSubO a (boolLimb w c)) xs c).2)).2) := by
  induction xs generalizing c with
  | nil => rfl
  | cons x xs ih =>
    have := ih (uSubO x (boolLimb w c)).2
    cases xs <;> simp_all [I256.Sub.sCarryOverflowing, mapC]

theorem wrappingMnLoop_append (xs ys zs : Limbs w) (c : Bool) (h : xs.length = ys.length)
    (hz : zs ≠ []) :
    I256.Sub.wrappingMnLoop (xs ++ zs) ys c =
      (zipC borrowingSub xs ys c).1 ++ I256.Sub.carryWrapping zs (zipC borrowingSub xs ys c).2 := by
  induction xs generalizing ys c with
  | nil =>
    cases ys with
    | nil => cases zs <;> simp_all [I256.Sub.wrappingMnLoop, zipC]
    | cons _ _ => simp at h
  | cons x xs ih =>
    cases ys with
    | nil => simp at h
    | cons y ys => simp [I256.Sub.wrappingMnLoop, zipC, ih ys _ (by simpa using h)]

theorem overflowingMnLoop_append (xs ys zs : Limbs w) (c : Bool) (h : xs.length = ys.length)
    (hz : zs ≠ []) :
    I256.Sub.overflowingMnLoop (xs ++ zs) ys c =
      ((zipC borrowingSub xs ys c).1 ++ (I256.Sub.carryOverflowing zs (zipC borrowingSub xs ys c).2).1,
        (I256.Sub.carryOverflowing zs (zipC borrowingSub xs ys c).2).2) := by
  induction xs generalizing ys c with
  | nil =>
    cases ys with
    | nil => cases zs <;> simp_all [I256.Sub.overflowingMnLoop, zipC]
    | cons _ _ => simp at h
  | cons x xs ih =>
    cases ys with
    | nil => simp at h
    | cons y ys => simp [I256.Sub.overflowingMnLoop, zipC, ih ys _ (by simpa using h)]

theorem wrappingFull_ok (be : Bool) (x y : Limbs w) (h : x.length = y.length) (h2 : 2 ≤ x.length) :
    wrappingFull be (mem be x) (mem be y) = .ok (mem be (I256.Sub.wrappingFull x y)) := by
  obtain ⟨xs, a, rfl⟩ := snoc_of_ne (x := x) (by rintro rfl; simp at h2)
  obtain ⟨ys, b, rfl⟩ := snoc_of_ne (x := y) (by rintro rfl; simp at h)
  have hl : xs.length = ys.length := by simpa using h
  unfold wrappingFull
  rw [mem_length, assert_ok (by simpa using h2), Res.mbind_ok, usub_ok (by simp), Res.mbind_ok]
  have hz := zipLoop_ok be (xs ++ [a]) (ys ++ [b]) ((xs ++ [a]).length - 1) 0 []
    (List.replicate (xs ++ [a]).length 0) false (by simp) (by simp [hl]) rfl (by simp) (by simp)
  rw [List.nil_append, mem_replicate] at hz
  rw [hz, Res.mbind_ok]
  have hzl := zipC_length borrowingSub xs ys false hl
  simp only [rd_limb be (show (xs ++ [a]).length - 1 < (xs ++ [a]).length by simp),
    rd_limb be (show (xs ++ [a]).length - 1 < (ys ++ [b]).length by simp [hl]), Res.mbind_ok]
  simp only [List.length_append, List.length_cons, List.length_nil, Nat.zero_add,
    Nat.add_sub_cancel, Nat.sub_zero, List.drop_zero, List.take_left, List.drop_replicate,
    List.nil_append, Nat.add_sub_cancel_left, List.replicate_one,
    getLimb_snoc xs a _ rfl, getLimb_snoc ys b _ hl]
  rw [show (ys ++ [b]).take xs.length = ys by rw [hl]; simp]
  rw [wr_ok be (by simp [hzl]), set_snoc _ _ _ _ hzl.symm, I256.Sub.wrappingFull,
    wrappingLoop_snoc _ _ _ _ _ hl]

theorem overflowingFull_ok (be : Bool) (x y : Limbs w) (h : x.length = y.length)
    (h2 : 2 ≤ x.length) :
    overflowingFull be (mem be x) (mem be y) =
      .ok (mem be (I256.Sub.overflowingFull x y).1, (I256.Sub.overflowingFull x y).2) := by
  unfold overflowingFull
  rw [mem_length, assert_ok (by simpa using h2), Res.mbind_ok]
  have hz := zipLoop_ok be x y x.length 0 []
    (List.replicate x.length 0) false (by simp) (by simp [h]) rfl (by simp) (by simp)
  rw [List.nil_append, mem_replicate] at hz
  rw [hz, Res.mbind_ok]
  have ey : y.take x.length = y := by rw [h]; simp
  simp [I256.Sub.overflowingFull, overflowingLoop_eq, ey]

theorem wrappingLimb_ok (be : Bool) (x : Limbs w) (y : BitVec w) (h2 : 2 ≤ x.length) :
    wrappingLimb be (mem be x) y = .ok (mem be (I256.Sub.wrappingLimb x y)) := by
  obtain ⟨x0, xs, rfl⟩ : ∃ x0 xs, x = x0 :: xs := by
    cases x with
    | nil => simp at h2
    | cons x0 xs => exact ⟨x0, xs, rfl⟩
  obtain ⟨xs, a, rfl⟩ := snoc_of_ne (x := xs) (by rintro rfl; simp at h2)
  unfold wrappingLimb
  rw [mem_length, assert_ok (by simpa using h2), Res.mbind_ok, rd_limb be (by simp), Res.mbind_ok]
  have h0 : getLimb (x0 :: (xs ++ [a])) 0 = x0 := rfl
  simp only [h0]
  rw [wr_rep be (by simp), Res.mbind_ok, usub_ok (by simp), Res.mbind_ok]
  have hz := carryLoop_ok be (x0 :: (xs ++ [a])) ((x0 :: (xs ++ [a])).length - 1) 1 [(uSubO x0 y).1]
    (List.replicate (xs ++ [a]).length 0) (uSubO x0 y).2 (by simp) rfl (by simp) (by simp)
  have e : (List.replicate (x0 :: (xs ++ [a])).length 0#w).set 0 (uSubO x0 y).1 =
      [(uSubO x0 y).1] ++ List.replicate (xs ++ [a]).length 0#w := by
    simp [List.replicate_succ]
  simp only [BitVec.ofNat_eq_ofNat] at hz ⊢
  rw [e, hz, Res.mbind_ok]
  have hl := mapC_length (fun a c => uSubO a (boolLimb w c)) xs (uSubO x0 y).2
  simp only [rd_limb be (show (x0 :: (xs ++ [a])).length - 1 < (x0 :: (xs ++ [a])).length by simp),
    Res.mbind_ok]
  simp only [List.length_append, List.length_cons, List.length_nil, Nat.zero_add,
    Nat.add_sub_cancel, List.drop_succ_cons, List.drop_zero, List.take_left, List.drop_replicate,
    Nat.add_sub_cancel_left, List.replicate_one]
  rw [← List.cons_append, getLimb_snoc _ _ _ (by simp), wr_ok be (by simp [hl]),
    set_snoc _ _ _ _ (by simp [hl]), List.cons_append]
  simp [I256.Sub.wrappingLimb, carryWrapping_snoc]

theorem overflowingLimb_ok (be : Bool) (x : Limbs w) (y : BitVec w) (h2 : 2 ≤ x.length) :
    overflowingLimb be (mem be x) y =
      .ok (mem be (I256.Sub.overflowingLimb x y).1, (I256.Sub.overflowingLimb x y).2) := by
  obtain ⟨x0, xs, rfl⟩ : ∃ x0 xs, x = x0 :: xs := by
    cases x with
    | nil => simp at h2
    | cons x0 xs => exact ⟨x0, xs, rfl⟩
  unfold overflowingLimb
  rw [mem_length, assert_ok (by simpa using h2), Res.mbind_ok, rd_limb be (by simp), Res.mbind_ok]
  have h0 : getLimb (x0 :: xs) 0 = x0 := rfl
  simp only [h0]
  rw [wr_rep be (by simp), Res.mbind_ok]
  have hz := carryLoop_ok be (x0 :: xs) (x0 :: xs).length 1 [(uSubO x0 y).1]
    (List.replicate xs.length 0) (uSubO x0 y).2 (by simp) rfl (by simp) (by simp)
  have e : (List.replicate (x0 :: xs).length 0#w).set 0 (uSubO x0 y).1 =
      [(uSubO x0 y).1] ++ List.replicate xs.length 0#w := by
    simp [List.replicate_succ]
  simp only [BitVec.ofNat_eq_ofNat] at hz ⊢
  rw [e, hz, Res.mbind_ok]
  simp [I256.Sub.overflowingLimb, carryOverflowing_eq]

theorem wrappingMn_ok (be : Bool) (x y : Limbs w) (h2 : 2 ≤ y.length) (h : y.length < x.length) :
    wrappingMn be (mem be x) (mem be y) = (I256.Sub.wrappingMn x y).map (mem be) := by
  obtain ⟨xs, a, rfl⟩ := snoc_of_ne (x := x) (by rintro rfl; simp at h)
  have hle : y.length ≤ xs.length := by simp at h; omega
  unfold wrappingMn
  rw [mem_length, mem_length, assert_ok (by simp; omega), Res.mbind_ok]
  have hz := zipLoop_ok be (xs ++ [a]) y y.length 0 []
    (List.replicate (xs ++ [a]).length 0) false (by omega) (by simp) rfl (by simp) (by simp; omega)
  rw [List.nil_append, mem_replicate] at hz
  rw [hz]
  simp only [Res.mbind_ok, usub_ok (show 1 ≤ (xs ++ [a]).length by simp)]
  have e1 : ((xs ++ [a]).drop 0).take (y.length - 0) = xs.take y.length := by
    simp [List.take_append_of_le_length hle]
  have e2 : (y.drop 0).take (y.length - 0) = y := by simp
  rw [e1, e2]
  have hzl := zipC_length borrowingSub (xs.take y.length) y false (by simp [hle])
  have hc := carryLoop_ok be (xs ++ [a]) ((xs ++ [a]).length - 1) y.length
    (zipC borrowingSub (xs.take y.length) y false).1 (List.replicate (xs.length + 1 - y.length) 0)
    (zipC borrowingSub (xs.take y.length) y false).2 (by simp) (by simp [hzl, hle]) (by simpa using hle)
    (by simp; omega)
  simp only [List.nil_append, Nat.sub_zero, List.drop_replicate, List.length_append,
    List.length_cons, List.length_nil, Nat.zero_add, Nat.add_sub_cancel] at hc ⊢
  rw [hc, Res.mbind_ok]
  have e3 : ((xs ++ [a]).drop y.length).take (xs.length - y.length) = xs.drop y.length := by
    rw [List.drop_append_of_le_length hle, List.take_append_of_le_length (by simp),
      List.take_of_length_le (by simp)]
  have e4 : xs.length + 1 - y.length - (xs.length - y.length) = 1 := by omega
  rw [e3, e4]
  have hcl := mapC_length (fun a c => uSubO a (boolLimb w c)) (xs.drop y.length)
    (zipC borrowingSub (xs.take y.length) y false).2
  simp only [rd_limb be (show xs.length < (xs ++ [a]).length by simp), Res.mbind_ok,
    getLimb_snoc xs a _ rfl, List.replicate_one]
  rw [wr_ok be (by simp [hcl, hzl, hle]; omega), set_snoc _ _ _ _ (by simp [hcl, hzl, hle])]
  have e5 : xs ++ [a] = xs.take y.length ++ (xs.drop y.length ++ [a]) := by
    rw [← List.append_assoc, List.take_append_drop]
  rw [I256.Sub.wrappingMn, if_pos ⟨h2, by simp; omega⟩, Res.map_ok, e5,
    wrappingMnLoop_append _ _ _ _ (by simp [hle]) (by simp), carryWrapping_snoc]
  simp

theorem overflowingMn_ok (be : Bool) (x y : Limbs w) (h2 : 2 ≤ y.length) (h : y.length < x.length) :
    overflowingMn be (mem be x) (mem be y) =
      (I256.Sub.overflowingMn x y).map fun r => (mem be r.1, r.2) := by
  unfold overflowingMn
  rw [mem_length, mem_length, assert_ok (by simp; omega), Res.mbind_ok]
  have hz := zipLoop_ok be x y y.length 0 []
    (List.replicate x.length 0) false (by omega) (by simp) rfl (by simp) (by simp; omega)
  rw [List.nil_append, mem_replicate] at hz
  rw [hz, Res.mbind_ok]
  have e1 : (x.drop 0).take (y.length - 0) = x.take y.length := by simp
  have e2 : (y.drop 0).take (y.length - 0) = y := by simp
  rw [e1, e2]
  have hzl := zipC_length borrowingSub (x.take y.length) y false (by simp; omega)
  have hc := carryLoop_ok be x x.length y.length
    (zipC borrowingSub (x.take y.length) y false).1 (List.replicate (x.length - y.length) 0)
    (zipC borrowingSub (x.take y.length) y false).2 (by simp) (by simp [hzl]; omega) (by omega)
    (by simp)
  simp only [List.nil_append, Nat.sub_zero, List.drop_replicate] at hc ⊢
  rw [hc, Res.mbind_ok]
  have e3 : (x.drop y.length).take (x.length - y.length) = x.drop y.length :=
    List.take_of_length_le (by simp)
  rw [e3, I256.Sub.overflowingMn, if_pos ⟨h2, by omega⟩, Res.map_ok]
  have e5 := overflowingMnLoop_append (x.take y.length) y (x.drop y.length) false (by simp; omega)
    (by intro h0; have := congrArg List.length h0; simp at this; omega)
  rw [List.take_append_drop] at e5
  rw [e5, carryOverflowing_eq]
  simp

theorem wrappingWide_ok (be : Bool) (hw : 0 < w) (x : Limbs w) (y : BitVec (w + w))
    (h : 2 < x.length) :
    wrappingWide be (mem be x) y = (I256.Sub.wrappingWide x y).map (mem be) := by
  unfold wrappingWide
  rw [rhsUW_ok be hw (Nat.le_refl 2), Res.mbind_ok]
  exact wrappingMn_ok be x (extUW 2 y) (by simp [extUW]) (by simpa [extUW] using h)

theorem overflowingWide_ok (be : Bool) (hw : 0 < w) (x : Limbs w) (y : BitVec (w + w))
    (h : 2 < x.length) :
    overflowingWide be (mem be x) y =
      (I256.Sub.overflowingWide x y).map fun r => (mem be r.1, r.2) := by
  unfold overflowingWide
  rw [rhsUW_ok be hw (Nat.le_refl 2), Res.mbind_ok]
  exact overflowingMn_ok be x (extUW 2 y) (by simp [extUW]) (by simpa [extUW] using h)

theorem sOverflowingFull_ok (be : Bool) (x y : Limbs w) (h : x.length = y.length)
    (h2 : 2 ≤ x.length) :
    sOverflowingFull be (mem be x) (mem be y) =
      .ok (mem be (I256.Sub.sOverflowingFull x y).1, (I256.Sub.sOverflowingFull x y).2) := by
  obtain ⟨xs, a, rfl⟩ := snoc_of_ne (x := x) (by rintro rfl; simp at h2)
  obtain ⟨ys, b, rfl⟩ := snoc_of_ne (x := y) (by rintro rfl; simp at h)
  have hl : xs.length = ys.length := by simpa using h
  unfold sOverflowingFull
  rw [mem_length, assert_ok (by simpa using h2), Res.mbind_ok, usub_ok (by simp), Res.mbind_ok]
  have hz := zipLoop_ok be (xs ++ [a]) (ys ++ [b]) ((xs ++ [a]).length - 1) 0 []
    (List.replicate (xs ++ [a]).length 0) false (by simp) (by simp [hl]) rfl (by simp) (by simp)
  rw [List.nil_append, mem_replicate] at hz
  rw [hz, Res.mbind_ok]
  have hzl := zipC_length borrowingSub xs ys false hl
  simp only [rd_limb be (show (xs ++ [a]).length - 1 < (xs ++ [a]).length by simp),
    rd_limb be (show (xs ++ [a]).length - 1 < (ys ++ [b]).length by simp [hl]), Res.mbind_ok]
  simp only [List.length_append, List.length_cons, List.length_nil, Nat.zero_add,
    Nat.add_sub_cancel, Nat.sub_zero, List.drop_zero, List.take_left, List.drop_replicate,
    List.nil_append, Nat.add_sub_cancel_left, List.replicate_one,
    getLimb_snoc xs a _ rfl, getLimb_snoc ys b _ hl]
  rw [show (ys ++ [b]).take xs.length = ys by rw [hl]; simp]
  rw [wr_ok be (by simp [hzl]), set_snoc _ _ _ _ hzl.symm, I256.Sub.sOverflowingFull,
    sOverflowingLoop_snoc _ _ _ _ _ hl]
  rfl

theorem sOverflowingULimb_ok (be : Bool) (x : Limbs w) (y : BitVec w) (h2 : 2 ≤ x.length) :
    sOverflowingULimb be (mem be x) y =
      .ok (mem be (I256.Sub.sOverflowingULimb x y).1, (I256.Sub.sOverflowingULimb x y).2) := by
  obtain ⟨x0, xs, rfl⟩ : ∃ x0 xs, x = x0 :: xs := by
    cases x with
    | nil => simp at h2
    | cons x0 xs => exact ⟨x0, xs, rfl⟩
  obtain ⟨xs, a, rfl⟩ := snoc_of_ne (x := xs) (by rintro rfl; simp at h2)
  unfold sOverflowingULimb
  rw [mem_length, assert_ok (by simpa using h2), Res.mbind_ok, rd_limb be (by simp), Res.mbind_ok]
  have h0 : getLimb (x0 :: (xs ++ [a])) 0 = x0 := rfl
  simp only [h0]
  rw [wr_rep be (by simp), Res.mbind_ok, usub_ok (by simp), Res.mbind_ok]
  have hz := carryLoop_ok be (x0 :: (xs ++ [a])) ((x0 :: (xs ++ [a])).length - 1) 1 [(uSubO x0 y).1]
    (List.replicate (xs ++ [a]).length 0) (uSubO x0 y).2 (by simp) rfl (by simp) (by simp)
  have e : (List.replicate (x0 :: (xs ++ [a])).length 0#w).set 0 (uSubO x0 y).1 =
      [(uSubO x0 y).1] ++ List.replicate (xs ++ [a]).length 0#w := by
    simp [List.replicate_succ]
  simp only [BitVec.ofNat_eq_ofNat] at hz ⊢
  rw [e, hz, Res.mbind_ok]
  have hl := mapC_length (fun a c => uSubO a (boolLimb w c)) xs (uSubO x0 y).2
  simp only [rd_limb be (show (x0 :: (xs ++ [a])).length - 1 < (x0 :: (xs ++ [a])).length by simp),
    Res.mbind_ok]
  simp only [List.length_append, List.length_cons, List.length_nil, Nat.zero_add,
    Nat.add_sub_cancel, List.drop_succ_cons, List.drop_zero, List.take_left, List.drop_replicate,
    Nat.add_sub_cancel_left, List.replicate_one]
  rw [← List.cons_append, getLimb_snoc _ _ _ (by simp), wr_ok be (by simp [hl]),
    set_snoc _ _ _ _ (by simp [hl]), List.cons_append]
  simp [I256.Sub.sOverflowingULimb, sCarryOverflowing_snoc]

theorem sWrappingILimb_ok (be : Bool) (x : Limbs w) (y : BitVec w) (h2 : 2 ≤ x.length) :
    sWrappingILimb be (mem be x) y = .ok (mem be (I256.Sub.sWrappingILimb x y)) := by
  unfold sWrappingILimb
  rw [mem_length, rhsI_ok be (by omega), Res.mbind_ok]
  exact wrappingFull_ok be x _ (by simp [extI]; omega) h2

theorem sOverflowingILimb_ok (be : Bool) (x : Limbs w) (y : BitVec w) (h2 : 2 ≤ x.length) :
    sOverflowingILimb be (mem be x) y = .ok (mem be (I256.Sub.sOverflowingILimb x y).1, (I256.Sub.sOverflowingILimb x y).2) := by
  unfold sOverflowingILimb
  rw [mem_length, rhsI_ok be (by omega), Res.mbind_ok]
  exact sOverflowingFull_ok be x _ (by simp [extI]; omega) h2

theorem sWrappingUWide_ok (be : Bool) (hw : 0 < w) (x : Limbs w) (y : BitVec (w + w)) (h2 : 2 ≤ x.length) :
    sWrappingUWide be (mem be x) y = .ok (mem be (I256.Sub.sWrappingUWide x y)) := by
  unfold sWrappingUWide
  rw [mem_length, rhsUW_ok be hw (by omega), Res.mbind_ok]
  exact wrappingFull_ok be x _ (by simp [extUW]; omega) h2

theorem sOverflowingUWide_ok (be : Bool) (hw : 0 < w) (x : Limbs w) (y : BitVec (w + w)) (h2 : 2 ≤ x.length) :
    sOverflowingUWide be (mem be x) y = .ok (mem be (I256.Sub.sOverflowingUWide x y).1, (I256.Sub.sOverflowingUWide x y).2) := by
  unfold sOverflowingUWide
  rw [mem_length, rhsUW_ok be hw (by omega), Res.mbind_ok]
  exact sOverflowingFull_ok be x _ (by simp [extUW]; omega) h2

theorem sWrappingIWide_ok (be : Bool) (hw : 0 < w) (x : Limbs w) (y : BitVec (w + w)) (h2 : 2 ≤ x.length) :
    sWrappingIWide be (mem be x) y = .ok (mem be (I256.Sub.sWrappingIWide x y)) := by
  unfold sWrappingIWide
  rw [mem_length, rhsIW_ok be hw (by omega), Res.mbind_ok]
  exact wrappingFull_ok be x _ (by simp [extIW]; omega) h2

theorem sOverflowingIWide_ok (be : Bool) (hw : 0 < w) (x : Limbs w) (y : BitVec (w + w)) (h2 : 2 ≤ x.length) :
    sOverflowingIWide be (mem be x) y = .ok (mem be (I256.Sub.sOverflowingIWide x y).1, (I256.Sub.sOverflowingIWide x y).2) := by
  unfold sOverflowingIWide
  rw [mem_length, rhsIW_ok be hw (by omega), Res.mbind_ok]
  exact sOverflowingFull_ok be x _ (by simp [extIW]; omega) h2

end Sub

end Raw

end I256
