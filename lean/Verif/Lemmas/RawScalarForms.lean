import Verif.SpecRawForms
import Verif.Model.RawScalarForms
import Verif.Lemmas.RawDivForms
import Verif.Lemmas.Gap

/-!
# The forms of an operation in memory, from the runs of the two kernels
-/

namespace I256

variable {w : Nat}

namespace Raw

open _root_.I256.Raw.Div (Cfg)

section
variable {cf : Cfg} {be : Bool} {N : Nat} {z : Int} {W : Res (Limbs w)} {O : Res (Limbs w × Bool)}
  {v : Limbs w} {r : Limbs w × Bool} (hW : W = .ok (mem be v)) (hO : O = .ok (mem be r.1, r.2))
include hW hO

theorem forms_ok {PW : Limbs w → Prop} {PO : Limbs w × Bool → Prop} {PC : Option (Limbs w) → Prop}
    {PP : Res (Limbs w) → Prop} (hv : PW v) (hr : PO r) (hc : PC (mkChecked r))
    (hp : PP (I256.opOf cf.oc v (mkChecked r))) (lv : 128 ∣ w * v.length) (lr : 128 ∣ w * r.1.length) :
    Holds be PW (wrappingOf W) ∧ HoldsO be PO (overflowingOf O) ∧
      HoldsC be PC (Pow.checked (overflowingOf O)) ∧
      Ends be PP (opOf cf (wrappingOf W) (Pow.checked (overflowingOf O))) := by
  rw [hW, hO, wrappingOf_ok lv, overflowingOf_ok lr, Pow.checked_ok, opOf_map]
  exact ⟨holds hv, holdsO hr, holdsC hc, ends hp⟩

theorem formsU (h : 128 ∣ w * N) (hv : WrapU N z v) (hr : OverU N z r) :
    MemFormsU cf.oc be N z (wrappingOf W) (overflowingOf O) (Pow.checked (overflowingOf O))
      (opOf cf (wrappingOf W) (Pow.checked (overflowingOf O))) :=
  forms_ok hW hO hv hr hr.check (hr.check.op hv cf.oc) (by rwa [hv.1]) (by rwa [hr.1.1])

theorem formsS (h : 128 ∣ w * N) (hv : WrapS N z v) (hr : OverS N z r) :
    MemFormsS cf.oc be N z (wrappingOf W) (overflowingOf O) (Pow.checked (overflowingOf O))
      (opOf cf (wrappingOf W) (Pow.checked (overflowingOf O))) :=
  forms_ok hW hO hv hr hr.check (hr.check.op hv cf.oc) (by rwa [hv.1]) (by rwa [hr.1.1])

theorem formsG (h : 128 ∣ w * N) (hv : WrapS N z v) (hr : OverG N z r) :
    MemFormsG cf.oc be N z (wrappingOf W) (overflowingOf O) (Pow.checked (overflowingOf O))
      (opOf cf (wrappingOf W) (Pow.checked (overflowingOf O))) :=
  forms_ok hW hO hv hr hr.check (hr.check.op hv cf.oc) (by rwa [hv.1]) (by rwa [hr.1.1])

end

end Raw

end I256
