import Verif.Model.LtiFiltering
import Verif.Model.LpvFiltering
import Verif.Model.LtiDiag
import Verif.Spec.Ops

/-!
# Model of the backend selection

What is installed and where the tensors live is an `Env`.  The functions below are the versions of `_ext_ss_recur`,
`state_space_recursion`, `state_space`, `_ssm_lfilter` and `diag_state_space` that consult it.  The compiled ops, the Helion ops, the
ParaRNN ops and `sample_wise_lpc` are fields of `Env`; a call of an op that is not available is the exception Python raises.

Simplification: all tensors of a call have the device and the dtype class recorded in `Env`.
-/

namespace Phil
open Torch Torch.Tensor Spec

/-- What is installed, where the tensors are, and what the installed operators do (`philtorch/__init__.py:6-28`,
`setup.py:15-34`). -/
structure Env (α : Type) [CommRing α] where
  /-- `EXTENSION_LOADED` (`philtorch/__init__.py:6-12`) -/
  ext : Bool
  /-- the extension was compiled with the CUDA sources (`setup.py:15-34`) -/
  extCuda : Bool
  /-- `HELION_LOADED` (`philtorch/__init__.py:15-28`) -/
  helion : Bool
  /-- `PARARNN_AVAILABLE` (`philtorch/lpv/ssm.py:8-13`) -/
  pararnn : Bool
  /-- `x.is_cuda` (otherwise `x.is_cpu`) -/
  cuda : Bool
  /-- `x.is_complex()` (otherwise `x.is_floating_point()`) -/
  complex : Bool
  /-- `torch.ops.philtorch.lti_recur` on the device of the tensors, and so on -/
  ltiRecur : Op α
  ltiRecur2 : Op α
  ltiRecurN : Op α
  recur2 : Op α
  recurN : Op α
  hlLtiRecurN : Op α
  hlRecurN : Op α
  /-- `torch.ops.parallel_reduce_cuda.parallel_reduce_block_diag_{2x2,3x3}_cuda(jac, rhs)` -/
  reduce2 : Tensor α → Tensor α → Res (Tensor α)
  reduce3 : Tensor α → Tensor α → Res (Tensor α)
  /-- `torchlpc.sample_wise_lpc` -/
  lpc : Lpv.Lpc α

namespace Env
variable {α : Type} [CommRing α] (e : Env α)

/-- Calling an op of the extension that has a CPU and a CUDA implementation (`lti_recur`, `lti_recur2`, `recur2`)
(`philtorch/csrc/host_lti_recur.cpp:82-85`, `host_lti_recurN.cpp:113`, `host_recurN.cpp:286`, `lti_recur.cu:160`, `lti_recur2.cu:115-118`, `recur2.cu:119-122`). -/
def both (op : Op α) (A zi x : Tensor α) : Res (Tensor α) :=
  if ¬ e.ext then .error "AttributeError: '_OpNamespace' 'philtorch' object has no attribute"
  else if e.cuda ∧ ¬ e.extCuda then .error "NotImplementedError: Could not run with arguments from the 'CUDA' backend"
  else op A zi x

/-- Calling an op of the extension that has only a CPU implementation (`lti_recurN`, `recurN`)
(`philtorch/csrc/host_lti_recurN.cpp:112`, `philtorch/csrc/host_recurN.cpp:285`). -/
def cpuOnly (op : Op α) (A zi x : Tensor α) : Res (Tensor α) :=
  if ¬ e.ext then .error "AttributeError: '_OpNamespace' 'philtorch' object has no attribute"
  else if e.cuda then .error "NotImplementedError: Could not run with arguments from the 'CUDA' backend"
  else op A zi x

/-- `philtorch/lti/ssm.py:28-40`, `helion_backend_indicator`. -/
def useHelion : Bool := e.helion && e.cuda && !e.complex

/-- `philtorch/lti/ssm.py:13-25`, `extension_backend_indicator`. -/
def ltiUseExt (M : Nat) : Bool := e.ext && (M == 2 || (!e.cuda && decide (M ≥ 2)))

/-- `philtorch/lpv/ssm.py:29-31`, `_pararnn_applicable`. -/
def usePararnn (M : Nat) : Bool := e.pararnn && e.cuda && !e.complex && (M == 2 || M == 3)

/-- `philtorch/lpv/ssm.py:20-26`, `extension_backend_indicator`. -/
def lpvUseExt (M : Nat) : Bool := (e.ext && (!e.cuda || decide (M ≤ 2))) || e.usePararnn M

end Env

namespace Lti
open Phil.Mat
variable {α : Type} [CommRing α]

/-- `philtorch/lti/recur.py:15-17`, `LTIRecurrence.forward`. -/
def ltiRecurrence (e : Env α) (a zi x : Tensor α) : Res (Tensor α) := e.both e.ltiRecur a zi x

/-- `philtorch/lti/ssm.py:50-58`, `LTIMatrixRecurrence.forward`. -/
def ltiMatrixRecurrence (e : Env α) (A zi x : Tensor α) : Res (Tensor α) :=
  if x.size (-1) = 2 then e.both e.ltiRecur2 A zi x
  else if e.useHelion then e.hlLtiRecurN A zi x
  else e.cpuOnly e.ltiRecurN A zi x

/-- `philtorch/lti/ssm.py:162-195`, `_ext_ss_recur`. -/
def extSsRecur (e : Env α) (A zi x : Tensor α) (out : Option Int) : Res (Tensor α) := do
  check (e.ext ∨ e.helion) "AssertionError: Compiled extension or the Helion backend is not available"
  let y ← (if A.size (-1) = 1 then (do
      let a ← select A (-1) 0
      let a ← select a (-1) 0
      let z ← squeeze zi (-1)
      let x ← (if x.rank = 2 then pure x else squeeze x (-1))
      let y ← ltiRecurrence e a z x
      unsqueeze y (-1))
    else (do
      let x ← (if x.rank = 2 then firstComponent x (A.size (-1)) else pure x)
      ltiMatrixRecurrence e A zi x))
  if out ≠ none ∧ y.rank = 3 then pick out 2 y else pure y

/-- `philtorch/lti/ssm.py:198-383`, `state_space_recursion`; lines 258-261 choose what runs an unblocked signal. -/
def stateSpaceRecursionOn (e : Env α) (A zi x : Tensor α) (u : Int) (out : Option Int) : Res (Tensor α) :=
  stateSpaceRecursionAux (if e.useHelion then extSsRecur e else recursionLoop) u (x.size 1 + 1) A zi x out

/-- `philtorch/lti/ssm.py:487-491`, `recur_runner`; `M` is `A.size(-1)` of `state_space`. -/
def recurRunner (e : Env α) (M : Nat) (A zi x : Tensor α) (u : Int) (out : Option Int) : Res (Tensor α) :=
  if e.ltiUseExt M ∧ u = 1 then extSsRecur e A zi x out else stateSpaceRecursionOn e A zi x u out

/-- `philtorch/lti/ssm.py:794-798`, `recur_runner` of `diag_state_space`. -/
def diagRunner [StarRing α] (e : Env α) (a zi x : Tensor α) (u : Int) : Res (Tensor α) :=
  if e.ext ∧ u = 1 then ltiRecurrence e a zi x else linearRecurrence a zi x u

variable [StarRing α]

/-- `philtorch/lti/ssm.py:386-510`, `state_space`. -/
def stateSpaceOn (e : Env α) (A x : Tensor α) (B C D zi : Option (Tensor α)) (u : Option Int) (out : Option Int) :
    Res (Tensor α × Option (Tensor α)) :=
  stateSpaceWith (recurRunner e (A.size (-1))) A x B C D zi u out

/-- `philtorch/lti/filtering.py:273-333`, `_ssm_lfilter`. -/
def ssmLfilterOn (e : Env α) (b a x : Tensor α) (zi : Option (Tensor α)) (form : Form) (u : Option Int) :
    Res (Tensor α × Option (Tensor α)) := do
  let ba ← padOrders b a
  let A ← companion ba.2
  match form with
  | .df2 =>
    let cd ← outputCoefs ba.1 ba.2
    stateSpaceOn e A x none (some cd.1) (some cd.2) zi u none
  | .tdf2 =>
    let cd ← outputCoefs ba.1 ba.2
    let AT ← mT A
    stateSpaceOn e (conj AT) x (some (conj cd.1)) none (some (conj cd.2)) zi u (some 0)
  | .df1 =>
    let bb ← expand ba.1 [some (x.size 0), none]
    let v ← fir bb x none true
    let y ← stateSpaceRecursionOn e A (zeros [x.size 0, A.size (-1)]) v.1 (u.getD 1) (some 0)
    pure (y, none)
  | .tdf1 =>
    let bb ← expand (conj ba.1) [some (x.size 0), none]
    let AT ← mT A
    let v ← stateSpaceRecursionOn e (conj AT) (zeros [x.size 0, A.size (-1)]) x (u.getD 1) (some 0)
    fir bb v none true
  | .other => .error "ValueError: Unknown filter form"

/-- `philtorch/lti/filtering.py:211-270`, `lfilter` with `backend="ssm"`. -/
def lfilterOn (e : Env α) (b a x : Tensor α) (zi : Option (Tensor α)) (form : Form) (u : Option Int) :
    Res (Tensor α × Option (Tensor α)) :=
  lfilterWith (fun b a x zi => ssmLfilterOn e b a x zi form u) b a x zi

/-- `philtorch/lti/ssm.py:592-833`, `diag_state_space`. -/
noncomputable def diagStateSpaceOn {α : Type} [Field α] [StarRing α] (e : Env α)
    (eigvals : Tensor α → Res (Tensor α)) (findEigenvectors : Tensor α → Tensor α → Res (Tensor α)) (re : α → α) (realC : Bool)
    (x : Tensor α) (L V W A Bm C D zi : Option (Tensor α)) (out : Option Int) (u : Option Int) :
    Res (Tensor α × Option (Tensor α)) :=
  diagStateSpaceWith (diagRunner e) eigvals findEigenvectors re realC x L V W A Bm C D zi out u

end Lti

namespace Lpv
open Phil.Mat
open Phil.Lti (firstComponent pick Form padOrders outputCoefs)
variable {α : Type} [CommRing α]

/-- `philtorch/lpv/ssm.py:38-55`, `MatrixRecurrence.forward`. -/
def matrixRecurrence (e : Env α) (A zi x : Tensor α) : Res (Tensor α) :=
  if e.usePararnn (x.size (-1)) then do
    let A ← (if A.rank = 3 then (do let A1 ← unsqueeze A 0; repeat0 A1 (x.size 0)) else pure A)
    let jac ← padDim (neg A) (-3) 1 0 0
    let z1 ← unsqueeze zi 1
    let rhs ← cat2 z1 x 1
    let y ← (if x.size (-1) = 3 then e.reduce3 jac rhs else e.reduce2 jac rhs)
    slice y 1 (some 1) none
  else if x.size (-1) = 2 then e.both e.recur2 A zi x
  else if e.useHelion then e.hlRecurN A zi x
  else e.cpuOnly e.recurN A zi x

/-- `philtorch/lpv/ssm.py:167-205`, `_ext_ss_recur`. -/
def extSsRecur (e : Env α) (A zi x : Tensor α) (out : Option Int) : Res (Tensor α) := do
  check (e.ext ∨ e.helion) "AssertionError: Compiled extension or the Helion backend is not available"
  let y ← (if A.size (-1) = 1 then (do
      let a ← select A (-1) 0
      let a ← expand a (if x.rank = 2 then x.shape.map some ++ [some 1] else x.shape.map some)
      let x ← (if x.rank = 2 then pure x else squeeze x (-1))
      let y ← e.lpc x (neg a) (some zi)
      unsqueeze y.1 (-1))
    else (do
      let x ← (if x.rank = 2 then firstComponent x (A.size (-1)) else pure x)
      matrixRecurrence e A zi x))
  if out ≠ none ∧ y.rank = 3 then pick out 2 y else pure y

/-- `philtorch/lpv/ssm.py:208-334`, `state_space_recursion`; line 271 chooses what runs an unblocked signal. -/
def stateSpaceRecursionOn (e : Env α) (A zi x : Tensor α) (u : Int) (out : Option Int) : Res (Tensor α) :=
  stateSpaceRecursionAux (if e.useHelion then extSsRecur e else recursionLoop) u (x.size 1 + 1) A zi x out

/-- `philtorch/lpv/ssm.py:456-460`, `recur_runner`; `M` is `A.size(-1)` of `state_space`. -/
def recurRunner (e : Env α) (M : Nat) (A zi x : Tensor α) (u : Int) (out : Option Int) : Res (Tensor α) :=
  if e.lpvUseExt M ∧ u = 1 then extSsRecur e A zi x out else stateSpaceRecursionOn e A zi x u out

/-- `philtorch/lpv/filtering.py:338-342`, `:353-357`: the recursion used by the forms `df1` and `tdf1`. -/
def formRunner (e : Env α) (A zi x : Tensor α) (u : Int) (out : Option Int) : Res (Tensor α) :=
  if e.lpvUseExt (A.size (-1)) then extSsRecur e A zi x out else stateSpaceRecursionOn e A zi x u out

variable [StarRing α]

/-- `philtorch/lpv/ssm.py:337-581`, `state_space`. -/
def stateSpaceOn (e : Env α) (A x : Tensor α) (B C D zi : Option (Tensor α)) (u : Option Int) (out : Option Int) :
    Res (Tensor α × Option (Tensor α)) :=
  stateSpaceWith (recurRunner e (A.size (-1))) A x B C D zi u out

/-- `philtorch/lpv/filtering.py:288-370`, `_ssm_lfilter`. -/
def ssmLfilterOn (e : Env α) (b a x : Tensor α) (zi : Option (Tensor α)) (form : Form) (u : Option Int) :
    Res (Tensor α × Option (Tensor α)) := do
  let ba ← padOrders b a
  let A ← companion ba.2
  match form with
  | .df2 =>
    let cd ← outputCoefs ba.1 ba.2
    stateSpaceOn e A x none (some cd.1) (some cd.2) zi u none
  | .tdf2 =>
    let cd ← outputCoefs ba.1 ba.2
    let AT ← mT A
    stateSpaceOn e (conj AT) x (some (conj cd.1)) none (some (conj cd.2)) zi u (some 0)
  | .df1 =>
    let bb ← expand ba.1 [some (x.size 0), none, none]
    let v ← fir bb x none false
    let y ← formRunner e A (zeros [x.size 0, A.size (-1)]) v.1 (u.getD 1) (some 0)
    pure (y, none)
  | .tdf1 =>
    let bb ← expand (conj ba.1) [some (x.size 0), none, none]
    let AT ← mT A
    let v ← formRunner e (conj AT) (zeros [x.size 0, A.size (-1)]) x (u.getD 1) (some 0)
    fir bb v none true
  | .other => .error "ValueError: Unknown filter form"

/-- `philtorch/lpv/filtering.py:138-194`, `lfilter`. -/
def lfilterOn (e : Env α) (b a x : Tensor α) (zi : Option (Tensor α)) (form : Form) (backend : Backend)
    (u : Option Int) : Res (Tensor α × Option (Tensor α)) :=
  lfilterWith (fun b a x zi => match backend with
    | .ssm => ssmLfilterOn e b a x zi form u
    | .torchlpc => torchlpcLfilter e.lpc b a x zi form
    | .other => .error "ValueError: Unknown backend") b a x zi

end Lpv
end Phil
