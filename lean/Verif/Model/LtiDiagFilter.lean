import Verif.Model.LtiDiag
import Verif.Model.LtiFiltfilt
import Verif.Model.Poly

/-!
# Model of philtorch/lti/filtering.py: `_diag_ssm_lfilter`

The parameters `eigvals`, `findEigenvectors`, `re`, `realC` are those of `diagStateSpace`.
-/

namespace Phil.Lti
open Torch Torch.Tensor Phil.Mat

variable {α : Type} [Field α] [StarRing α]

/-- `philtorch/lti/filtering.py:347-361`: split a long numerator into a direct part and a remainder; returns the numerator to use,
the taps of the direct part (if any) and the delay. -/
def diagSplit (b a : Tensor α) (delayed : Bool) : Res (Tensor α × Option (Tensor α) × Nat) :=
  if a.size (-1) + 1 < b.size (-1) then
    if delayed then do
      let v ← padDim a (-1) 1 0 1
      let qr ← Poly.polydiv b v
      pure (qr.2, some qr.1, b.size (-1) - a.size (-1))
    else do
      let bf ← flip b (-1)
      let af ← flip a (-1)
      let v ← padDim af (-1) 0 1 1
      let qr ← Poly.polydiv bf v
      let q ← flip qr.1 (-1)
      let r ← flip qr.2 (-1)
      pure (r, some q, 0)
  else pure (b, none, 0)

/-- `philtorch/lti/filtering.py:363-397`: the filter with a numerator of at most `len(a) + 1` taps.  `L`, `V` and `W` are the keyword
arguments `L`, `V` and `Vinv`, handed on to `diag_state_space`. -/
noncomputable def diagFilterCoreWith (L V W : Option (Tensor α)) (eigvals : Tensor α → Res (Tensor α))
    (findEigenvectors : Tensor α → Tensor α → Res (Tensor α)) (re : α → α) (realC : Bool) (b a x : Tensor α) (zi : Option (Tensor α))
    (form : Form) (u : Option Int) : Res (Tensor α × Option (Tensor α)) := do
  let b ← (if b.size (-1) < a.size (-1) + 1 then padDim b (-1) 0 ((a.size (-1) + 1 - b.size (-1) : Nat) : Int) 0 else pure b)
  let A ← companion a
  match form with
  | .df2 =>
    let cd ← outputCoefs b a
    diagStateSpace eigvals findEigenvectors re realC x L V W (some A) none (some cd.1) (some cd.2) zi none u
  | .tdf2 =>
    let cd ← outputCoefs b a
    let AT ← mT A
    diagStateSpace eigvals findEigenvectors re realC x L V W (some (conj AT)) (some (conj cd.1)) none (some (conj cd.2)) zi
      (some 0) u
  | _ => .error "ValueError: Unknown filter form"

/-- `philtorch/lti/filtering.py:363-397`: the same without the keyword arguments `L`, `V`, `Vinv`. -/
noncomputable def diagFilterCore (eigvals : Tensor α → Res (Tensor α)) (findEigenvectors : Tensor α → Tensor α → Res (Tensor α)) (re : α → α)
    (realC : Bool) (b a x : Tensor α) (zi : Option (Tensor α)) (form : Form) (u : Option Int) : Res (Tensor α × Option (Tensor α)) :=
  diagFilterCoreWith none none none eigvals findEigenvectors re realC b a x zi form u

/-- `philtorch/lti/filtering.py:404-405`: the output delayed by `d` samples. -/
def delaySignal (y : Tensor α) (d : Nat) : Res (Tensor α) :=
  if 0 < d then do
    let y ← slice y 1 none (some (-(d : Int)))
    padDim y (-1) (d : Int) 0 0
  else pure y

/-- `philtorch/lti/filtering.py:400-410`: delay the result of the core and add the direct part (`fir` is called with its default
`transpose=True`). -/
def addDirect (s : Tensor α × Option (Tensor α) × Nat) (x : Tensor α) (r : Tensor α × Option (Tensor α)) :
    Res (Tensor α × Option (Tensor α)) :=
  if r.2.isSome then pure r
  else do
    let y ← delaySignal r.1 s.2.2
    match s.2.1 with
    | none => pure (y, none)
    | some q =>
      let d ← fir q x none true
      let y ← add y d.1
      pure (y, none)

/-- `philtorch/lti/filtering.py:336-410`, `_diag_ssm_lfilter`, with the keyword arguments `L`, `V`, `Vinv`. -/
noncomputable def diagSsmLfilterWith (L V W : Option (Tensor α)) (eigvals : Tensor α → Res (Tensor α))
    (findEigenvectors : Tensor α → Tensor α → Res (Tensor α)) (re : α → α) (realC : Bool) (b a x : Tensor α) (zi : Option (Tensor α))
    (form : Form) (delayed : Bool) (u : Option Int) : Res (Tensor α × Option (Tensor α)) := do
  let s ← diagSplit b a delayed
  let r ← diagFilterCoreWith L V W eigvals findEigenvectors re realC s.1 a x (if a.size (-1) + 1 < b.size (-1) then none else zi) form u
  addDirect s x r

/-- `philtorch/lti/filtering.py:336-410`, `_diag_ssm_lfilter`. -/
noncomputable def diagSsmLfilter (eigvals : Tensor α → Res (Tensor α)) (findEigenvectors : Tensor α → Tensor α → Res (Tensor α)) (re : α → α)
    (realC : Bool) (b a x : Tensor α) (zi : Option (Tensor α)) (form : Form) (delayed : Bool) (u : Option Int) :
    Res (Tensor α × Option (Tensor α)) := do
  let s ← diagSplit b a delayed
  let r ← diagFilterCore eigvals findEigenvectors re realC s.1 a x (if a.size (-1) + 1 < b.size (-1) then none else zi) form u
  addDirect s x r

/-- `philtorch/lti/filtering.py:211-270`, `lfilter` with `backend="diag_ssm"` and the keyword arguments `L`, `V`, `Vinv`. -/
noncomputable def lfilterDiagWith (L V W : Option (Tensor α)) (eigvals : Tensor α → Res (Tensor α))
    (findEigenvectors : Tensor α → Tensor α → Res (Tensor α)) (re : α → α) (realC : Bool) (b a x : Tensor α) (zi : Option (Tensor α))
    (form : Form) (delayed : Bool) (u : Option Int) : Res (Tensor α × Option (Tensor α)) :=
  lfilterWith (fun b a x zi => diagSsmLfilterWith L V W eigvals findEigenvectors re realC b a x zi form delayed u) b a x zi

/-- `philtorch/lti/filtering.py:211-270`, `lfilter` with `backend="diag_ssm"`. -/
noncomputable def lfilterDiag (eigvals : Tensor α → Res (Tensor α)) (findEigenvectors : Tensor α → Tensor α → Res (Tensor α)) (re : α → α)
    (realC : Bool) (b a x : Tensor α) (zi : Option (Tensor α)) (form : Form) (delayed : Bool) (u : Option Int) :
    Res (Tensor α × Option (Tensor α)) :=
  lfilterWith (fun b a x zi => diagSsmLfilter eigvals findEigenvectors re realC b a x zi form delayed u) b a x zi

/-- `philtorch/lti/filtering.py:413-484`, `filtfilt` with the keyword arguments `backend="diag_ssm"`, `L`, `V`, `Vinv`. -/
noncomputable def filtfiltDiagWith (L V W : Option (Tensor α)) (eigvals : Tensor α → Res (Tensor α))
    (findEigenvectors : Tensor α → Tensor α → Res (Tensor α)) (re : α → α) (realC : Bool) (b a x : Tensor α)
    (padmode : Option PadMode) (padlen : Option Int) (form : Form) (delayed : Bool) (u : Option Int) : Res (Tensor α) :=
  filtfiltWith (fun b a x zi => lfilterDiagWith L V W eigvals findEigenvectors re realC b a x zi form delayed u) b a x padmode padlen form

end Phil.Lti
