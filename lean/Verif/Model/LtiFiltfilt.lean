import Verif.Model.LtiInit

/-!
# Model of philtorch/lti/filtering.py: `filtfilt`
-/

namespace Phil.Lti
open Torch Torch.Tensor

variable {α : Type}

/-- The modelled values of the argument `padmode` of `filtfilt`, which goes to `F.pad` unchanged
(`philtorch/lti/filtering.py:463-467`). -/
inductive PadMode
  | replicate | reflect | constant | circular

/-- `philtorch/lti/filtering.py:463-467`: `F.pad(x, (edge, edge), mode=padmode)`. -/
def padMode [Zero α] (mode : PadMode) (x : Tensor α) (edge : Nat) : Res (Tensor α) :=
  match mode with
  | .replicate => padReplicate x edge edge
  | .reflect => padReflect x edge edge
  | .constant => padDim x (-1) (edge : Int) (edge : Int) 0
  | .circular => padCircular x edge edge

/-- `philtorch/lti/filtering.py:449-456`: the number of samples to pad at either end. -/
def edgeLength [Zero α] (b a : Tensor α) (padmode : Option PadMode) (padlen : Option Int) : Int :=
  match padmode with
  | none => 0
  | some _ => padlen.getD (3 * max (b.size (-1)) (a.size (-1) + 1))

/-- `philtorch/lti/filtering.py:462-471`: the extended signal. -/
def extendSignal [Zero α] (x : Tensor α) (padmode : Option PadMode) (edge : Int) : Res (Tensor α) :=
  match padmode with
  | none => pure x
  | some mode =>
    if 0 < edge then do
      let x2 ← (if x.rank = 1 then unsqueeze x 0 else flatten x 0 (-2))
      let p ← padMode mode x2 edge.toNat
      if x.rank = 1 then squeeze p 0 else pure p
    else pure x

/-- `y, _ = r` of `philtorch/lti/filtering.py:476` and `:479`: a pair is taken apart, a lone tensor is iterated over its first
axis, which must have length two. -/
def unpackPair [Zero α] (r : Tensor α × Option (Tensor α)) : Res (Tensor α) :=
  match r.2 with
  | some _ => pure r.1
  | none => do
    check (r.1.size 0 = 2) "ValueError: too many values to unpack (expected 2)"
    select r.1 0 0

/-- `form == "tdf2"` (`philtorch/lti/filtering.py:473`). -/
def Form.isTdf2 : Form → Bool
  | .tdf2 => true
  | _ => false

/-- `philtorch/lti/filtering.py:413-484`, `filtfilt` with `method="pad"` (the other value raises `NotImplementedError`);
`filt` is `lfilter` with the `form` and the further keyword arguments. -/
noncomputable def filtfiltWith [Field α] [StarRing α]
    (filt : Tensor α → Tensor α → Tensor α → Option (Tensor α) → Res (Tensor α × Option (Tensor α))) (b a x : Tensor α)
    (padmode : Option PadMode) (padlen : Option Int) (form : Form) : Res (Tensor α) := do
  check (edgeLength b a padmode padlen < x.size (-1)) "AssertionError: Input signal length must be greater than pad length"
  let ext ← extendSignal x padmode (edgeLength b a padmode padlen)
  let zi ← lfilterZi a (some b) form.isTdf2
  let x0 ← slice ext (-1) none (some 1)
  let zx ← mul zi x0
  let r ← filt b a ext (some zx)
  let y ← unpackPair r
  let y0 ← slice y (-1) (some (-1)) none
  let yr ← flip y (-1)
  let zy ← mul zi y0
  let r ← filt b a yr (some zy)
  let y ← unpackPair r
  let y ← (if 0 < edgeLength b a padmode padlen then
      slice y (-1) (some (edgeLength b a padmode padlen)) (some (-edgeLength b a padmode padlen))
    else pure y)
  flip y (-1)

/-- `filtfilt` with the default backend; `u` is the keyword argument `unroll_factor` (`philtorch/lti/filtering.py:413-484`). -/
noncomputable def filtfilt [Field α] [StarRing α] (b a x : Tensor α) (padmode : Option PadMode) (padlen : Option Int)
    (form : Form) (u : Option Int) : Res (Tensor α) :=
  filtfiltWith (fun b a x zi => lfilter b a x zi form u) b a x padmode padlen form

end Phil.Lti
