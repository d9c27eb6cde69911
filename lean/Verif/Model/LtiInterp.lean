import Verif.Model.LtiRecur
import Verif.Spec.Ops
import Verif.Torch.ConvOne

/-!
# Model of philtorch/lti/interp.py

The pole `r = 3**0.5 - 2` is a parameter of the model.  `ext` is `some op` if the extension is loaded, with `op` what
`LTIRecurrence.apply` does, and `u` is the `unroll_factor` among the `kwargs`.

Simplifications: arithmetic is exact, with one exception: the number of elements of `torch.arange(-2, 2, 1 / m)` is computed in binary64
arithmetic as PyTorch does (`Binary64`).  Arithmetic of Python numbers and 0-D tensors is done on scalars.
-/

namespace Phil.Interp
open Torch Torch.Tensor Spec

/-! ## Binary64 numbers -/

/-- `2 ^ k` for an integer `k` (binary64 arithmetic of `philtorch/lti/interp.py:124`). -/
def pow2 (k : Int) : ℚ := if 0 ≤ k then ((2 ^ k.toNat : Nat) : ℚ) else 1 / ((2 ^ (-k).toNat : Nat) : ℚ)

/-- The exponent of a positive rational number: `2 ^ e ≤ q < 2 ^ (e + 1)` (binary64 arithmetic of
`philtorch/lti/interp.py:124`). -/
def expo (q : ℚ) : Int :=
  let e : Int := (Nat.log2 q.num.natAbs : Int) - (Nat.log2 q.den : Int)
  if pow2 e ≤ q then e else e - 1

/-- Round to the nearest integer, ties to even (binary64 arithmetic of `philtorch/lti/interp.py:124`). -/
def roundEven (q : ℚ) : Int :=
  let f := q.floor
  if q - f < 1 / 2 then f else if 1 / 2 < q - f then f + 1 else if f % 2 = 0 then f else f + 1

/-- The binary64 number nearest to a positive rational number (neither overflow nor subnormal numbers) (arithmetic of
`philtorch/lti/interp.py:124`). -/
def binary64 (q : ℚ) : ℚ := roundEven (q / pow2 (expo q - 52)) * pow2 (expo q - 52)

/-- The number of elements of `torch.arange(-2, 2, 1 / m)`: `ceil((2 - (-2)) / (1 / m))` in binary64 arithmetic
(`philtorch/lti/interp.py:124`). -/
def arangeLen (m : Nat) : Nat := (binary64 (4 / binary64 (1 / (m : ℚ)))).ceil.toNat

section
variable {α : Type} [Field α] [StarRing α]

/-- `philtorch/lti/interp.py:10-20`, `_first_order_filt`. -/
def firstOrderFilt (ext : Option (Op α)) (u : Int) (x a zi : Tensor α) (b : Option (Tensor α)) : Res (Tensor α) := do
  let xb ← (match b with
    | none => pure x
    | some b => mul x b)
  let a' ← expand a [some (x.size 0)]
  match ext with
  | some op => do
    let z ← expand zi [some (x.size 0)]
    op a' z xb
  | none => Lti.linearRecurrence a' zi xb u

/-- `philtorch/lti/interp.py:29-36`, `causal_zi`; `r ** torch.arange(n)` is the vector of the powers. -/
def causalState (r : α) (x : Tensor α) (scipyPadding : Bool) : Res (Tensor α) :=
  if scipyPadding then matmul x (t1 (x.size (-1)) fun k => r ^ k)
  else do
    check (1 ≤ x.size (-1)) "RuntimeError: upper bound and lower bound inconsistent with step sign"
    let x1 ← slice x (-1) (some 1) none
    matmul x1 (t1 (x.size (-1) - 1) fun k => r ^ k)

/-- `philtorch/lti/interp.py:38-46`, the parallel form. -/
def parallelForm (ext : Option (Op α)) (u : Int) (r : α) (x zi : Tensor α) (scipyPadding : Bool) : Res (Tensor α) := do
  let tail ← (if scipyPadding then flip x (-1) else (do
    let x1 ← slice x (-1) none (some (-1))
    flip x1 (-1)))
  let mirrored ← cat2 x tail (-1)
  let h ← firstOrderFilt ext u mirrored (t0 r) zi none
  let causal ← slice h (-1) none (some ((x.size (-1) : Nat) : Int))
  let anti ← slice h (-1) (some (-((x.size (-1) : Nat) : Int))) none
  let anti ← flip anti (-1)
  let s ← add causal anti
  let s ← sub s x
  mul (t0 (-6 * r / (1 - r * r))) s

/-- `philtorch/lti/interp.py:48-57`, the cascaded form. -/
def cascadedForm (ext : Option (Op α)) (u : Int) (r : α) (x zi : Tensor α) (scipyPadding : Bool) : Res (Tensor α) := do
  let h ← firstOrderFilt ext u x (t0 r) zi none
  let last ← select h (-1) (-1)
  let z ← (if scipyPadding then mul (t0 (r / (r - 1))) last
    else (do
      let h2 ← mul (t0 2) last
      let xl ← select x (-1) (-1)
      let d ← sub h2 xl
      mul (t0 (-r / (1 - r * r))) d))
  let h1 ← slice h (-1) none (some (-1))
  let hf ← flip h1 (-1)
  let cf ← firstOrderFilt ext u hf (t0 r) z (some (t0 (-r)))
  let cf ← flip cf (-1)
  let z1 ← unsqueeze z (-1)
  let c ← cat2 cf z1 (-1)
  mul c (t0 6)

/-- `philtorch/lti/interp.py:23-57`, `_cubic_coeff`, and `:75-98`, `cspline` (with `lamb = 0`). -/
def cspline (ext : Option (Op α)) (u : Int) (r : α) (x : Tensor α) (parallel scipyPadding : Bool) : Res (Tensor α) := do
  let zi ← causalState r x scipyPadding
  if parallel then parallelForm ext u r x zi scipyPadding else cascadedForm ext u r x zi scipyPadding

end

section
variable {α : Type} [Field α] [LinearOrder α] [StarRing α]

/-- `philtorch/lti/interp.py:60-72`, `_cubic_spline_kernel` at one point. -/
def kernel (t : α) : α :=
  if |t| ≤ 1 then (4 - 6 * |t| ^ 2 + 3 * |t| ^ 3) / 6
  else if ¬ |t| ≤ 1 ∧ |t| < 2 then (2 - |t|) ^ 3 / 6
  else 0

/-- `philtorch/lti/interp.py:101-137`, `cubic_spline`. -/
def cubicSpline (ext : Option (Op α)) (u : Int) (r : α) (x : Tensor α) (m : Nat) (parallel scipyPadding : Bool) :
    Res (Tensor α) := do
  check (1 ≤ m) "AssertionError: Interpolation factor m must be an integer >= 1."
  if m = 1 then return x
  let c ← cspline ext u r x parallel scipyPadding
  check (arangeLen m = 4 * m) "RuntimeError: shape '[4, m]' is invalid for input"
  let kernel_idx : Tensor α := t2 4 m fun w p => -2 + (((w * m + p : Nat) : α)) * (1 / (m : α))
  let k ← flip (map kernel kernel_idx) 0
  let k ← transpose k 0 1
  let padded ← (if scipyPadding then (do
      let first ← slice c 1 none (some 1)
      let last ← slice c 1 (some (-2)) none
      let last ← flip last (-1)
      let p ← cat [first, c, last] 1
      unsqueeze p 1)
    else (do
      let c1 ← unsqueeze c 1
      padReflect c1 1 2))
  let k1 ← unsqueeze k 1
  let y ← conv1dOne padded k1
  let y ← mT y
  let y ← flatten y 1 2
  slice y (-1) none (some (-((m - 1 : Nat) : Int)))

end
end Phil.Interp
