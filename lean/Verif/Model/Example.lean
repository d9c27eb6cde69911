import Verif.Model.LtiInit
import Mathlib.Analysis.SpecialFunctions.Trigonometric.Basic
import Mathlib.Data.Real.Star

/-!
# The example notebook (`examples/estimate_lowpass.ipynb`)

Real numbers stand for floating-point numbers; one cutoff frequency and one Q (0-dimensional tensors, as in the notebook).
-/

namespace Phil.Example
open Torch Torch.Tensor Phil.Lti

/-- `examples/estimate_lowpass.ipynb:53`, `w0`. -/
noncomputable def w0 (sr f : ℝ) : ℝ := 2 * Real.pi * f / sr

/-- `examples/estimate_lowpass.ipynb:54`, `alpha`. -/
noncomputable def alpha (sr f Q : ℝ) : ℝ := Real.sin (w0 sr f) / 2 / Q

/-- `examples/estimate_lowpass.ipynb:56-62`, the entries of `b`. -/
noncomputable def lowpassB (sr f Q : ℝ) : Nat → ℝ
  | 0 => (1 - Real.cos (w0 sr f)) / 2 / (1 + alpha sr f Q)
  | 1 => (1 - Real.cos (w0 sr f)) / (1 + alpha sr f Q)
  | _ => (1 - Real.cos (w0 sr f)) / 2 / (1 + alpha sr f Q)

/-- `examples/estimate_lowpass.ipynb:59-63`, the entries of `a`. -/
noncomputable def lowpassA (sr f Q : ℝ) : Nat → ℝ
  | 0 => -2 * Real.cos (w0 sr f) / (1 + alpha sr f Q)
  | _ => (1 - alpha sr f Q) / (1 + alpha sr f Q)

/-- `examples/estimate_lowpass.ipynb:48-64`, `lowpass_biquad_coef`. -/
noncomputable def lowpassBiquadCoef (sr f Q : ℝ) : Tensor ℝ × Tensor ℝ := (t1 3 (lowpassB sr f Q), t1 2 (lowpassA sr f Q))

/-- `examples/estimate_lowpass.ipynb:101-105` and `231-233`: coefficients, `lfilter_zi` and `lfilter(b, a, x, zi=zi * x[:, :1])`, with the
default form; `u` is the unroll factor (not given in the notebook). -/
noncomputable def run (sr f Q : ℝ) (x : Tensor ℝ) (u : Option Int) : Res (Tensor ℝ) := do
  let ba := lowpassBiquadCoef sr f Q
  let zi ← lfilterZi ba.2 (some ba.1) true
  let x0 ← slice x 1 none (some 1)
  let z ← mul zi x0
  let r ← lfilter ba.1 ba.2 x (some z) .tdf2 u
  pure r.1

end Phil.Example
