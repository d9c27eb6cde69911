import Verif.Torch.Core

/-!
# Model of philtorch/poly.py
-/

namespace Phil.Poly
open Torch Torch.Tensor

variable {α : Type} [Field α]

/-- The in-place `r[..., k:e] -= w` of `philtorch/poly.py:32`: the result of the subtraction must have the shape of the
slice it is written to. -/
def sliceSub (r : Tensor α) (k e : Int) (w : Tensor α) : Res (Tensor α) := do
  let cur ← slice r (-1) (some k) (some e)
  let new ← sub cur w
  check (new.shape = cur.shape) "RuntimeError: output with shape doesn't match the broadcast shape"
  let lo ← slice r (-1) none (some k)
  let hi ← slice r (-1) (some e) none
  let lo ← cat2 lo new (-1)
  cat2 lo hi (-1)

/-- `philtorch/poly.py:29-32`: the loop over `k`, started at `k` with `c` rounds to go; returns the list `q` and `r`. -/
def polydivLoop (v scale : Tensor α) (n : Int) : Nat → Nat → Tensor α → Res (List (Tensor α) × Tensor α)
  | 0, _, r => .ok ([], r)
  | c + 1, k, r => do
    let rk ← select r (-1) (k : Int)
    let d ← mul scale rk
    let d1 ← unsqueeze d (-1)
    let w ← mul d1 v
    let r ← sliceSub r k ((k : Int) + n + 1) w
    let rest ← polydivLoop v scale n c (k + 1) r
    pure (d :: rest.1, rest.2)

/-- `philtorch/poly.py:5-35`, `polydiv`.  `reciprocal` is the field inverse; PyTorch's infinities for a zero leading
coefficient are not modelled. -/
def polydiv (u v : Tensor α) : Res (Tensor α × Tensor α) := do
  check (1 ≤ u.rank ∧ 1 ≤ v.rank) "AssertionError"
  let m : Int := (u.size (-1) : Int) - 1
  let n : Int := (v.size (-1) : Int) - 1
  let v0 ← select v (-1) 0
  let scale := map (fun a => a⁻¹) v0
  let qr ← polydivLoop v scale n (m - n + 1).toNat 0 u
  let r ← slice qr.2 (-1) (some (m - n + 1)) none
  let q ← stack qr.1 (-1)
  pure (q, r)

end Phil.Poly
