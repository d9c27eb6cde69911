import Verif.Model.Dispatch

/-!
# Model of philtorch/prototype/nl.py

`func` and `fprime` are arbitrary functions on tensors.  With `fprime=None` the code obtains the Jacobian from autograd; the model is
then given the function autograd computes.  `close` is `torch.allclose` with the tolerances of the call.

Simplification: the squared norms of the residuals, the second components of the intermediate results, are left out.
-/

namespace Phil.Newton
open Torch Torch.Tensor Spec

variable {α : Type} [CommRing α]

/-- `philtorch/prototype/nl.py:39-43`, `recur_runner`. -/
def runner (e : Env α) (M : Nat) (u : Option Int) (A zi x : Tensor α) : Res (Tensor α) :=
  if e.lpvUseExt M ∧ (u = none ∨ u = some 1) then Lpv.extSsRecur e A zi x none
  else match u with
    | none => .error "TypeError: '<' not supported between instances of 'NoneType' and 'int'"
    | some u => Lpv.stateSpaceRecursionOn e A zi x u none

/-- `philtorch/prototype/nl.py:48-63`: `next_y[:, :1]` and `new_y`. -/
def step (func fprime : Tensor α → Tensor α → Res (Tensor α)) (run : Op α) (x : Tensor α) (i : Nat) (y : Tensor α) :
    Res (Tensor α × Tensor α) := do
  let y_ ← slice y 1 none (some (-1))
  let xi ← slice x 1 (some (i : Int)) none
  let next_y ← func y_ xi
  let y1 ← slice y 1 (some 1) none
  let res ← sub next_y y1
  let ym ← slice y 1 (some 1) (some (-1))
  let xi1 ← slice x 1 (some ((i + 1 : Nat) : Int)) none
  let Jac ← fprime ym xi1
  let res0 ← select res 1 0
  let res1 ← slice res 1 (some 1) none
  let delta ← run Jac res0 res1
  let first ← slice next_y 1 none (some 1)
  let y2 ← slice y 1 (some ((2 : Nat) : Int)) none
  let upd ← add y2 delta
  let new_y ← cat2 first upd 1
  pure (first, new_y)

/-- `philtorch/prototype/nl.py:47-77`: `n` iterations are left, `i` were done.  The result, the number of iterations, and the
intermediate results. -/
def loop (func fprime : Tensor α → Tensor α → Res (Tensor α)) (run : Op α) (close : Tensor α → Tensor α → Bool) (x : Tensor α) :
    Nat → Nat → Tensor α → List (Tensor α) → List (Tensor α) → Res (Tensor α × Nat × List (Tensor α))
  | 0, _, _, _, _ => .error "UnboundLocalError: cannot access local variable 'new_y'"
  | n + 1, i, y, computed, inter => do
    let p ← step func fprime run x i y
    let computed := computed ++ [p.1]
    let y1 ← slice y 1 (some 1) none
    if close p.2 y1 then (do
      let rest ← slice p.2 1 (some 1) none
      let result ← cat (computed ++ [rest]) 1
      pure (result, i + 1, inter))
    else (do
      let first ← slice p.2 1 none (some 1)
      let mid ← cat (computed ++ [first]) 1
      if n = 0 then (do
        let rest ← slice p.2 1 (some 1) none
        let result ← cat (computed ++ [rest]) 1
        pure (result, i + 1, inter ++ [mid]))
      else loop func fprime run close x n (i + 1) p.2 computed (inter ++ [mid]))

/-- `philtorch/prototype/nl.py:10-80`, `newton_solve`. -/
def newtonSolve (e : Env α) (func fprime : Tensor α → Tensor α → Res (Tensor α)) (close : Tensor α → Tensor α → Bool)
    (x y0 init : Tensor α) (maxIter : Nat) (u : Option Int) : Res (Tensor α × Nat × List (Tensor α)) := do
  check (maxIter < x.size 1) "AssertionError: max_iter must be less than the sequence length of x"
  let i1 ← unsqueeze init 1
  let y ← cat2 i1 y0 1
  loop func fprime (runner e (init.size (-1)) u) close x maxIter 0 y [] []

end Phil.Newton
