import Verif.Torch.Loop

/-!
# Model of philtorch/_helion.py and of the custom ops of philtorch/__init__.py that call it

Helion is a kernel language: `hl.tile(n)` splits `0 .. n-1` into tiles whose sizes are chosen by the autotuner, `hl.grid(1, T + 1)`
inside a tile is a sequential loop.  The tiling is the parameter `tile`; the tiles are lists of indices, in any order and of any
size.  Simplifications: the programs of different batch tiles run one after the other (they touch different rows of `output`), and
arithmetic is exact (`dot_precision="ieee"` is the code's request for unreduced precision).
-/

namespace Phil.Helion
open Torch Torch.Tensor Finset

variable {α : Type} [CommRing α]

/-- A choice of tiles for every loop length (`hl.tile`, `philtorch/_helion.py:33-35` and the like). -/
abbrev Tiler := Nat → List (List Nat)

/-- Every index belongs to exactly one tile (the contract of `hl.tile`, `philtorch/_helion.py:33-35` and the like). -/
def IsTiler (tile : Tiler) : Prop := ∀ n, (tile n).flatten.Perm (List.range n)

/-- The three nested loops (`philtorch/_helion.py:33-40`, `:70-77`, `:107-114`, `:144-151`): `step tile_b t tile_m` is the loop
body. -/
def loops (tile : Tiler) (batch T M : Nat) (step : List Nat → Nat → List Nat → Tensor α → Tensor α) (output : Tensor α) : Tensor α :=
  (tile batch).foldl (fun o tb => (List.range' 1 T).foldl (fun o t => (tile M).foldl (fun o tm => step tb t tm o) o) o) output

/-- `output[tile_b, t, tile_m] += torch.matmul(output[tile_b, t - 1, :], AT[.., :, tile_m])` for a 3-D `output`; `at` reads
`AT[.., k, m]` (`philtorch/_helion.py:36-40`, `:110-114`). -/
def stepShared (M : Nat) (at_ : Nat → Nat → Nat → α) (tb : List Nat) (t : Nat) (tm : List Nat) (o : Tensor α) : Tensor α :=
  ofFn o.shape fun l =>
    if l.getD 0 0 ∈ tb ∧ l.getD 1 0 = t ∧ l.getD 2 0 ∈ tm then
      o.get l + ∑ k ∈ range M, o.get [l.getD 0 0, t - 1, k] * at_ t k (l.getD 2 0)
    else o.get l

/-- `output[tile_b, t, tile_m, :] += torch.bmm(A[tile_b, .., tile_m, :], output[tile_b, t - 1, :, :])` for a 4-D `output`; `a`
reads `A[b, .., m, k]` (`philtorch/_helion.py:73-77`, `:147-151`). -/
def stepBatched (M : Nat) (a : Nat → Nat → Nat → Nat → α) (tb : List Nat) (t : Nat) (tm : List Nat) (o : Tensor α) : Tensor α :=
  ofFn o.shape fun l =>
    if l.getD 0 0 ∈ tb ∧ l.getD 1 0 = t ∧ l.getD 2 0 ∈ tm then
      o.get l + ∑ k ∈ range M, a (l.getD 0 0) t (l.getD 2 0) k * o.get [l.getD 0 0, t - 1, k, l.getD 3 0]
    else o.get l

/-- `philtorch/_helion.py:13-41`, `lti_shared_A_recursion_loop`. -/
def ltiSharedLoop (tile : Tiler) (A zi x : Tensor α) : Res (Tensor α) := do
  let AT ← transpose A (-2) (-1)
  let z1 ← unsqueeze zi 1
  let output ← cat2 z1 x 1
  slice (loops tile (zi.size 0) (x.size 1) (A.size (-1))
    (stepShared (A.size (-1)) fun _ k m => AT.get [k, m]) output) 1 (some 1) none

/-- `philtorch/_helion.py:50-78`, `lti_recursion_loop`. -/
def ltiLoop (tile : Tiler) (A zi x : Tensor α) : Res (Tensor α) := do
  let z1 ← unsqueeze zi 1
  let output ← cat2 z1 x 1
  let output ← unsqueeze output (-1)
  let y ← slice (loops tile (zi.size 0) (x.size 1) (A.size (-1))
    (stepBatched (A.size (-1)) fun b _ m k => A.get [b, m, k]) output) 1 (some 1) none
  squeeze y (-1)

/-- `philtorch/_helion.py:87-115`, `lpv_shared_A_recursion_loop`. -/
def lpvSharedLoop (tile : Tiler) (A zi x : Tensor α) : Res (Tensor α) := do
  let AT ← transpose A (-2) (-1)
  let z1 ← unsqueeze zi 1
  let output ← cat2 z1 x 1
  slice (loops tile (zi.size 0) (x.size 1) (A.size (-1))
    (stepShared (A.size (-1)) fun t k m => AT.get [t - 1, k, m]) output) 1 (some 1) none

/-- `philtorch/_helion.py:124-152`, `lpv_recursion_loop`. -/
def lpvLoop (tile : Tiler) (A zi x : Tensor α) : Res (Tensor α) := do
  let z1 ← unsqueeze zi 1
  let output ← cat2 z1 x 1
  let output ← unsqueeze output (-1)
  let y ← slice (loops tile (zi.size 0) (x.size 1) (A.size (-1))
    (stepBatched (A.size (-1)) fun b t m k => A.get [b, t - 1, m, k]) output) 1 (some 1) none
  squeeze y (-1)

/-- `philtorch/__init__.py:272-278`, `hl_lti_recurN`. -/
def hlLtiRecurN (tile : Tiler) (A zi x : Tensor α) : Res (Tensor α) :=
  if A.rank = 2 then ltiSharedLoop tile A zi x else ltiLoop tile A zi x

/-- `philtorch/__init__.py:280-284`, `hl_recurN`. -/
def hlRecurN (tile : Tiler) (A zi x : Tensor α) : Res (Tensor α) :=
  if A.rank = 3 then lpvSharedLoop tile A zi x else lpvLoop tile A zi x

end Phil.Helion
