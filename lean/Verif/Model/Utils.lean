import Verif.Torch.Core

/-!
# Model of philtorch/utils.py
-/

namespace Phil.Utils
open Torch

/-- Python objects as far as `chain_functions` looks at them: a tuple of objects, or something else (`philtorch/utils.py:22`).
-/
inductive Obj (V : Type) where
  | other (v : V)
  | tuple (items : List (Obj V))

/-- A callable: takes positional arguments, returns an object or raises (`philtorch/utils.py:5`). -/
abbrev Callable (V : Type) := List (Obj V) → Res (Obj V)

/-- `philtorch/utils.py:22`, the lambda. -/
def chainStep {V : Type} (acc : Obj V) (func : Callable V) : Res (Obj V) :=
  match acc with
  | .tuple items => func items
  | .other v => func [.other v]

/-- `philtorch/utils.py:5-27`, `chain_functions(*functions)(*args)`; `functools.reduce` is a left fold. -/
def chainFunctions {V : Type} (functions : List (Callable V)) (args : List (Obj V)) : Res (Obj V) :=
  functions.foldlM chainStep (.tuple args)

end Phil.Utils
