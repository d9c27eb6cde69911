import Verif.Model.Utils
import Verif.Torch.Loop

/-!
# C46: function chaining
-/

namespace Props
open Torch Phil.Utils
variable {V : Type}

/-- What calling `g` on the result of `f` means when tuples are spread as positional arguments. -/
def spreadArgs : Obj V → List (Obj V)
  | .tuple items => items
  | .other v => [.other v]

/-- `f1` on the arguments, then every further function on the spread result of its predecessor. -/
inductive RunsTo : List (Callable V) → List (Obj V) → Obj V → Prop
  | last {f args r} (h : f args = .ok r) : RunsTo [f] args r
  | next {f g fs args m r} (h : f args = .ok m) (hr : RunsTo (g :: fs) (spreadArgs m) r) : RunsTo (f :: g :: fs) args r

theorem chainStep_eq (acc : Obj V) (f : Callable V) : chainStep acc f = f (spreadArgs acc) := by
  cases acc <;> rfl

/-- **C46.**  A chain of at least one function returns `r` exactly if applying the functions in order, spreading tuples,
gives `r`; in particular the chain raises as soon as one of the functions raises. -/
theorem C46_chain (f : Callable V) (fs : List (Callable V)) (args : List (Obj V)) (r : Obj V) :
    chainFunctions (f :: fs) args = .ok r ↔ RunsTo (f :: fs) args r := by
  unfold chainFunctions
  have key : ∀ (fs : List (Callable V)) (f : Callable V) (acc : Obj V),
      (f :: fs).foldlM chainStep acc = .ok r ↔ RunsTo (f :: fs) (spreadArgs acc) r := by
    intro fs
    induction fs with
    | nil =>
      intro f acc
      rw [List.foldlM_cons, chainStep_eq]
      constructor
      · intro h
        cases hf : f (spreadArgs acc) with
        | error e => rw [hf] at h; cases h
        | ok m => rw [hf] at h; cases h; exact .last hf
      · rintro (h | _)
        rw [h]; rfl
    | cons g gs ih =>
      intro f acc
      rw [List.foldlM_cons, chainStep_eq]
      constructor
      · intro h
        cases hf : f (spreadArgs acc) with
        | error e => rw [hf] at h; cases h
        | ok m => rw [hf] at h; exact .next hf ((ih g m).1 h)
      · intro h
        cases h with
        | next h hr => rw [h]; exact (ih g _).2 hr
  exact key fs f (.tuple args)

/-- An empty chain returns the tuple of its arguments. -/
theorem C46_empty (args : List (Obj V)) : chainFunctions [] args = .ok (.tuple args) := rfl

/-- A function that raises makes the whole chain raise, wherever it stands. -/
theorem C46_raises (fs gs : List (Callable V)) (f : Callable V) (args : List (Obj V)) (h : ∀ l, Fails (f l)) :
    Fails (chainFunctions (fs ++ f :: gs) args) := by
  unfold chainFunctions
  rw [List.foldlM_append]
  refine fails_bind fun m _ => ?_
  rw [List.foldlM_cons, chainStep_eq]
  exact fails_left (h _)

example := C46_raises (V := ℤ) [fun l => .ok (.tuple l)] [fun l => .ok (.tuple l)] (fun _ => .error "ValueError") [.other 3]
  (fun _ => ⟨_, rfl⟩)

/-- Chains compose: chaining the result of a chain is the chain of all functions (the second part not empty). -/
theorem C46_append (fs gs : List (Callable V)) (g : Callable V) (args : List (Obj V)) :
    chainFunctions (fs ++ g :: gs) args = (do
      let m ← chainFunctions fs args
      chainFunctions (g :: gs) (spreadArgs m)) := by
  unfold chainFunctions
  rw [List.foldlM_append]
  refine congrArg _ (funext fun m => ?_)
  rw [List.foldlM_cons, List.foldlM_cons, chainStep_eq, chainStep_eq]
  rfl

/-- Non-vacuity: swap two numbers, then subtract, then double. -/
example : chainFunctions (V := ℤ)
    [fun | [a, b] => .ok (.tuple [b, a]) | _ => .error "TypeError",
     fun | [.other a, .other b] => .ok (.other (a - b)) | _ => .error "TypeError",
     fun | [.other a] => .ok (.other (2 * a)) | _ => .error "TypeError"] [.other 3, .other 5] = .ok (.other 4) := rfl

end Props
