import Verif.Torch.Core

/-!
# Semantics of the compiled CPU kernels

A kernel works on flat memory: a constant buffer (`A`, read only) and a mutable buffer (`out`).  The body of an
`#pragma omp parallel for` over `b` is, for each `b`, a sequence of memory accesses and local computations (`Act`).
OpenMP may run the iterations on different threads in any order and interleaved in any way; `Interleaves` is the set of
all orders in which the individual memory accesses can happen.  Accesses outside of a buffer are errors.

Simplifications: memory is sequentially consistent, indices are unbounded natural numbers (in the code: 32-bit `int`, see Int32.lean),
scalars are exact.
-/

namespace Omp
open Torch

/-- One memory access or local computation; `ρ` is the type of the local variables (for the loops under `#pragma omp parallel
for`, e.g. `philtorch/csrc/host_lti_recur.cpp:10-21`). -/
inductive Act (ρ α : Type) where
  /-- `local = f(A[i], local)` -/
  | readC (i : Nat) (f : α → ρ → ρ)
  /-- `local = f(out[i], local)` -/
  | read (i : Nat) (f : α → ρ → ρ)
  /-- `out[i] = f(local)` -/
  | write (i : Nat) (f : ρ → α)
  /-- `local = f(local)` -/
  | compute (f : ρ → ρ)

variable {ρ α : Type}

/-- The buffers passed to a kernel: contents of the constant buffer and the lengths of both buffers
(e.g. `philtorch/csrc/host_lti_recur.cpp:5-7`). -/
structure Bufs (α : Type) where
  const : Nat → α
  constLen : Nat
  outLen : Nat

/-- One step of one loop iteration, on the contents of `out` and the local variables of that iteration (for the loops under
`#pragma omp parallel for`, e.g. `philtorch/csrc/host_lti_recur.cpp:10-21`). -/
def stepAct (B : Bufs α) : Act ρ α → (Nat → α) × ρ → Res ((Nat → α) × ρ)
  | .readC i f, (m, r) => if i < B.constLen then .ok (m, f (B.const i) r) else .error "read outside of A"
  | .read i f, (m, r) => if i < B.outLen then .ok (m, f (m i) r) else .error "read outside of out"
  | .write i f, (m, r) => if i < B.outLen then .ok (Function.update m i (f r), r) else .error "write outside of out"
  | .compute f, (m, r) => .ok (m, f r)

/-- One loop iteration running alone (for the loops under `#pragma omp parallel for`, e.g.
`philtorch/csrc/host_lti_recur.cpp:10-21`). -/
def solo (B : Bufs α) : List (Act ρ α) → (Nat → α) × ρ → Res ((Nat → α) × ρ)
  | [], s => .ok s
  | a :: p, s => do let s' ← stepAct B a s; solo B p s'

/-- All loop iterations: contents of `out`, local variables of each iteration, steps in the given order (for the loops under
`#pragma omp parallel for`, e.g. `philtorch/csrc/host_lti_recur.cpp:10-21`). -/
def run (B : Bufs α) : List (Nat × Act ρ α) → (Nat → α) × (Nat → ρ) → Res ((Nat → α) × (Nat → ρ))
  | [], s => .ok s
  | (b, a) :: p, (m, r) => do
    let (m', r') ← stepAct B a (m, r b)
    run B p (m', Function.update r b r')

/-- `Interleaves p s`: the order `s` contains the steps of every iteration `b` in the order `p b` (for the loops under `#pragma
omp parallel for`, e.g. `philtorch/csrc/host_lti_recur.cpp:10-21`). -/
inductive Interleaves {β : Type} : (Nat → List β) → List (Nat × β) → Prop
  | done (p : Nat → List β) (h : ∀ b, p b = []) : Interleaves p []
  | step (p : Nat → List β) (b : Nat) (a : β) (rest : List β) (s : List (Nat × β)) (h : p b = a :: rest)
      (h' : Interleaves (Function.update p b rest) s) : Interleaves p ((b, a) :: s)

/-- The OpenMP runtime: picks an order for the steps of `n` loop iterations (for the loops under `#pragma omp parallel for`,
e.g. `philtorch/csrc/host_lti_recur.cpp:10-21`). -/
abbrev Scheduler (ρ α : Type) := Nat → (Nat → List (Act ρ α)) → List (Nat × Act ρ α)

/-- The steps of iteration `b` of a loop with `n` iterations (for the loops under `#pragma omp parallel for`, e.g.
`philtorch/csrc/host_lti_recur.cpp:10-21`). -/
def iters (n : Nat) (p : Nat → List (Act ρ α)) (b : Nat) : List (Act ρ α) := if b < n then p b else []

/-- The runtime executes every iteration exactly once, in program order within each iteration (for the loops under `#pragma omp
parallel for`, e.g. `philtorch/csrc/host_lti_recur.cpp:10-21`). -/
def IsScheduler (sch : Scheduler ρ α) : Prop := ∀ n p, Interleaves (iters n p) (sch n p)

/-- One thread: iteration 0, then 1, and so on (for the loops under `#pragma omp parallel for`, e.g.
`philtorch/csrc/host_lti_recur.cpp:10-21`). -/
def sequential : Scheduler ρ α := fun n p => (List.range n).flatMap fun b => (p b).map fun a => (b, a)

/-- `#pragma omp parallel for` over `b < n` (`philtorch/csrc/host_lti_recur.cpp:10`, `:30`,
`philtorch/csrc/host_lti_recurN.cpp:11`, `:42`, `philtorch/csrc/host_recurN.cpp:88`, `:120`). -/
def parallelFor (sch : Scheduler ρ α) (B : Bufs α) (r0 : ρ) (n : Nat) (p : Nat → List (Act ρ α)) (out : Nat → α) :
    Res (Nat → α) := do
  let (m, _) ← run B (sch n p) (out, fun _ => r0)
  return m

/-- `for (int t = lo; t < hi; ++t) body(t)` (e.g. `philtorch/csrc/host_lti_recur.cpp:17`). -/
def forLoop (lo hi : Nat) (body : Nat → List (Act ρ α)) : List (Act ρ α) := (List.range' lo (hi - lo)).flatMap body

end Omp

namespace Torch.Tensor
variable {α : Type} [Zero α]

/-- The elements of a contiguous tensor in memory order, `x.contiguous().data_ptr()` (e.g.
`philtorch/csrc/host_lti_recur.cpp:55-56`, `:65-66`). -/
def data (x : Tensor α) (i : Nat) : α := x.get (unravel x.shape i)

/-- The contiguous tensor of shape `s` with the given memory contents (e.g. `philtorch/csrc/host_lti_recur.cpp:54-55`,
`:78-79`). -/
def ofData (s : List Nat) (d : Nat → α) : Tensor α := ofFn s fun l => d (ravel s l)

end Torch.Tensor
