import Verif.Spec.Layout
import Verif.Spec.Recur

/-!
# Accepted layouts of the input, output and feedthrough matrices of a state-space model

`B` below is the batch size, `N` the number of time steps, `M` the state dimension.  A layout relation lists the
documented shapes of an argument and says what values it stands for.  The hypotheses in a constructor exclude sizes for
which the same shape has another documented reading.
-/

namespace Spec
open Torch Torch.Tensor Finset
variable {α : Type} [CommRing α]

/-- A signal with one value (`none`) or a vector of `P` values (`some P`) per batch item and time step. -/
def signal : Option Nat → (B N : Nat) → (Nat → Nat → Nat → α) → Tensor α
  | none, B, N, y => t2 B N fun b t => y b t 0
  | some P, B, N, y => t3 B N P y

/-- Initial state: absent (zero), one for all batch items, or one per batch item. -/
inductive InitState (B M : Nat) : Option (Tensor α) → (Nat → Nat → α) → Prop
  | zero : InitState B M none fun _ _ => 0
  | shared (z : Nat → α) : InitState B M (some (t1 M z)) fun _ => z
  | full (z : Nat → Nat → α) : InitState B M (some (t2 B M z)) z

/-- Input matrix of a time-invariant model.  `LtiInput B N M Bm x v`: input matrix `Bm` and signal `x` add `v b t k` to
state `k` of batch item `b` at time `t`. -/
inductive LtiInput (B N M : Nat) : Option (Tensor α) → Tensor α → (Nat → Nat → Nat → α) → Prop
  | none {x v} (h : Drive B N M x v) : LtiInput B N M none x v
  | vec (g : Nat → α) (x : Nat → Nat → α) :
      LtiInput B N M (some (t1 M g)) (t2 B N x) fun b t k => g k * x b t
  | batchVec (g : Nat → Nat → α) (x : Nat → Nat → α) :
      LtiInput B N M (some (t2 B M g)) (t2 B N x) fun b t k => g b k * x b t
  | mat (F : Nat) (g : Nat → Nat → α) (x : Nat → Nat → Nat → α) (h : ¬ (M = B ∧ F = M)) :
      LtiInput B N M (some (t2 M F g)) (t3 B N F x) fun b t k => ∑ f ∈ range F, g k f * x b t f
  | batchMat (F : Nat) (g : Nat → Nat → Nat → α) (x : Nat → Nat → Nat → α) :
      LtiInput B N M (some (t3 B M F g)) (t3 B N F x) fun b t k => ∑ f ∈ range F, g b k f * x b t f

/-- Output matrix of a time-invariant model.  `LtiReadout B M C k r`: output `p` of batch item `b` in state `h` is
`r b h p`. -/
inductive LtiReadout (B M : Nat) : Option (Tensor α) → Option Nat → (Nat → (Nat → α) → Nat → α) → Prop
  | none : LtiReadout B M none (some M) fun _ h p => h p
  | vec (c : Nat → α) : LtiReadout B M (some (t1 M c)) none fun _ h _ => ∑ m ∈ range M, c m * h m
  | batchVec (c : Nat → Nat → α) : LtiReadout B M (some (t2 B M c)) none fun b h _ => ∑ m ∈ range M, c b m * h m
  | mat (P : Nat) (c : Nat → Nat → α) (h : P ≠ B) :
      LtiReadout B M (some (t2 P M c)) (some P) fun _ h p => ∑ m ∈ range M, c p m * h m
  | batchMat (P : Nat) (c : Nat → Nat → Nat → α) :
      LtiReadout B M (some (t3 B P M c)) (some P) fun b h p => ∑ m ∈ range M, c b p m * h m

/-- Feedthrough of a time-invariant model.  `LtiFeed B N D x k v`: feedthrough `D` and signal `x` add `v b t p` to
output `p`. -/
inductive LtiFeed (B N : Nat) : Option (Tensor α) → Tensor α → Option Nat → (Nat → Nat → Nat → α) → Prop
  | none (x : Tensor α) (k : Option Nat) : LtiFeed B N none x k fun _ _ _ => 0
  | scalar (d : α) (x : Nat → Nat → α) : LtiFeed B N (some (t0 d)) (t2 B N x) none fun b t _ => d * x b t
  | scalarFull (d : α) (F : Nat) (x : Nat → Nat → Nat → α) :
      LtiFeed B N (some (t0 d)) (t3 B N F x) (some F) fun b t p => d * x b t p
  | one (d : Nat → α) (x : Nat → Nat → α) : LtiFeed B N (some (t1 1 d)) (t2 B N x) none fun b t _ => d 0 * x b t
  | oneFull (d : Nat → α) (F : Nat) (x : Nat → Nat → Nat → α) (hB : B ≠ 1) (hF : F ≠ 1) :
      LtiFeed B N (some (t1 1 d)) (t3 B N F x) (some F) fun b t p => d 0 * x b t p
  | batch (d : Nat → α) (x : Nat → Nat → α) : LtiFeed B N (some (t1 B d)) (t2 B N x) none fun b t _ => d b * x b t
  | column (P : Nat) (d : Nat → α) (x : Nat → Nat → α) (hB : P ≠ B) (h1 : P ≠ 1) :
      LtiFeed B N (some (t1 P d)) (t2 B N x) (some P) fun b t p => d p * x b t
  | row (F : Nat) (d : Nat → α) (x : Nat → Nat → Nat → α) :
      LtiFeed B N (some (t1 F d)) (t3 B N F x) none fun b t _ => ∑ f ∈ range F, d f * x b t f
  | batchRow (F : Nat) (d : Nat → Nat → α) (x : Nat → Nat → Nat → α) :
      LtiFeed B N (some (t2 B F d)) (t3 B N F x) none fun b t _ => ∑ f ∈ range F, d b f * x b t f
  | batchColumn (P : Nat) (d : Nat → Nat → α) (x : Nat → Nat → α) :
      LtiFeed B N (some (t2 B P d)) (t2 B N x) (some P) fun b t p => d b p * x b t
  | mat (P F : Nat) (d : Nat → Nat → α) (x : Nat → Nat → Nat → α) (h : P ≠ B) :
      LtiFeed B N (some (t2 P F d)) (t3 B N F x) (some P) fun b t p => ∑ f ∈ range F, d p f * x b t f
  | batchMat (P F : Nat) (d : Nat → Nat → Nat → α) (x : Nat → Nat → Nat → α) :
      LtiFeed B N (some (t3 B P F d)) (t3 B N F x) (some P) fun b t p => ∑ f ∈ range F, d b p f * x b t f

/-- Input matrix of a time-varying model; `v b t k` as in `LtiInput`. -/
inductive LpvInput (B N M : Nat) : Option (Tensor α) → Tensor α → (Nat → Nat → Nat → α) → Prop
  | none {x v} (h : Drive B N M x v) : LpvInput B N M none x v
  | vec (g : Nat → α) (x : Nat → Nat → α) :
      LpvInput B N M (some (t1 M g)) (t2 B N x) fun b t k => g k * x b t
  | mat (F : Nat) (g : Nat → Nat → α) (x : Nat → Nat → Nat → α) :
      LpvInput B N M (some (t2 M F g)) (t3 B N F x) fun b t k => ∑ f ∈ range F, g k f * x b t f
  | timeVec (g : Nat → Nat → α) (x : Nat → Nat → α) :
      LpvInput B N M (some (t2 N M g)) (t2 B N x) fun b t k => g t k * x b t
  | batchVec (g : Nat → Nat → α) (x : Nat → Nat → α) (h : B ≠ N) :
      LpvInput B N M (some (t2 B M g)) (t2 B N x) fun b t k => g b k * x b t
  | timeMat (F : Nat) (g : Nat → Nat → Nat → α) (x : Nat → Nat → Nat → α) :
      LpvInput B N M (some (t3 N M F g)) (t3 B N F x) fun b t k => ∑ f ∈ range F, g t k f * x b t f
  | batchTimeVec (g : Nat → Nat → Nat → α) (x : Nat → Nat → α) :
      LpvInput B N M (some (t3 B N M g)) (t2 B N x) fun b t k => g b t k * x b t
  | batchMat (F : Nat) (g : Nat → Nat → Nat → α) (x : Nat → Nat → Nat → α) (h : B ≠ N) (h' : ¬ (M = N ∧ F = M)) :
      LpvInput B N M (some (t3 B M F g)) (t3 B N F x) fun b t k => ∑ f ∈ range F, g b k f * x b t f
  | batchTimeMat (F : Nat) (g : Nat → Nat → Nat → Nat → α) (x : Nat → Nat → Nat → α) :
      LpvInput B N M (some (t4 B N M F g)) (t3 B N F x) fun b t k => ∑ f ∈ range F, g b t k f * x b t f

/-- Output matrix of a time-varying model: output `p` of batch item `b` at time `t` in state `h` is `r b t h p`. -/
inductive LpvReadout (B N M : Nat) : Option (Tensor α) → Option Nat → (Nat → Nat → (Nat → α) → Nat → α) → Prop
  | none : LpvReadout B N M none (some M) fun _ _ h p => h p
  | vec (c : Nat → α) : LpvReadout B N M (some (t1 M c)) none fun _ _ h _ => ∑ m ∈ range M, c m * h m
  | timeVec (c : Nat → Nat → α) : LpvReadout B N M (some (t2 N M c)) none fun _ t h _ => ∑ m ∈ range M, c t m * h m
  | batchVec (c : Nat → Nat → α) (h : B ≠ N) :
      LpvReadout B N M (some (t2 B M c)) none fun b _ h _ => ∑ m ∈ range M, c b m * h m
  | mat (P : Nat) (c : Nat → Nat → α) (h : P ≠ B) (h' : P ≠ N) :
      LpvReadout B N M (some (t2 P M c)) (some P) fun _ _ h p => ∑ m ∈ range M, c p m * h m
  | timeMat (P : Nat) (c : Nat → Nat → Nat → α) :
      LpvReadout B N M (some (t3 N P M c)) (some P) fun _ t h p => ∑ m ∈ range M, c t p m * h m
  | batchTimeVec (c : Nat → Nat → Nat → α) (h : B ≠ N) :
      LpvReadout B N M (some (t3 B N M c)) none fun b t h _ => ∑ m ∈ range M, c b t m * h m
  | batchMat (P : Nat) (c : Nat → Nat → Nat → α) (h : B ≠ N) (h' : P ≠ N) :
      LpvReadout B N M (some (t3 B P M c)) (some P) fun b _ h p => ∑ m ∈ range M, c b p m * h m
  | batchTimeMat (P : Nat) (c : Nat → Nat → Nat → Nat → α) :
      LpvReadout B N M (some (t4 B N P M c)) (some P) fun b t h p => ∑ m ∈ range M, c b t p m * h m

/-- Feedthrough of a time-varying model; `v b t p` as in `LtiFeed`. -/
inductive LpvFeed (B N : Nat) : Option (Tensor α) → Tensor α → Option Nat → (Nat → Nat → Nat → α) → Prop
  | none (x : Tensor α) (k : Option Nat) : LpvFeed B N none x k fun _ _ _ => 0
  | scalar (d : α) (x : Nat → Nat → α) : LpvFeed B N (some (t0 d)) (t2 B N x) none fun b t _ => d * x b t
  | scalarFull (d : α) (F : Nat) (x : Nat → Nat → Nat → α) :
      LpvFeed B N (some (t0 d)) (t3 B N F x) (some F) fun b t p => d * x b t p
  | one (d : Nat → α) (x : Nat → Nat → α) : LpvFeed B N (some (t1 1 d)) (t2 B N x) none fun b t _ => d 0 * x b t
  | oneFull (d : Nat → α) (F : Nat) (x : Nat → Nat → Nat → α) (hB : B ≠ 1) (hN : N ≠ 1) (hF : F ≠ 1) :
      LpvFeed B N (some (t1 1 d)) (t3 B N F x) (some F) fun b t p => d 0 * x b t p
  | time (d : Nat → α) (x : Nat → Nat → α) : LpvFeed B N (some (t1 N d)) (t2 B N x) none fun b t _ => d t * x b t
  | batch (d : Nat → α) (x : Nat → Nat → α) (h : B ≠ N) :
      LpvFeed B N (some (t1 B d)) (t2 B N x) none fun b t _ => d b * x b t
  | column (P : Nat) (d : Nat → α) (x : Nat → Nat → α) (hN : P ≠ N) (hB : P ≠ B) (h1 : P ≠ 1) :
      LpvFeed B N (some (t1 P d)) (t2 B N x) (some P) fun b t p => d p * x b t
  | row (F : Nat) (d : Nat → α) (x : Nat → Nat → Nat → α) :
      LpvFeed B N (some (t1 F d)) (t3 B N F x) none fun b t _ => ∑ f ∈ range F, d f * x b t f
  | timeRow (F : Nat) (d : Nat → Nat → α) (x : Nat → Nat → Nat → α) :
      LpvFeed B N (some (t2 N F d)) (t3 B N F x) none fun b t _ => ∑ f ∈ range F, d t f * x b t f
  | batchRow (F : Nat) (d : Nat → Nat → α) (x : Nat → Nat → Nat → α) (h : B ≠ N) :
      LpvFeed B N (some (t2 B F d)) (t3 B N F x) none fun b t _ => ∑ f ∈ range F, d b f * x b t f
  | timeColumn (P : Nat) (d : Nat → Nat → α) (x : Nat → Nat → α) :
      LpvFeed B N (some (t2 N P d)) (t2 B N x) (some P) fun b t p => d t p * x b t
  | batchTime (d : Nat → Nat → α) (x : Nat → Nat → α) (h : B ≠ N) :
      LpvFeed B N (some (t2 B N d)) (t2 B N x) none fun b t _ => d b t * x b t
  | batchColumn (P : Nat) (d : Nat → Nat → α) (x : Nat → Nat → α) (h : B ≠ N) (h' : P ≠ N) :
      LpvFeed B N (some (t2 B P d)) (t2 B N x) (some P) fun b t p => d b p * x b t
  | mat (P F : Nat) (d : Nat → Nat → α) (x : Nat → Nat → Nat → α) (hN : P ≠ N) (hB : P ≠ B) :
      LpvFeed B N (some (t2 P F d)) (t3 B N F x) (some P) fun b t p => ∑ f ∈ range F, d p f * x b t f
  | batchTimeRow (F : Nat) (d : Nat → Nat → Nat → α) (x : Nat → Nat → Nat → α) :
      LpvFeed B N (some (t3 B N F d)) (t3 B N F x) none fun b t _ => ∑ f ∈ range F, d b t f * x b t f
  | batchTimeColumn (P : Nat) (d : Nat → Nat → Nat → α) (x : Nat → Nat → α) :
      LpvFeed B N (some (t3 B N P d)) (t2 B N x) (some P) fun b t p => d b t p * x b t
  | timeMat (P F : Nat) (d : Nat → Nat → Nat → α) (x : Nat → Nat → Nat → α) (h : ¬ (B = N ∧ P = N)) :
      LpvFeed B N (some (t3 N P F d)) (t3 B N F x) (some P) fun b t p => ∑ f ∈ range F, d t p f * x b t f
  | batchMat (P F : Nat) (d : Nat → Nat → Nat → α) (x : Nat → Nat → Nat → α) (hN : B ≠ N) (h : P ≠ N) :
      LpvFeed B N (some (t3 B P F d)) (t3 B N F x) (some P) fun b t p => ∑ f ∈ range F, d b p f * x b t f
  | batchTimeMat (P F : Nat) (d : Nat → Nat → Nat → Nat → α) (x : Nat → Nat → Nat → α) :
      LpvFeed B N (some (t4 B N P F d)) (t3 B N F x) (some P) fun b t p => ∑ f ∈ range F, d b t p f * x b t f

end Spec
