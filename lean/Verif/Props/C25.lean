import Verif.Proof.Witness
import Verif.Proof.Eigenvectors
import Mathlib.Tactic.NormNum
import Mathlib.Data.Complex.Basic
import Mathlib.Analysis.Complex.Basic

/-!
# C25: `find_eigenvectors`

`Eigenvector M A c v` (Spec/Eigen.lean): `v` is not zero and `A v = c v`.  The scalars are real or complex.  The claim as stated
(every simple eigenvalue) fails for eigenvectors whose first component is zero, see `C25_zero_first_component`; the theorems below
say exactly when the function returns, and what.
-/

namespace Props
open Torch Torch.Tensor Spec Phil

variable {α : Type} [RCLike α]

/-- **C25 (partial), one matrix.**  If every `l m` is an eigenvalue of `A` and none of its eigenvectors starts with zero (this includes that
the eigenspace is a line), the columns of the result have norm one and are eigenvectors.
Missing: simple eigenvalues whose eigenvector starts with zero (`C25_zero_first_component`: an error is raised). -/
theorem C25_find_eigenvectors_partial {M : Nat} (hM : 0 < M) (A : Nat → Nat → α) (l : Nat → α)
    (hl : ∀ m, m < M → ∃ v, Eigenvector M A (l m) v) (h0 : ∀ m v, m < M → Eigenvector M A (l m) v → v 0 ≠ 0) :
    ∃ V : Nat → Nat → α, findEigenvectors (t2 M M A) (t1 M l) = .ok (t2 M M V) ∧ ∀ m, m < M →
      ∑ i ∈ Finset.range M, ‖V i m‖ ^ 2 = 1 ∧ ∀ i, i < M → ∑ j ∈ Finset.range M, A i j * V j m = l m * V i m := by
  obtain ⟨m, rfl⟩ : ∃ m, M = m + 1 := ⟨M - 1, by omega⟩
  refine ⟨_, findEigenvectors_t2 m A l fun e he => gram_det (h0 e · he), fun e he => ⟨eigNorm_unit m A (l e), fun i hi => ?_⟩⟩
  rw [mul_div_assoc', ← eigRow_eigen (h0 e · he) (hl e he) hi, Finset.sum_div]
  exact Finset.sum_congr rfl fun j _ => by ring

/-- The same for a batch of matrices. -/
theorem C25_find_eigenvectors_batch_partial {B M : Nat} (hM : 0 < M) (A : Nat → Nat → Nat → α) (l : Nat → Nat → α)
    (hl : ∀ b m, b < B → m < M → ∃ v, Eigenvector M (A b) (l b m) v)
    (h0 : ∀ b m v, b < B → m < M → Eigenvector M (A b) (l b m) v → v 0 ≠ 0) :
    ∃ V : Nat → Nat → Nat → α, findEigenvectors (t3 B M M A) (t2 B M l) = .ok (t3 B M M V) ∧ ∀ b m, b < B → m < M →
      ∑ i ∈ Finset.range M, ‖V b i m‖ ^ 2 = 1 ∧ ∀ i, i < M → ∑ j ∈ Finset.range M, A b i j * V b j m = l b m * V b i m := by
  obtain ⟨m, rfl⟩ : ∃ m, M = m + 1 := ⟨M - 1, by omega⟩
  refine ⟨_, findEigenvectors_t3 B m A l fun b e hb he => gram_det (h0 b e · hb he), fun b e hb he =>
    ⟨eigNorm_unit m (A b) (l b e), fun i hi => ?_⟩⟩
  rw [mul_div_assoc', ← eigRow_eigen (h0 b e · hb he) (hl b e hb he) hi, Finset.sum_div]
  exact Finset.sum_congr rfl fun j _ => by ring

example := C25_find_eigenvectors_batch_partial (B := 2) (M := 2) (by decide) (fun _ => Witness.rot) (fun _ => Witness.rotEig)
  (fun _ m _ => Witness.rot_eigenvector m) (fun _ m v _ _ => Witness.rot_first m v)

/-- An eigenvector that starts with zero makes the function raise, simple eigenvalue or not. -/
theorem C25_zero_first_component {M : Nat} (A : Nat → Nat → α) (l : Nat → α) {m : Nat} (hm : m < M) {v : Nat → α}
    (hv : Eigenvector M A (l m) v) (h0 : v 0 = 0) : Fails (findEigenvectors (t2 M M A) (t1 M l)) := by
  obtain ⟨M, rfl⟩ : ∃ n, M = n + 1 := ⟨M - 1, by omega⟩
  exact findEigenvectors_t2_fails M A l hm (gram_singular hv h0)

/-- The identity: `(0, 1)` is an eigenvector. -/
example := C25_zero_first_component (M := 2) (fun i j => if i = j then (1 : ℂ) else 0) (fun _ => 1) (m := 0) (by decide)
  (v := fun i => if i = 1 then 1 else 0) ⟨⟨1, by decide, by simp⟩, fun i hi => by simp⟩ rfl

theorem C25_zero_first_component_batch {B M : Nat} (A : Nat → Nat → Nat → α) (l : Nat → Nat → α) {b m : Nat} (hb : b < B) (hm : m < M)
    {v : Nat → α} (hv : Eigenvector M (A b) (l b m) v) (h0 : v 0 = 0) : Fails (findEigenvectors (t3 B M M A) (t2 B M l)) := by
  obtain ⟨M, rfl⟩ : ∃ n, M = n + 1 := ⟨M - 1, by omega⟩
  exact findEigenvectors_t3_fails B M A l hb hm (gram_singular hv h0)

example := C25_zero_first_component_batch (B := 3) (M := 2) (fun _ i j => if i = j then (1 : ℂ) else 0) (fun _ _ => 1) (b := 2) (m := 0) (by decide)
  (by decide) (v := fun i => if i = 1 then 1 else 0) ⟨⟨1, by decide, by simp⟩, fun i hi => by simp⟩ rfl

/-- The claim fails for `diag(1, 2)`, whose two eigenvalues are simple. -/
theorem C25_diagonal : Fails (findEigenvectors (t2 2 2 fun i j => if i = j then ((i : ℂ) + 1) else 0) (t1 2 fun m => (m : ℂ) + 1)) := by
  refine C25_zero_first_component _ _ (m := 1) (by decide) (v := fun i => if i = 1 then 1 else 0)
    ⟨⟨1, by decide, by simp⟩, fun i hi => ?_⟩ (by simp)
  have h1 : i = 0 ∨ i = 1 := by omega
  rcases h1 with rfl | rfl <;> simp

/-- Non-vacuity: `[[0, 1], [-1, 0]]` with eigenvalues `i`, `-i`. -/
example : ∃ V : Nat → Nat → ℂ, findEigenvectors (t2 2 2 fun i j => if i = j then 0 else if i = 0 then 1 else -1)
      (t1 2 fun m => if m = 0 then Complex.I else -Complex.I) = .ok (t2 2 2 V) ∧ ∀ m, m < 2 →
    ∑ i ∈ Finset.range 2, ‖V i m‖ ^ 2 = 1 ∧ ∀ i, i < 2 → ∑ j ∈ Finset.range 2, (if i = j then 0 else if i = 0 then 1 else -1) * V j m =
      (if m = 0 then Complex.I else -Complex.I) * V i m := by
  refine C25_find_eigenvectors_partial (by decide) _ _ (fun m hm => ?_) fun m v hm hv h0 => ?_
  · refine ⟨fun i => if i = 0 then 1 else if m = 0 then Complex.I else -Complex.I, ⟨0, by decide, by simp⟩, fun i hi => ?_⟩
    have h1 : i = 0 ∨ i = 1 := by omega
    have h2 : m = 0 ∨ m = 1 := by omega
    rcases h1 with rfl | rfl <;> rcases h2 with rfl | rfl <;> simp [Finset.sum_range_succ]
  · obtain ⟨⟨i, hi, hi0⟩, he⟩ := hv
    have h1 : i = 0 ∨ i = 1 := by omega
    rcases h1 with rfl | rfl
    · exact hi0 h0
    · have := he 0 (by decide)
      simp [Finset.sum_range_succ, h0] at this
      exact hi0 this

end Props
