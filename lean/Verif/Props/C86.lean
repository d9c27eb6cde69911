import Verif.Proof.ClosedForm
import Verif.Props.C57
import Verif.Props.C82Space
import Verif.Props.C08
import Verif.Props.C09
import Mathlib.Data.Matrix.Block
import Mathlib.LinearAlgebra.Matrix.DotProduct
import Mathlib.Data.Real.Star

/-!
# C86: stored and supplied energy
-/

namespace Props
open Torch Torch.Tensor Spec Phil Matrix

/-- The squares of the values of a block matrix times a vector. -/
theorem blocks_norm {M F P : Nat} (A : Matrix (Fin M) (Fin M) ℝ) (B : Matrix (Fin M) (Fin F) ℝ) (C : Matrix (Fin P) (Fin M) ℝ)
    (D : Matrix (Fin P) (Fin F) ℝ) (s : Fin M → ℝ) (w : Fin F → ℝ) :
    fromBlocks A B C D *ᵥ Sum.elim s w ⬝ᵥ fromBlocks A B C D *ᵥ Sum.elim s w =
      (A *ᵥ s + B *ᵥ w) ⬝ᵥ (A *ᵥ s + B *ᵥ w) + (C *ᵥ s + D *ᵥ w) ⬝ᵥ (C *ᵥ s + D *ᵥ w) := by
  rw [fromBlocks_mulVec, sumElim_dotProduct_sumElim]
  simp

theorem isometry_dot {m n : Type} [Fintype m] [Fintype n] [DecidableEq n] {U : Matrix m n ℝ} (h : Uᵀ * U = 1) (v : n → ℝ) :
    U *ᵥ v ⬝ᵥ U *ᵥ v = v ⬝ᵥ v := by
  rw [dotProduct_mulVec, ← mulVec_transpose, mulVec_mulVec, h, one_mulVec]

theorem dot_self (m : Nat) (g : Nat → ℝ) : vect m g ⬝ᵥ vect m g = ∑ i ∈ Finset.range m, g i ^ 2 := by
  rw [Finset.sum_range]
  exact Finset.sum_congr rfl fun i _ => (sq _).symm

/-- **C86, `lti.state_space`**: let `V` measure the stored and `S` the supplied amount, with values in any ordered group. If no single step
stores more than is supplied, no run does. -/
theorem C86_lti_dissipation {α R : Type} [CommRing α] [StarRing α] [AddCommGroup R] [PartialOrder R] [IsOrderedAddMonoid R] {B N M F P : Nat}
    (A Bm C D : Nat → Nat → Nat → α) (z : Nat → Nat → α) (x : Nat → Nat → Nat → α) {k : Option Int} (hM : 0 < M) (hN : 0 < N) (hk : ∀ i, k = some i → 1 ≤ i)
    (V : Nat → (Fin M → α) → R) (S : Nat → (Fin F → α) → (Fin P → α) → R)
    (hV : ∀ b, b < B → ∀ s w, V b (mat M M (A b) *ᵥ s + mat M F (Bm b) *ᵥ w) ≤
      V b s + S b w (mat P M (C b) *ᵥ s + mat P F (D b) *ᵥ w)) :
    ∃ y f, Lti.stateSpace (t3 B M M A) (t3 B N F x) (some (t3 B M F Bm)) (some (t3 B P M C)) (some (t3 B P F D)) (some (t2 B M z)) k none =
        .ok (t3 B N P y, some (t2 B M f)) ∧
      ∀ b, b < B → V b (vect M (f b)) ≤ V b (vect M (z b)) + ∑ t ∈ Finset.range N, S b (vect F (x b t)) (vect P (y b t)) := by
  obtain ⟨s, hs, e⟩ := C08_state_space_partial (B := B) (.batched A) (.batchMat F Bm x) (.batchMat P C) (.batchMat P F D x) (.full z) hM hN hk
  rw [signal, Option.isSome_some, if_pos rfl] at e
  refine ⟨_, fun b => s b N, e, fun b hb => ?_⟩
  have run : ∀ n, n ≤ N → V b (vect M (s b n)) ≤ V b (vect M (z b)) + ∑ t ∈ Finset.range n, S b (vect F (x b t))
      (vect P fun p => ∑ k ∈ Finset.range M, C b p k * s b t k + ∑ f ∈ Finset.range F, D b p f * x b t f) := by
    intro n
    induction n with
    | zero =>
      intro _
      rw [Finset.range_zero, Finset.sum_empty, add_zero, show s b 0 = z b from funext fun m => (hs b m).1]
    | succ t ih =>
      intro ht
      rw [Finset.sum_range_succ, ← add_assoc]
      have split : ∀ (m : Nat) (g h : Nat → α), vect m (fun i => g i + h i) = vect m g + vect m h := fun _ _ _ => rfl
      have step := hV b hb (vect M (s b t)) (vect F (x b t))
      rw [← vect_sum, ← vect_sum, ← vect_sum, ← vect_sum, ← split, ← split] at step
      rw [show s b (t + 1) = fun m => ∑ k ∈ Finset.range M, A b m k * s b t k + ∑ f ∈ Finset.range F, Bm b m f * x b t f from
        funext fun m => (hs b m).2 t]
      exact step.trans (add_le_add_left (ih (by omega)) _)
  exact run N le_rfl

/-- **C86, `lti.state_space`, contractions**: if the block matrix `[[A, B], [C, D]]` does not increase the sum of squares, the squares of
the output and the final state sum to no more than those of the signal and the initial state. -/
theorem C86_lti_contraction {B N M F P : Nat} (A Bm C D : Nat → Nat → Nat → ℝ) (z : Nat → Nat → ℝ) (x : Nat → Nat → Nat → ℝ) {k : Option Int} (hM : 0 < M) (hN : 0 < N) (hk : ∀ i, k = some i → 1 ≤ i)
    (hU : ∀ b, b < B → ∀ v, (fromBlocks (mat M M (A b)) (mat M F (Bm b)) (mat P M (C b)) (mat P F (D b))) *ᵥ v ⬝ᵥ (fromBlocks (mat M M (A b)) (mat M F (Bm b)) (mat P M (C b)) (mat P F (D b))) *ᵥ v ≤ v ⬝ᵥ v) :
    ∃ y f, Lti.stateSpace (t3 B M M A) (t3 B N F x) (some (t3 B M F Bm)) (some (t3 B P M C)) (some (t3 B P F D)) (some (t2 B M z)) k none =
        .ok (t3 B N P y, some (t2 B M f)) ∧
      ∀ b, b < B → ∑ m ∈ Finset.range M, f b m ^ 2 + ∑ t ∈ Finset.range N, ∑ p ∈ Finset.range P, y b t p ^ 2 ≤
        ∑ m ∈ Finset.range M, z b m ^ 2 + ∑ t ∈ Finset.range N, ∑ j ∈ Finset.range F, x b t j ^ 2 := by
  obtain ⟨y, f, e, h⟩ := C86_lti_dissipation A Bm C D z x hM hN hk (fun _ s => s ⬝ᵥ s) (fun _ w v => w ⬝ᵥ w - v ⬝ᵥ v)
    (fun b hb s w => by
      have := hU b hb (Sum.elim s w)
      rw [blocks_norm, sumElim_dotProduct_sumElim] at this
      linarith)
  refine ⟨y, f, e, fun b hb => ?_⟩
  have := h b hb
  simp only [dot_self, Finset.sum_sub_distrib] at this
  linarith

/-- **Only then**: if the bound holds for all states and all signals of one sample, the block matrix does not increase the sum of squares. -/
theorem C86_lti_contraction_only {B M F P : Nat} (A Bm C D : Nat → Nat → Nat → ℝ) {k : Option Int} (hM : 0 < M) (hk : ∀ i, k = some i → 1 ≤ i)
    (h : ∀ (z : Nat → Nat → ℝ) (x y : Nat → Nat → Nat → ℝ) (f : Nat → Nat → ℝ),
      Lti.stateSpace (t3 B M M A) (t3 B 1 F x) (some (t3 B M F Bm)) (some (t3 B P M C)) (some (t3 B P F D)) (some (t2 B M z)) k none =
        .ok (t3 B 1 P y, some (t2 B M f)) →
      ∀ b, b < B → ∑ m ∈ Finset.range M, f b m ^ 2 + ∑ p ∈ Finset.range P, y b 0 p ^ 2 ≤
        ∑ m ∈ Finset.range M, z b m ^ 2 + ∑ j ∈ Finset.range F, x b 0 j ^ 2) (b : Nat) (hb : b < B) (v : Fin M ⊕ Fin F → ℝ) :
    (fromBlocks (mat M M (A b)) (mat M F (Bm b)) (mat P M (C b)) (mat P F (D b))) *ᵥ v ⬝ᵥ
      (fromBlocks (mat M M (A b)) (mat M F (Bm b)) (mat P M (C b)) (mat P F (D b))) *ᵥ v ≤ v ⬝ᵥ v := by
  have ext : ∀ (n : Nat) (g : Fin n → ℝ), vect n (fun i => if hi : i < n then g ⟨i, hi⟩ else 0) = g := fun n g => funext fun i => by simp [vect]
  obtain ⟨y, f, e, hy, hf⟩ := C57_markov (B := B) (N := 1) (P := P) A Bm C D
    (fun _ _ j => if hj : j < F then v (.inr ⟨j, hj⟩) else 0) (fun _ m => if hm : m < M then v (.inl ⟨m, hm⟩) else 0) hM Nat.one_pos hk
  have key := h _ _ y f e b hb
  have hy := hy b 0
  have hf := hf b
  rw [ext F (fun j => v (.inr j)), ext M (fun m => v (.inl m))] at hy
  simp only [Finset.range_one, Finset.sum_singleton, ext F (fun j => v (.inr j)), ext M (fun m => v (.inl m))] at hf
  simp only [Finset.range_zero, Finset.sum_empty, add_zero, pow_zero, one_mulVec] at hy
  simp only [pow_one, Nat.sub_self, pow_zero, Matrix.one_mul] at hf
  rw [← dot_self, ← dot_self, ← dot_self, ← dot_self, hy, hf, ext M (fun m => v (.inl m)), ext F (fun j => v (.inr j)), ← blocks_norm,
    ← sumElim_dotProduct_sumElim] at key
  have ev : (Sum.elim (fun m => v (.inl m)) fun j => v (.inr j)) = v := by funext i; cases i <;> rfl
  rwa [ev] at key

/-- **C86, `lti.state_space`, lossless systems**: if the block matrix `[[A, B], [C, D]]` is orthogonal (its columns are orthonormal), the
squares of the output and the final state sum to exactly those of the signal and the initial state. -/
theorem C86_lti_lossless {B N M F P : Nat} (A Bm C D : Nat → Nat → Nat → ℝ) (z : Nat → Nat → ℝ) (x : Nat → Nat → Nat → ℝ) {k : Option Int} (hM : 0 < M) (hN : 0 < N) (hk : ∀ i, k = some i → 1 ≤ i)
    (hU : ∀ b, b < B → (fromBlocks (mat M M (A b)) (mat M F (Bm b)) (mat P M (C b)) (mat P F (D b)))ᵀ * (fromBlocks (mat M M (A b)) (mat M F (Bm b)) (mat P M (C b)) (mat P F (D b))) = 1) :
    ∃ y f, Lti.stateSpace (t3 B M M A) (t3 B N F x) (some (t3 B M F Bm)) (some (t3 B P M C)) (some (t3 B P F D)) (some (t2 B M z)) k none =
        .ok (t3 B N P y, some (t2 B M f)) ∧
      ∀ b, b < B → ∑ m ∈ Finset.range M, f b m ^ 2 + ∑ t ∈ Finset.range N, ∑ p ∈ Finset.range P, y b t p ^ 2 =
        ∑ m ∈ Finset.range M, z b m ^ 2 + ∑ t ∈ Finset.range N, ∑ j ∈ Finset.range F, x b t j ^ 2 := by
  obtain ⟨y, f, e, h⟩ := C86_lti_contraction A Bm C D z x hM hN hk (fun b hb v => (isometry_dot (hU b hb) v).le)
  obtain ⟨y', f', e', h'⟩ := C86_lti_dissipation A Bm C D z x hM hN hk (fun _ s => -(s ⬝ᵥ s)) (fun _ w v => v ⬝ᵥ v - w ⬝ᵥ w)
    (fun b hb s w => by
      have := isometry_dot (hU b hb) (Sum.elim s w)
      rw [blocks_norm, sumElim_dotProduct_sumElim] at this
      linarith)
  have ee := Prod.mk.inj (Except.ok.inj (e.symm.trans e'))
  refine ⟨y, f, e, fun b hb => le_antisymm (h b hb) ?_⟩
  have := h' b hb
  simp only [dot_self, Finset.sum_sub_distrib] at this
  have gy : ∑ t ∈ Finset.range N, ∑ p ∈ Finset.range P, y b t p ^ 2 = ∑ t ∈ Finset.range N, ∑ p ∈ Finset.range P, y' b t p ^ 2 :=
    Finset.sum_congr rfl fun t ht => Finset.sum_congr rfl fun p hp => by
      have := congrArg (fun T : Tensor ℝ => T.get [b, t, p]) ee.1
      rw [get_t3 hb (Finset.mem_range.1 ht) (Finset.mem_range.1 hp), get_t3 hb (Finset.mem_range.1 ht) (Finset.mem_range.1 hp)] at this
      rw [this]
  have gf : ∑ m ∈ Finset.range M, f b m ^ 2 = ∑ m ∈ Finset.range M, f' b m ^ 2 :=
    Finset.sum_congr rfl fun m hm => by rw [t2_eq_iff.1 (Option.some.inj ee.2) b m hb (Finset.mem_range.1 hm)]
  linarith

/-- **C86, `lpv.state_space`**: let `V` measure the stored and `S` the supplied amount, with values in any ordered group. If no single step
stores more than is supplied, no run does. -/
theorem C86_lpv_dissipation {α R : Type} [CommRing α] [StarRing α] [AddCommGroup R] [PartialOrder R] [IsOrderedAddMonoid R] {B N M F P : Nat}
    (A Bm C D : Nat → Nat → Nat → Nat → α) (z : Nat → Nat → α) (x : Nat → Nat → Nat → α) {k : Option Int} (hB : 0 < B) (hM : 0 < M) (hN : 0 < N) (hk : FilterUnroll M N k)
    (V : Nat → Nat → (Fin M → α) → R) (S : Nat → Nat → (Fin F → α) → (Fin P → α) → R)
    (hV : ∀ b t, b < B → t < N → ∀ s w, V b (t + 1) (mat M M (A b t) *ᵥ s + mat M F (Bm b t) *ᵥ w) ≤
      V b t s + S b t w (mat P M (C b t) *ᵥ s + mat P F (D b t) *ᵥ w)) :
    ∃ y f, Lpv.stateSpace (t4 B N M M A) (t3 B N F x) (some (t4 B N M F Bm)) (some (t4 B N P M C)) (some (t4 B N P F D)) (some (t2 B M z)) k none =
        .ok (t3 B N P y, some (t2 B M f)) ∧
      ∀ b, b < B → V b N (vect M (f b)) ≤ V b 0 (vect M (z b)) + ∑ t ∈ Finset.range N, S b t (vect F (x b t)) (vect P (y b t)) := by
  obtain ⟨s, hs, e⟩ := C09_state_space_partial (B := B) (.batched A) (.batchTimeMat F Bm x) (.batchTimeMat P C) (.batchTimeMat P F D x) (.full z) hB hM hN hk
  rw [signal, Option.isSome_some, if_pos rfl] at e
  refine ⟨_, fun b => s b N, e, fun b hb => ?_⟩
  have run : ∀ n, n ≤ N → V b n (vect M (s b n)) ≤ V b 0 (vect M (z b)) + ∑ t ∈ Finset.range n, S b t (vect F (x b t))
      (vect P fun p => ∑ k ∈ Finset.range M, C b t p k * s b t k + ∑ f ∈ Finset.range F, D b t p f * x b t f) := by
    intro n
    induction n with
    | zero =>
      intro _
      rw [Finset.range_zero, Finset.sum_empty, add_zero, show s b 0 = z b from funext fun m => (hs b m).1]
    | succ t ih =>
      intro ht
      rw [Finset.sum_range_succ, ← add_assoc]
      have split : ∀ (m : Nat) (g h : Nat → α), vect m (fun i => g i + h i) = vect m g + vect m h := fun _ _ _ => rfl
      have step := hV b t hb (by omega) (vect M (s b t)) (vect F (x b t))
      rw [← vect_sum, ← vect_sum, ← vect_sum, ← vect_sum, ← split, ← split] at step
      rw [show s b (t + 1) = fun m => ∑ k ∈ Finset.range M, A b t m k * s b t k + ∑ f ∈ Finset.range F, Bm b t m f * x b t f from
        funext fun m => (hs b m).2 t]
      exact step.trans (add_le_add_left (ih (by omega)) _)
  exact run N le_rfl

/-- **C86, `lpv.state_space`, contractions**: if the block matrix `[[A, B], [C, D]]` at each time does not increase the sum of squares, the squares of
the output and the final state sum to no more than those of the signal and the initial state. -/
theorem C86_lpv_contraction {B N M F P : Nat} (A Bm C D : Nat → Nat → Nat → Nat → ℝ) (z : Nat → Nat → ℝ) (x : Nat → Nat → Nat → ℝ) {k : Option Int} (hB : 0 < B) (hM : 0 < M) (hN : 0 < N) (hk : FilterUnroll M N k)
    (hU : ∀ b t, b < B → t < N → ∀ v, (fromBlocks (mat M M (A b t)) (mat M F (Bm b t)) (mat P M (C b t)) (mat P F (D b t))) *ᵥ v ⬝ᵥ (fromBlocks (mat M M (A b t)) (mat M F (Bm b t)) (mat P M (C b t)) (mat P F (D b t))) *ᵥ v ≤ v ⬝ᵥ v) :
    ∃ y f, Lpv.stateSpace (t4 B N M M A) (t3 B N F x) (some (t4 B N M F Bm)) (some (t4 B N P M C)) (some (t4 B N P F D)) (some (t2 B M z)) k none =
        .ok (t3 B N P y, some (t2 B M f)) ∧
      ∀ b, b < B → ∑ m ∈ Finset.range M, f b m ^ 2 + ∑ t ∈ Finset.range N, ∑ p ∈ Finset.range P, y b t p ^ 2 ≤
        ∑ m ∈ Finset.range M, z b m ^ 2 + ∑ t ∈ Finset.range N, ∑ j ∈ Finset.range F, x b t j ^ 2 := by
  obtain ⟨y, f, e, h⟩ := C86_lpv_dissipation A Bm C D z x hB hM hN hk (fun _ _ s => s ⬝ᵥ s) (fun _ _ w v => w ⬝ᵥ w - v ⬝ᵥ v)
    (fun b t hb ht s w => by
      have := hU b t hb ht (Sum.elim s w)
      rw [blocks_norm, sumElim_dotProduct_sumElim] at this
      linarith)
  refine ⟨y, f, e, fun b hb => ?_⟩
  have := h b hb
  simp only [dot_self, Finset.sum_sub_distrib] at this
  linarith

/-- **C86, `lpv.state_space`, lossless systems**: if the block matrix `[[A, B], [C, D]]` at each time is orthogonal (its columns are orthonormal), the
squares of the output and the final state sum to exactly those of the signal and the initial state. -/
theorem C86_lpv_lossless {B N M F P : Nat} (A Bm C D : Nat → Nat → Nat → Nat → ℝ) (z : Nat → Nat → ℝ) (x : Nat → Nat → Nat → ℝ) {k : Option Int} (hB : 0 < B) (hM : 0 < M) (hN : 0 < N) (hk : FilterUnroll M N k)
    (hU : ∀ b t, b < B → t < N → (fromBlocks (mat M M (A b t)) (mat M F (Bm b t)) (mat P M (C b t)) (mat P F (D b t)))ᵀ * (fromBlocks (mat M M (A b t)) (mat M F (Bm b t)) (mat P M (C b t)) (mat P F (D b t))) = 1) :
    ∃ y f, Lpv.stateSpace (t4 B N M M A) (t3 B N F x) (some (t4 B N M F Bm)) (some (t4 B N P M C)) (some (t4 B N P F D)) (some (t2 B M z)) k none =
        .ok (t3 B N P y, some (t2 B M f)) ∧
      ∀ b, b < B → ∑ m ∈ Finset.range M, f b m ^ 2 + ∑ t ∈ Finset.range N, ∑ p ∈ Finset.range P, y b t p ^ 2 =
        ∑ m ∈ Finset.range M, z b m ^ 2 + ∑ t ∈ Finset.range N, ∑ j ∈ Finset.range F, x b t j ^ 2 := by
  obtain ⟨y, f, e, h⟩ := C86_lpv_contraction A Bm C D z x hB hM hN hk (fun b t hb ht v => (isometry_dot (hU b t hb ht) v).le)
  obtain ⟨y', f', e', h'⟩ := C86_lpv_dissipation A Bm C D z x hB hM hN hk (fun _ _ s => -(s ⬝ᵥ s)) (fun _ _ w v => v ⬝ᵥ v - w ⬝ᵥ w)
    (fun b t hb ht s w => by
      have := isometry_dot (hU b t hb ht) (Sum.elim s w)
      rw [blocks_norm, sumElim_dotProduct_sumElim] at this
      linarith)
  have ee := Prod.mk.inj (Except.ok.inj (e.symm.trans e'))
  refine ⟨y, f, e, fun b hb => le_antisymm (h b hb) ?_⟩
  have := h' b hb
  simp only [dot_self, Finset.sum_sub_distrib] at this
  have gy : ∑ t ∈ Finset.range N, ∑ p ∈ Finset.range P, y b t p ^ 2 = ∑ t ∈ Finset.range N, ∑ p ∈ Finset.range P, y' b t p ^ 2 :=
    Finset.sum_congr rfl fun t ht => Finset.sum_congr rfl fun p hp => by
      have := congrArg (fun T : Tensor ℝ => T.get [b, t, p]) ee.1
      rw [get_t3 hb (Finset.mem_range.1 ht) (Finset.mem_range.1 hp), get_t3 hb (Finset.mem_range.1 ht) (Finset.mem_range.1 hp)] at this
      rw [this]
  have gf : ∑ m ∈ Finset.range M, f b m ^ 2 = ∑ m ∈ Finset.range M, f' b m ^ 2 :=
    Finset.sum_congr rfl fun m hm => by rw [t2_eq_iff.1 (Option.some.inj ee.2) b m hb (Finset.mem_range.1 hm)]
  linarith

/-- The lattice section `[[0.6, 0.8], [0.8, -0.6]]`. -/
theorem lattice_orthogonal : (fromBlocks (mat 1 1 fun _ _ => (0.6 : ℝ)) (mat 1 1 fun _ _ => 0.8) (mat 1 1 fun _ _ => 0.8) (mat 1 1 fun _ _ => -0.6))ᵀ *
    fromBlocks (mat 1 1 fun _ _ => (0.6 : ℝ)) (mat 1 1 fun _ _ => 0.8) (mat 1 1 fun _ _ => 0.8) (mat 1 1 fun _ _ => -0.6) = 1 := by
  ext i j
  rcases i with i | i <;> rcases j with j | j <;> simp [Matrix.mul_apply, mat, Matrix.one_apply, Subsingleton.elim i j] <;> norm_num

example (z : Nat → Nat → ℝ) (x : Nat → Nat → Nat → ℝ) := C86_lti_lossless (B := 2) (N := 7) (M := 1) (F := 1) (P := 1) (fun _ _ _ => 0.6)
  (fun _ _ _ => 0.8) (fun _ _ _ => 0.8) (fun _ _ _ => -0.6) z x (k := none) (by decide) (by decide) (by simp) (fun _ _ => lattice_orthogonal)

example (z : Nat → Nat → ℝ) (x : Nat → Nat → Nat → ℝ) := C86_lti_contraction (B := 2) (N := 7) (M := 1) (F := 1) (P := 1) (fun _ _ _ => 0.6)
  (fun _ _ _ => 0.8) (fun _ _ _ => 0.8) (fun _ _ _ => -0.6) z x (k := some 3) (by decide) (by decide) (by simp)
  (fun _ _ v => (isometry_dot lattice_orthogonal v).le)

example (z : Nat → Nat → ℝ) (x : Nat → Nat → Nat → ℝ) := C86_lpv_lossless (B := 2) (N := 7) (M := 1) (F := 1) (P := 1) (fun _ _ _ _ => 0.6)
  (fun _ _ _ _ => 0.8) (fun _ _ _ _ => 0.8) (fun _ _ _ _ => -0.6) z x (k := some 2) (by decide) (by decide) (by decide)
  (by unfold FilterUnroll GoodUnroll FewPrimes; decide +kernel) (fun _ _ _ _ => lattice_orthogonal)

example (z : Nat → Nat → ℝ) (x : Nat → Nat → Nat → ℝ) := C86_lpv_contraction (B := 2) (N := 7) (M := 1) (F := 1) (P := 1) (fun _ _ _ _ => 0.6)
  (fun _ _ _ _ => 0.8) (fun _ _ _ _ => 0.8) (fun _ _ _ _ => -0.6) z x (k := some 2) (by decide) (by decide) (by decide)
  (by unfold FilterUnroll GoodUnroll FewPrimes; decide +kernel) (fun _ _ _ _ v => (isometry_dot lattice_orthogonal v).le)

/-- The bound holds for the lattice section. -/
example := C86_lti_contraction_only (B := 1) (M := 1) (F := 1) (P := 1) (fun _ _ _ => 0.6) (fun _ _ _ => 0.8) (fun _ _ _ => 0.8)
  (fun _ _ _ => -0.6) (k := none) (by decide) (by simp) (fun z x y f e b hb => by
    obtain ⟨y', f', e', h⟩ := C86_lti_contraction (B := 1) (N := 1) (M := 1) (F := 1) (P := 1) (fun _ _ _ => 0.6) (fun _ _ _ => 0.8)
      (fun _ _ _ => 0.8) (fun _ _ _ => -0.6) z x (k := none) (by decide) (by decide) (by simp)
      (fun _ _ v => (isometry_dot lattice_orthogonal v).le)
    have ee := Prod.mk.inj (Except.ok.inj (e.symm.trans e'))
    have ey := congrArg (fun T : Tensor ℝ => T.get [b, 0, 0]) ee.1
    rw [get_t3 hb Nat.one_pos Nat.one_pos, get_t3 hb Nat.one_pos Nat.one_pos] at ey
    have ef := t2_eq_iff.1 (Option.some.inj ee.2) b 0 hb Nat.one_pos
    simpa [ey, ef] using h b hb)

/-- The integrator `s' = s + x`, `y = s`: the stored amount is the state, the supplied amount the signal. -/
example (z : Nat → Nat → ℤ) (x : Nat → Nat → Nat → ℤ) := C86_lti_dissipation (R := ℤ) (B := 2) (N := 7) (M := 1) (F := 1) (P := 1) (fun _ _ _ => 1)
  (fun _ _ _ => 1) (fun _ _ _ => 1) (fun _ _ _ => 0) z x (k := none) (by decide) (by decide) (by simp) (fun _ s => s 0) (fun _ w _ => w 0)
  (fun _ _ s w => by simp [mat, Matrix.mulVec, dotProduct])

example (z : Nat → Nat → ℤ) (x : Nat → Nat → Nat → ℤ) := C86_lpv_dissipation (R := ℤ) (B := 2) (N := 7) (M := 1) (F := 1) (P := 1) (fun _ _ _ _ => 1)
  (fun _ t _ _ => (t : ℤ)) (fun _ _ _ _ => 1) (fun _ _ _ _ => 0) z x (k := some 2) (by decide) (by decide) (by decide)
  (by unfold FilterUnroll GoodUnroll FewPrimes; decide +kernel) (fun _ _ s => s 0) (fun _ t w _ => t * w 0)
  (fun _ _ _ _ s w => by simp [mat, Matrix.mulVec, dotProduct])

end Props
