import Verif.Proof.LtiSsm

/-!
# C05: `lti.state_space_recursion` is the plain state recursion
-/

namespace Props
open Torch Torch.Tensor Spec Phil
variable {α : Type} [CommRing α]

/-- **C05.** For a shared or per-batch state matrix, a full or scalar input, every length and every unroll factor, the
blocked algorithm returns `h[b,t] = A[b] h[b,t-1] + x[b,t]`, `h[b,-1] = zi[b]`. -/
theorem C05_state_space_recursion {B N M : Nat} {A x : Tensor α} {Av xv : Nat → Nat → Nat → α}
    (hA : MatVals B M M A Av) (hx : Drive B N M x xv) (zi : Nat → Nat → α) (u : Int)
    (hM : 0 < M) (hN : 0 < N) (hu : 1 ≤ u) :
    Lti.stateSpaceRecursion A (t2 B M zi) x u none =
      .ok (t3 B N M fun b t m => vecRec M (fun _ => Av b) (zi b) (xv b) (t + 1) m) :=
  Lti.stateSpaceRecursion_layout hA hx zi u none trivial hM hN hu

/-- The result does not depend on the unroll factor (with or without an output index). -/
theorem C05_unroll_factor_irrelevant {B N M : Nat} {A x : Tensor α} {Av xv : Nat → Nat → Nat → α}
    (hA : MatVals B M M A Av) (hx : Drive B N M x xv) (zi : Nat → Nat → α) (u u' : Int)
    (hM : 0 < M) (hN : 0 < N) (hu : 1 ≤ u) (hu' : 1 ≤ u') :
    Lti.stateSpaceRecursion A (t2 B M zi) x u none = Lti.stateSpaceRecursion A (t2 B M zi) x u' none := by
  rw [C05_state_space_recursion hA hx zi u hM hN hu, C05_state_space_recursion hA hx zi u' hM hN hu']

example := C05_unroll_factor_irrelevant (B := 2) (N := 5) (M := 2) (MatVals.batched fun b i k => (b : ℤ) + i - k)
  (Drive.full fun b t k => (b : ℤ) + t * k) (fun b k => b - k) 2 7 (by decide) (by decide) (by decide) (by decide)

/-- The defining equations of the output, without reference to `vecRec`. -/
theorem C05_equations {B N M : Nat} {A x : Tensor α} {Av xv : Nat → Nat → Nat → α}
    (hA : MatVals B M M A Av) (hx : Drive B N M x xv) (zi : Nat → Nat → α) (u : Int)
    (hM : 0 < M) (hN : 0 < N) (hu : 1 ≤ u) :
    ∃ h : Nat → Nat → Nat → α, Lti.stateSpaceRecursion A (t2 B M zi) x u none = .ok (t3 B N M h) ∧
      ∀ b i, h b 0 i = ∑ k ∈ Finset.range M, Av b i k * zi b k + xv b 0 i ∧
        ∀ t, h b (t + 1) i = ∑ k ∈ Finset.range M, Av b i k * h b t k + xv b (t + 1) i :=
  ⟨_, C05_state_space_recursion hA hx zi u hM hN hu, fun _ _ => ⟨rfl, fun _ => rfl⟩⟩

example := C05_equations (B := 2) (N := 5) (M := 2) (MatVals.batched fun b i k => (b : ℤ) + i - k)
  (Drive.full fun b t k => (b : ℤ) + t * k) (fun b k => b - k) 2 (by decide) (by decide) (by decide)

/-- An unroll factor below one is rejected, whatever the other arguments are. -/
theorem C05_rejects_unroll_factor (A zi x : Tensor α) (u : Int) (o : Option Int) (hu : u < 1) :
    Fails (Lti.stateSpaceRecursion A zi x u o) := by
  unfold Lti.stateSpaceRecursion
  rw [Lti.stateSpaceRecursionAux]
  exact fails_check fun _ => fails_check fun _ => fails_check fun _ => fails_check fun _ => fails_check fun _ =>
    fails_check fun _ => fails_check fun _ => fails_check fun _ => fails_check fun h => absurd hu h

example := C05_rejects_unroll_factor (t2 2 2 fun i k => (i : ℤ) - k) (t2 3 2 fun b k => (b : ℤ) - k) (t2 3 5 fun b t => (b : ℤ) + t) 0 none
  (by decide)

/-- Ill-shaped arguments are rejected. -/
theorem C05_rejects_shapes (A zi x : Tensor α) (u : Int) (o : Option Int)
    (h : (x.rank ≠ 2 ∧ x.rank ≠ 3) ∨ (A.rank ≠ 2 ∧ A.rank ≠ 3) ∨ A.size (-2) ≠ A.size (-1) ∨
      (A.rank = 3 ∧ x.size 0 ≠ A.size 0) ∨ (x.rank = 3 ∧ A.size (-1) ≠ x.size (-1)) ∨ zi.rank ≠ 2 ∨
      zi.size 0 ≠ x.size 0 ∨ zi.size 1 ≠ A.size (-1)) :
    Fails (Lti.stateSpaceRecursion A zi x u o) := by
  unfold Lti.stateSpaceRecursion
  rw [Lti.stateSpaceRecursionAux]
  refine fails_check fun h1 => fails_check fun h2 => fails_check fun h3 => fails_check fun h4 => fails_check fun h5 =>
    fails_check fun h6 => fails_check fun h7 => fails_check fun h8 => ?_
  exfalso
  rcases h with h | h | h | h | h | h | h | h
  · omega
  · omega
  · exact h h3
  · exact h.2 (h4 h.1)
  · exact h.2 (h5 h.1)
  · exact h h6
  · exact h h7
  · exact h h8

/-- Two matrices for three signals. -/
example := C05_rejects_shapes (t3 2 2 2 fun _ i k => (i : ℤ) - k) (t2 3 2 fun b k => (b : ℤ) - k) (t2 3 5 fun b t => (b : ℤ) + t) 2 none
  (by simp)

/-- An empty signal is rejected. -/
theorem C05_rejects_empty {B M : Nat} (A zi : Tensor α) (x : Nat → Nat → Nat → α) (u : Int) (o : Option Int) :
    Fails (Lti.stateSpaceRecursion A zi (t3 B 0 M x) u o) := by
  unfold Lti.stateSpaceRecursion
  rw [Lti.stateSpaceRecursionAux]
  refine fails_check fun _ => fails_check fun _ => fails_check fun _ => fails_check fun _ => fails_check fun _ =>
    fails_check fun _ => fails_check fun _ => fails_check fun _ => fails_check fun _ => ?_
  rw [if_pos (by simp)]
  unfold Lti.recursionLoop
  refine fails_bind fun _ _ => ?_
  rw [rank_t3, if_neg (by omega), pure_eq_ok, ok_bind, unbind_t3_1]
  split
  · exact ⟨_, rfl⟩
  · exact fails_bind fun _ _ => ⟨_, rfl⟩

/-- Non-vacuity: a shared 2×2 matrix, scalar input, five samples in blocks of two; and per-batch matrices. -/
example : Lti.stateSpaceRecursion (t2 2 2 fun i j => (i : ℤ) + 2 * j) (t2 3 2 fun b i => (b : ℤ) - i)
    (t2 3 5 fun b t => (b : ℤ) + t) 2 none =
    .ok (t3 3 5 2 fun b t m => vecRec 2 (fun _ i j => (i : ℤ) + 2 * j) (fun i => (b : ℤ) - i)
      (fun t k => if k = 0 then (b : ℤ) + t else 0) (t + 1) m) :=
  C05_state_space_recursion (MatVals.shared _) (Drive.scalar _) _ 2 (by omega) (by omega) (by omega)

example : at? (Lti.stateSpaceRecursion (t2 2 2 fun i j => (i : ℤ) + 2 * j) (t2 3 2 fun b i => (b : ℤ) - i)
    (t2 3 5 fun b t => (b : ℤ) + t) 5 none) [1, 2, 1] = some 16 := by
  decide +kernel

example : Lti.stateSpaceRecursion (t3 2 3 3 fun b i j => (b : ℤ) + i * j) (t2 2 3 fun b i => (b : ℤ) - i)
    (t3 2 7 3 fun b t k => (b : ℤ) + t * k) 3 none =
    .ok (t3 2 7 3 fun b t m => vecRec 3 (fun _ i j => (b : ℤ) + i * j) (fun i => (b : ℤ) - i)
      (fun t k => (b : ℤ) + t * k) (t + 1) m) :=
  C05_state_space_recursion (MatVals.batched _) (Drive.full _) _ 3 (by omega) (by omega) (by omega)

end Props
