import Verif.Proof.LpvSsmExact

/-!
# C07: `lpv.state_space_recursion` is the plain time-varying recursion

Full claim: for every unroll factor `u ≥ 1`, `h[b,t] = A[b,t] h[b,t-1] + x[b,t]`.  The blocked path uses
`matrices_cumdot` on `u - 1` matrices, which is wrong for composite lengths (C04).  `C07_exact` shows that the code is right
for all matrices of size `M ≥ 2`, all initial states and all inputs if and only if `u ≤ 2`, `u ≥ N` or `u - 1` is prime;
`C07_exact_commuting` that for matrices that commute with each other (in particular `M = 1`) the condition is `u ≤ 2`,
`u ≥ N` or `u - 1` a product of at most two primes.  `u = 5` and `u = 9` are concrete counterexamples.
-/

namespace Props
open Torch Torch.Tensor Spec Phil
variable {α : Type} [CommRing α]

theorem commute_mat {M : Nat} {F G : Nat → Nat → α} (h : ∀ i j, i < M → j < M →
    ∑ k ∈ Finset.range M, F i k * G k j = ∑ k ∈ Finset.range M, G i k * F k j) : Commute (mat M M F) (mat M M G) := by
  ext i j
  have := h i j i.2 j.2
  rw [Finset.sum_range, Finset.sum_range] at this
  simpa [Matrix.mul_apply, mat] using this

theorem sum_of_commute {M : Nat} {F G : Matrix (Fin M) (Fin M) α} (h : Commute F G) {i j : Nat} (hi : i < M) (hj : j < M) :
    ∑ k ∈ Finset.range M, fm F i k * fm G k j = ∑ k ∈ Finset.range M, fm G i k * fm F k j := by
  have := congrFun (congrFun h ⟨i, hi⟩) ⟨j, hj⟩
  rw [Finset.sum_range, Finset.sum_range]
  simpa [Matrix.mul_apply, fm, hi, hj] using this

/-- **C07**, for the unroll factors the code handles correctly.  Missing: `2 < u < N` with `u - 1` composite, where
the code is wrong (see below). -/
theorem C07_state_space_recursion_partial {B N M : Nat} {A x : Tensor α} {Av : Nat → Nat → Nat → Nat → α}
    {xv : Nat → Nat → Nat → α} (hA : MatSeq B N M M A Av) (hx : Drive B N M x xv) (zi : Nat → Nat → α) (u : Int)
    (hB : 0 < B) (hM : 0 < M) (hN : 0 < N) (hu : 1 ≤ u) (hP : u ≤ 2 ∨ (N : Int) ≤ u ∨ (u.toNat - 1).Prime) :
    Lpv.stateSpaceRecursion A (t2 B M zi) x u none =
      .ok (t3 B N M fun b t m => vecRec M (Av b) (zi b) (xv b) (t + 1) m) :=
  Lpv.stateSpaceRecursion_layout hA hx zi u none trivial hB hM hN hu hP

/-- The defining equations of the output. -/
theorem C07_equations_partial {B N M : Nat} {A x : Tensor α} {Av : Nat → Nat → Nat → Nat → α}
    {xv : Nat → Nat → Nat → α} (hA : MatSeq B N M M A Av) (hx : Drive B N M x xv) (zi : Nat → Nat → α) (u : Int)
    (hB : 0 < B) (hM : 0 < M) (hN : 0 < N) (hu : 1 ≤ u) (hP : u ≤ 2 ∨ (N : Int) ≤ u ∨ (u.toNat - 1).Prime) :
    ∃ h : Nat → Nat → Nat → α, Lpv.stateSpaceRecursion A (t2 B M zi) x u none = .ok (t3 B N M h) ∧
      ∀ b i, h b 0 i = ∑ k ∈ Finset.range M, Av b 0 i k * zi b k + xv b 0 i ∧
        ∀ t, h b (t + 1) i = ∑ k ∈ Finset.range M, Av b (t + 1) i k * h b t k + xv b (t + 1) i :=
  ⟨_, C07_state_space_recursion_partial hA hx zi u hB hM hN hu hP, fun _ _ => ⟨rfl, fun _ => rfl⟩⟩

example := C07_equations_partial (B := 2) (N := 9) (M := 2) (MatSeq.batched fun b t i k => (b : ℤ) + i * t - k)
  (Drive.scalar fun b t => (b : ℤ) + t) (fun b k => b - k) 4 (by decide) (by decide) (by decide) (by decide)
  (Or.inr (Or.inr (by decide)))

/-- **C07 for matrices that commute with each other** (`M = 1`, constant, diagonal, … matrices): `u - 1` may also be a
product of two primes. -/
theorem C07_commuting_partial {B N M : Nat} {A x : Tensor α} {Av : Nat → Nat → Nat → Nat → α} {xv : Nat → Nat → Nat → α}
    (hA : MatSeq B N M M A Av) (hx : Drive B N M x xv) (zi : Nat → Nat → α) (u : Int) (hB : 0 < B) (hM : 0 < M)
    (hN : 0 < N) (hu : 1 ≤ u)
    (hc : ∀ b s t i j, s < N → t < N → i < M → j < M →
      ∑ k ∈ Finset.range M, Av b s i k * Av b t k j = ∑ k ∈ Finset.range M, Av b t i k * Av b s k j)
    (hP : u ≤ 2 ∨ (N : Int) ≤ u ∨ (u.toNat - 1).primeFactorsList.length ≤ 2) :
    Lpv.stateSpaceRecursion A (t2 B M zi) x u none =
      .ok (t3 B N M fun b t m => vecRec M (Av b) (zi b) (xv b) (t + 1) m) :=
  Lpv.stateSpaceRecursion_layout_commuting hA hx zi u none trivial hB hM hN hu
    (fun b i j hi hj => commute_mat (hc b i j · · hi hj)) hP

/-- **The exact condition on the unroll factor** (matrices of size at least two). -/
theorem C07_exact [Nontrivial α] {B N M : Nat} (u : Int) (hB : 0 < B) (hM : 2 ≤ M) (hN : 0 < N) (hu : 1 ≤ u) :
    (∀ (A : Nat → Nat → Nat → Nat → α) (zi : Nat → Nat → α) (x : Nat → Nat → Nat → α),
        Lpv.stateSpaceRecursion (t4 B N M M A) (t2 B M zi) (t3 B N M x) u none =
          .ok (t3 B N M fun b t m => vecRec M (A b) (zi b) (x b) (t + 1) m)) ↔
      u ≤ 2 ∨ (N : Int) ≤ u ∨ (u.toNat - 1).Prime := by
  refine ⟨fun h => ?_, fun hP A zi x => C07_state_space_recursion_partial (MatSeq.batched A) (Drive.full x) zi u hB (by omega)
    hN hu hP⟩
  by_contra hc
  push Not at hc
  lift u to ℕ using by omega
  obtain ⟨F, x, hw⟩ := Lpv.wrong_composite (α := α) (u := u) (by omega) (by simpa using hc.2.2) true true (B := B) (N := N) (M := M)
    hB hM (by omega)
  exact hw (h _ _ _)

example := C07_exact (α := ℤ) (B := 2) (N := 9) (M := 3) 5 (by decide) (by decide) (by decide) (by decide)

/-- The same for matrices shared by the batch and a scalar input. -/
theorem C07_exact_shared [Nontrivial α] {B N M : Nat} (u : Int) (hB : 0 < B) (hM : 2 ≤ M) (hN : 0 < N) (hu : 1 ≤ u) :
    (∀ (A : Nat → Nat → Nat → α) (zi : Nat → Nat → α) (x : Nat → Nat → α),
        Lpv.stateSpaceRecursion (t3 N M M A) (t2 B M zi) (t2 B N x) u none =
          .ok (t3 B N M fun b t m => vecRec M A (zi b) (fun t k => if k = 0 then x b t else 0) (t + 1) m)) ↔
      u ≤ 2 ∨ (N : Int) ≤ u ∨ (u.toNat - 1).Prime := by
  refine ⟨fun h => ?_, fun hP A zi x => C07_state_space_recursion_partial (MatSeq.shared A) (Drive.scalar x) zi u hB (by omega)
    hN hu hP⟩
  by_contra hc
  push Not at hc
  lift u to ℕ using by omega
  obtain ⟨F, x, hw⟩ := Lpv.wrong_composite (α := α) (u := u) (by omega) (by simpa using hc.2.2) false false (B := B) (N := N) (M := M)
    hB hM (by omega)
  exact hw (h _ _ fun b t => x b t 0)

example := C07_exact_shared (α := ℤ) (B := 2) (N := 9) (M := 3) 5 (by decide) (by decide) (by decide) (by decide)

/-- **The exact condition for commuting matrices**, of any size. -/
theorem C07_exact_commuting [Nontrivial α] {B N M : Nat} (u : Int) (hB : 0 < B) (hM : 0 < M) (hN : 0 < N) (hu : 1 ≤ u) :
    (∀ (A : Nat → Nat → Nat → Nat → α) (zi : Nat → Nat → α) (x : Nat → Nat → Nat → α),
        (∀ b s t i j, s < N → t < N → i < M → j < M →
          ∑ k ∈ Finset.range M, A b s i k * A b t k j = ∑ k ∈ Finset.range M, A b t i k * A b s k j) →
        Lpv.stateSpaceRecursion (t4 B N M M A) (t2 B M zi) (t3 B N M x) u none =
          .ok (t3 B N M fun b t m => vecRec M (A b) (zi b) (x b) (t + 1) m)) ↔
      u ≤ 2 ∨ (N : Int) ≤ u ∨ (u.toNat - 1).primeFactorsList.length ≤ 2 := by
  refine ⟨fun h => ?_, fun hP A zi x hc => C07_commuting_partial (MatSeq.batched A) (Drive.full x) zi u hB hM hN hu hc hP⟩
  by_contra hc
  push Not at hc
  lift u to ℕ using by omega
  have h3 := hc.2.2
  rw [Int.toNat_natCast] at h3
  obtain ⟨F, x, hF, hw⟩ := Lpv.wrong_three (α := α) (u := u) (by omega) (by omega) true true (B := B) (N := N) (M := M)
    hB hM (by omega)
  exact hw (h _ _ _ fun b s t i j _ _ hi hj => sum_of_commute (hF s t) hi hj)

example := C07_exact_commuting (α := ℤ) (B := 2) (N := 20) (M := 3) 9 (by decide) (by decide) (by decide) (by decide)

/-- Non-vacuity: a one-dimensional time-varying state with `u = 7`, `u - 1 = 2 · 3`. -/
example : Lpv.stateSpaceRecursion (t3 20 1 1 fun t _ _ => (t : ℤ)) (t2 2 1 fun b _ => (b : ℤ)) (t2 2 20 fun b t => (b : ℤ) - t) 7
    none = .ok (t3 2 20 1 fun b t m => vecRec 1 (fun t _ _ => (t : ℤ)) (fun _ => (b : ℤ))
      (fun t k => if k = 0 then (b : ℤ) - t else 0) (t + 1) m) :=
  C07_commuting_partial (MatSeq.shared _) (Drive.scalar _) _ 7 (by omega) (by omega) (by omega) (by omega)
    (fun b s t i j _ _ _ _ => by rw [Finset.sum_range_one, Finset.sum_range_one, mul_comm])
    (Or.inr (Or.inr (by rw [← Phil.Mat.factorint_eq]; decide)))

/-- State matrices for the counterexample: elementary 2×2 integer matrices that do not commute. -/
def lpvWitness (t i j : Nat) : ℤ :=
  if t = 2 then (if i ≤ j then 1 else 0) else if t = 3 then (if j ≤ i then 1 else 0)
  else if i = j then (if t = 4 ∧ i = 0 then 2 else 1) else 0

/-- **C07 is false at `u = 5`** for 2×2 matrices: the fifth state has first component 14 instead of 13. -/
theorem C07_wrong_at_five :
    Lpv.stateSpaceRecursion (t3 6 2 2 lpvWitness) (t2 1 2 fun _ _ => 1) (t2 1 6 fun _ _ => 1) 5 none ≠
      .ok (t3 1 6 2 fun _ t m => vecRec 2 lpvWitness (fun _ => 1) (fun _ k => if k = 0 then 1 else 0) (t + 1) m) := by
  intro h
  have h2 := congrArg (fun r => at? r [0, 4, 0]) h
  revert h2
  decide +kernel

/-- **C07 is false at `u = 9`** even for a one-dimensional state with the constant matrix `[2]`. -/
theorem C07_wrong_at_nine :
    Lpv.stateSpaceRecursion (t3 10 1 1 fun _ _ _ => (2 : ℤ)) (t2 1 1 fun _ _ => 1) (t2 1 10 fun _ _ => 1) 9 none ≠
      .ok (t3 1 10 1 fun _ t m => vecRec 1 (fun _ _ _ => (2 : ℤ)) (fun _ => 1) (fun _ k => if k = 0 then 1 else 0)
        (t + 1) m) := by
  intro h
  have h2 := congrArg (fun r => at? r [0, 8, 0]) h
  revert h2
  decide +kernel

/-- An unroll factor below one is rejected, whatever the other arguments are. -/
theorem C07_rejects_unroll_factor (A zi x : Tensor α) (u : Int) (o : Option Int) (hu : u < 1) :
    Fails (Lpv.stateSpaceRecursion A zi x u o) := by
  unfold Lpv.stateSpaceRecursion
  rw [Lpv.stateSpaceRecursionAux]
  exact fails_check fun _ => fails_check fun _ => fails_check fun _ => fails_check fun _ => fails_check fun _ =>
    fails_check fun _ => fails_check fun _ => fails_check fun _ => fails_check fun _ => fails_check fun h => absurd hu h

example := C07_rejects_unroll_factor (t3 5 2 2 fun t i k => (t : ℤ) + i - k) (t2 3 2 fun b k => (b : ℤ) - k) (t2 3 5 fun b t => (b : ℤ) + t) 0
  none (by decide)

/-- Ill-shaped arguments are rejected. -/
theorem C07_rejects_shapes (A zi x : Tensor α) (u : Int) (o : Option Int)
    (h : (x.rank ≠ 2 ∧ x.rank ≠ 3) ∨ (A.rank ≠ 3 ∧ A.rank ≠ 4) ∨ A.size (-2) ≠ A.size (-1) ∨ A.size (-3) ≠ x.size 1 ∨
      (A.rank = 4 ∧ x.size 0 ≠ A.size 0) ∨ (x.rank = 3 ∧ A.size (-1) ≠ x.size (-1)) ∨ zi.rank ≠ 2 ∨
      zi.size 0 ≠ x.size 0 ∨ zi.size 1 ≠ A.size (-1)) :
    Fails (Lpv.stateSpaceRecursion A zi x u o) := by
  unfold Lpv.stateSpaceRecursion
  rw [Lpv.stateSpaceRecursionAux]
  refine fails_check fun h1 => fails_check fun h2 => fails_check fun h3 => fails_check fun h4 => fails_check fun h5 =>
    fails_check fun h6 => fails_check fun h7 => fails_check fun h8 => fails_check fun h9 => ?_
  exfalso
  rcases h with h | h | h | h | h | h | h | h | h
  · omega
  · omega
  · exact h h3
  · exact h h4
  · exact h.2 (h5 h.1)
  · exact h.2 (h6 h.1)
  · exact h h7
  · exact h h8
  · exact h h9

/-- Four matrices for five time steps. -/
example := C07_rejects_shapes (t3 4 2 2 fun t i k => (t : ℤ) + i - k) (t2 3 2 fun b k => (b : ℤ) - k) (t2 3 5 fun b t => (b : ℤ) + t) 2 none
  (by simp)

/-- Non-vacuity: shared time-varying matrices, scalar input, seven samples in blocks of three; per-batch matrices in
blocks of four. -/
example : Lpv.stateSpaceRecursion (t3 7 2 2 lpvWitness) (t2 3 2 fun b i => (b : ℤ) - i) (t2 3 7 fun b t => (b : ℤ) + t) 3
    none = .ok (t3 3 7 2 fun b t m => vecRec 2 lpvWitness (fun i => (b : ℤ) - i)
      (fun t k => if k = 0 then (b : ℤ) + t else 0) (t + 1) m) :=
  C07_state_space_recursion_partial (MatSeq.shared _) (Drive.scalar _) _ 3 (by omega) (by omega) (by omega) (by omega)
    (Or.inr (Or.inr (by decide)))

example : Lpv.stateSpaceRecursion (t4 2 9 3 3 fun b t i j => (b : ℤ) + t * i + j) (t2 2 3 fun b i => (b : ℤ) - i)
    (t3 2 9 3 fun b t k => (b : ℤ) + t * k) 4 none =
    .ok (t3 2 9 3 fun b t m => vecRec 3 (fun t i j => (b : ℤ) + t * i + j) (fun i => (b : ℤ) - i)
      (fun t k => (b : ℤ) + t * k) (t + 1) m) :=
  C07_state_space_recursion_partial (MatSeq.batched _) (Drive.full _) _ 4 (by omega) (by omega) (by omega) (by omega)
    (Or.inr (Or.inr (by decide)))

end Props
