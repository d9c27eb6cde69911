import Verif.Proof.MatGeneral
import Mathlib.Tactic.NormNum.Prime

/-!
# C04: `matrices_cumdot`

Full claim: for every `P ≥ 1` the result is `[A₀, A₀A₁, …, A₀⋯A_{P-1}]`.  The code satisfies it exactly when `P` is one
or a prime (`C04_exact`, for matrices of size at least two over any non-trivial ring), and for commuting matrices
exactly when `P` has at most two prime factors (`C04_exact_commuting`).
-/

namespace Props
open Torch Torch.Tensor Phil.Mat
variable {α : Type} [CommRing α]

/-- **C04** for a sequence of one or of a prime number of matrices.  Missing: composite lengths, where the code is
wrong (see below). -/
theorem C04_cumdot_partial {P M : Nat} (A : Nat → Matrix (Fin M) (Fin M) α) (hP : P.Prime ∨ P = 1) :
    matricesCumdot (t3 P M M fun k => fm (A k)) = .ok (t3 P M M fun k => fm ((List.range (k + 1)).map A).prod) :=
  cumdot_t3 A hP

/-- **C04** with one batch axis. -/
theorem C04_cumdot_batched_partial {B P M : Nat} (A : Nat → Nat → Matrix (Fin M) (Fin M) α) (hP : P.Prime ∨ P = 1) :
    matricesCumdot (t4 B P M M fun b k => fm (A b k)) =
      .ok (t4 B P M M fun b k => fm ((List.range (k + 1)).map (A b)).prod) :=
  cumdot_t4 A hP

example := C04_cumdot_batched_partial (B := 2) (P := 5) (M := 2) (fun b k => !![(b : ℤ), k; 1, 0]) (Or.inl (by decide))

/-- **C04** with two batch axes. -/
theorem C04_cumdot_batched2_partial {B K P M : Nat} (A : Nat → Nat → Nat → Matrix (Fin M) (Fin M) α)
    (hP : P.Prime ∨ P = 1) :
    matricesCumdot (t5 B K P M M fun b c k => fm (A b c k)) =
      .ok (t5 B K P M M fun b c k => fm ((List.range (k + 1)).map (A b c)).prod) :=
  cumdot_t5 A hP

example := C04_cumdot_batched2_partial (B := 2) (K := 3) (P := 5) (M := 2) (fun b c k => !![(b : ℤ), k; c, 0]) (Or.inl (by decide))

/-- **C04** with any number of leading axes: `tmat s M f` is the tensor of shape `s ++ [M, M]` whose matrix at the
leading index `l` is `f l`. -/
theorem C04_cumdot_any_batch_partial (lead : List Nat) {P M : Nat} (hP : P.Prime ∨ P = 1) (f : List Nat → Matrix (Fin M) (Fin M) α) :
    matricesCumdot (tmat (lead ++ [P]) M f) = .ok (tmat (lead ++ [P]) M fun l =>
      ((List.range (l.getD lead.length 0 + 1)).map fun k => f (l.take lead.length ++ [k])).prod) :=
  cumdot_tmat_prime lead hP f

/-- **C04** for a length with two prime factors, with any number of leading axes, when the matrices of each sequence
commute.  Missing: matrices that do not commute, and three or more prime factors, where the code is wrong. -/
theorem C04_commuting_any_batch_partial (lead : List Nat) {P M : Nat} (hP : P.primeFactorsList.length = 2)
    (f : List Nat → Matrix (Fin M) (Fin M) α)
    (hc : ∀ l i j, inB l lead = true → i < P → j < P → Commute (f (l ++ [i])) (f (l ++ [j]))) :
    matricesCumdot (tmat (lead ++ [P]) M f) = .ok (tmat (lead ++ [P]) M fun l =>
      ((List.range (l.getD lead.length 0 + 1)).map fun k => f (l.take lead.length ++ [k])).prod) := by
  obtain ⟨q, n, hf⟩ := List.length_eq_two.1 hP
  exact cumdot_tmat_semiprime lead hf f hc

/-- Powers of one matrix. -/
example := C04_commuting_any_batch_partial [2, 3] (P := 6) (M := 2) (by decide +kernel)
  (fun l => !![(2 : ℤ), 1; 1, 0] ^ (l.getD 0 0 + l.getD 2 0)) (fun _ _ _ _ _ _ => Commute.pow_pow_self _ _ _)

/-- **What the code computes at the smallest prime factor `q` of a composite length**: `A_q (A_0 ⋯ A_{q-1})`, the
factors in the wrong order. -/
theorem C04_misordered {P M : Nat} (h2 : 2 ≤ P) (hP : ¬ P.Prime) (A B : Nat → Matrix (Fin M) (Fin M) α)
    (h : matricesCumdot (t3 P M M fun k => fm (A k)) = .ok (t3 P M M fun k => fm (B k))) :
    B P.minFac = A P.minFac * ((List.range P.minFac).map A).prod := by
  obtain ⟨k, rfl⟩ : ∃ k, P = k + 2 := ⟨P - 2, by omega⟩
  have hf : (k + 2).primeFactorsList = (k + 2).minFac :: ((k + 2) / (k + 2).minFac).primeFactorsList := by rw [Nat.primeFactorsList]
  have hne : ((k + 2) / (k + 2).minFac).primeFactorsList ≠ [] := by
    intro h0
    rw [Nat.primeFactorsList_eq_nil] at h0
    have h1 := Nat.div_mul_cancel (Nat.minFac_dvd (k + 2))
    rcases h0 with h0 | h0
    · rw [h0] at h1; omega
    · rw [h0, Nat.one_mul] at h1
      exact hP (h1 ▸ Nat.minFac_prime (by omega))
  obtain ⟨n, rs, hn⟩ := List.exists_cons_of_ne_nil hne
  exact cumdot_second (hf.trans (by rw [hn])) h

example (B : Nat → Matrix (Fin 2) (Fin 2) ℤ) := C04_misordered (P := 4) (by decide) (by decide) (fun k => !![(k : ℤ), 1; 1, 0]) B

/-- **C04, exactly**: over a non-trivial ring and for matrices of size at least two, `matrices_cumdot` is right for
every sequence of `P ≥ 1` matrices if and only if `P` is one or a prime. -/
theorem C04_exact [Nontrivial α] {P M : Nat} (hM : 2 ≤ M) (hP : 1 ≤ P) :
    (∀ A : Nat → Matrix (Fin M) (Fin M) α,
      matricesCumdot (t3 P M M fun k => fm (A k)) = .ok (t3 P M M fun k => fm ((List.range (k + 1)).map A).prod)) ↔
      P.Prime ∨ P = 1 := by
  refine ⟨fun h => ?_, fun h A => C04_cumdot_partial A h⟩
  by_contra hc
  have h2 : 2 ≤ P := by omega
  have hp : ¬ P.Prime := fun h => hc (Or.inl h)
  have hq2 : 2 ≤ P.minFac := (Nat.minFac_prime (by omega)).two_le
  let e0 : Fin M := ⟨0, by omega⟩
  let e1 : Fin M := ⟨1, by omega⟩
  have he : e0 ≠ e1 := by simp [e0, e1]
  let A : Nat → Matrix (Fin M) (Fin M) α := fun k =>
    if k = 0 then Matrix.single e0 e1 1 else if k = P.minFac then Matrix.single e1 e0 1 else 1
  have hA0 : ∀ n, n < P.minFac → ((List.range (n + 1)).map A).prod = Matrix.single e0 e1 1 := by
    intro n
    induction n with
    | zero => intro _; simp [A]
    | succ n ih =>
      intro hn
      rw [prod_range_succ_list A (n + 1), ih (by omega)]
      simp only [A]
      rw [if_neg (by omega), if_neg (by omega), mul_one]
  have hAq : A P.minFac = Matrix.single e1 e0 1 := by
    simp only [A]
    rw [if_neg (by omega), if_pos trivial]
  have key := C04_misordered h2 hp A _ (h A)
  obtain ⟨m, hm⟩ : ∃ m, P.minFac = m + 1 := ⟨P.minFac - 1, by omega⟩
  have hpre := hA0 m (by omega)
  rw [← hm] at hpre
  rw [prod_range_succ_list A, hpre, hAq, Matrix.single_mul_single_same, Matrix.single_mul_single_same] at key
  have := congrFun (congrFun key e0) e0
  rw [Matrix.single_apply_same, Matrix.single_apply_of_ne _ _ _ _ _ (fun h => he h.1.symm)] at this
  simp at this

example := C04_exact (α := ℤ) (P := 4) (M := 2) (by decide) (by decide)

/-- **C04, exactly, for commuting matrices**: over a non-trivial ring and for matrices of size at least one (in
particular for 1×1 matrices, i.e. `cumprod`), `matrices_cumdot` is right for every sequence of `P ≥ 1` commuting
matrices if and only if `P` has at most two prime factors (counted with multiplicity). -/
theorem C04_exact_commuting [Nontrivial α] {P M : Nat} (hM : 1 ≤ M) (hP : 1 ≤ P) :
    (∀ A : Nat → Matrix (Fin M) (Fin M) α, (∀ i j, Commute (A i) (A j)) →
      matricesCumdot (t3 P M M fun k => fm (A k)) = .ok (t3 P M M fun k => fm ((List.range (k + 1)).map A).prod)) ↔
      P.primeFactorsList.length ≤ 2 := by
  constructor
  · intro h
    by_contra hc
    obtain ⟨q, n, n', rs, hf⟩ : ∃ q n n' rs, P.primeFactorsList = q :: n :: n' :: rs := by
      match hl : P.primeFactorsList with
      | [] => rw [hl] at hc; simp at hc
      | [_] => rw [hl] at hc; simp at hc
      | [_, _] => rw [hl] at hc; simp at hc
      | q :: n :: n' :: rs => exact ⟨q, n, n', rs, rfl⟩
    have hpr : ∀ x ∈ q :: n :: n' :: rs, x.Prime := fun x hx => Nat.prime_of_mem_primeFactorsList (n := P) (hf ▸ hx)
    have hpos : 0 < n * q := Nat.mul_pos (hpr n (by simp)).pos (hpr q (by simp)).pos
    let A : Nat → Matrix (Fin M) (Fin M) α := fun k => if k = 0 then 0 else 1
    have hcomm : ∀ i j, Commute (A i) (A j) := by
      intro i j
      simp only [A]
      by_cases hi : i = 0
      · rw [if_pos hi]; exact Commute.zero_left _
      · rw [if_neg hi]; exact Commute.one_left _
    have key := cumdot_third hf (h A hcomm)
    have h0 : ∀ k, ((List.range (k + 1)).map A).prod = 0 := by
      intro k
      induction k with
      | zero => simp [A]
      | succ k ih => rw [prod_range_succ_list A (k + 1), ih, zero_mul]
    simp only [h0, A] at key
    rw [if_neg (by omega)] at key
    have := congrFun (congrFun key ⟨0, hM⟩) ⟨0, hM⟩
    simp at this
  · intro h A hc
    rcases Nat.lt_or_ge P.primeFactorsList.length 2 with h2 | h2
    · refine C04_cumdot_partial A ?_
      rcases Nat.eq_zero_or_pos P.primeFactorsList.length with h0 | h0
      · have := (Nat.primeFactorsList_eq_nil P).1 (List.length_eq_zero_iff.1 h0)
        exact Or.inr (by omega)
      · obtain ⟨p, hp⟩ := List.length_eq_one_iff.1 (by omega : P.primeFactorsList.length = 1)
        refine Or.inl ?_
        have h1 := Nat.prod_primeFactorsList (n := P) (by omega)
        rw [hp, List.prod_singleton] at h1
        rw [← h1]
        exact Nat.prime_of_mem_primeFactorsList (n := P) (hp ▸ by simp)
    · rw [t3_tmat, t3_tmat]
      exact C04_commuting_any_batch_partial [] (by omega) (fun l => A (l.getD 0 0)) fun l i j hl _ _ => hc _ _

/-- Four 2×2 matrices over `ℤ` (elementary, so products record the order of the factors). -/
def cumdotWitness4 (k : Nat) : Matrix (Fin 2) (Fin 2) ℤ :=
  if k = 0 then !![1, 1; 0, 1] else if k = 1 then !![1, 0; 1, 1] else if k = 2 then !![2, 0; 0, 1] else !![1, 0; 0, 1]

/-- **C04 is false for `P = 4`**: the third product comes out as `A₂A₀A₁` instead of `A₀A₁A₂`. -/
theorem C04_wrong_at_four :
    matricesCumdot (t3 4 2 2 fun k => fm (cumdotWitness4 k)) ≠
      .ok (t3 4 2 2 fun k => fm ((List.range (k + 1)).map cumdotWitness4).prod) := by
  intro h
  have h2 := congrArg (fun r => at? r [2, 0, 1]) h
  revert h2
  decide +kernel

/-- **C04 is false for `P = 8`** even for 1×1 (hence commuting) matrices: entry 4 lacks the first two factors. -/
theorem C04_wrong_at_eight :
    matricesCumdot (t3 8 1 1 fun _ => fm !![(2 : ℤ)]) ≠
      .ok (t3 8 1 1 fun k => fm ((List.range (k + 1)).map fun _ => !![(2 : ℤ)]).prod) := by
  intro h
  have h2 := congrArg (fun r => at? r [4, 0, 0]) h
  revert h2
  decide +kernel

/-- Non-vacuity: five matrices. -/
example : matricesCumdot (t3 5 2 2 fun k => fm (cumdotWitness4 k)) =
    .ok (t3 5 2 2 fun k => fm ((List.range (k + 1)).map cumdotWitness4).prod) :=
  C04_cumdot_partial _ (Or.inl (by norm_num))

/-- Non-vacuity: six commuting matrices (diagonal), and a batch of shape (2, 3) of five matrices. -/
example : matricesCumdot (t3 6 2 2 fun k => fm !![(k : ℤ) + 1, 0; 0, 2]) =
    .ok (t3 6 2 2 fun k => fm ((List.range (k + 1)).map fun k : Nat => !![(k : ℤ) + 1, 0; 0, 2]).prod) := by
  refine (C04_exact_commuting (P := 6) (M := 2) (by omega) (by omega)).2 ?_ (fun k => !![(k : ℤ) + 1, 0; 0, 2]) fun i j => ?_
  · rw [← factorint_eq]; decide
  · rw [commute_iff_eq, Matrix.mul_fin_two, Matrix.mul_fin_two]
    ext a b
    fin_cases a <;> fin_cases b <;> simp [mul_comm]

example : matricesCumdot (tmat ([2, 3] ++ [5]) 2 fun l => !![(l.sum : ℤ), 1; 0, 2]) = .ok (tmat ([2, 3] ++ [5]) 2 fun l =>
    ((List.range (l.getD 2 0 + 1)).map fun k => !![((l.take 2 ++ [k]).sum : ℤ), 1; 0, 2]).prod) :=
  C04_cumdot_any_batch_partial [2, 3] (Or.inl (by norm_num)) _

end Props
