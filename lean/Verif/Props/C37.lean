import Verif.Props.C36

/-!
# C37: derivatives of the time-varying matrix recurrence

As C36, for `recurN` (`f`), `recur2` (`op2`, used by the rule for state dimension 2) and `MatrixRecurrence`.  `dVecRec` is the
derivative (`C36_tangent`).

Partial: the backward rule needs at least one sample if the gradient of `zi` is needed (`C37_empty_fails`).
-/

namespace Props
open Torch Torch.Tensor Spec Phil Phil.Grad Phil.Host Omp

variable {α : Type} [CommRing α] [StarRing α] {f op2 : Op α} {B N M : Nat}

omit [StarRing α] in
theorem isVaryingOp_ite (hf : IsVaryingOp M f) (h2 : M = 2 → IsVaryingOp 2 op2) : IsVaryingOp M (if M ≠ 2 then f else op2) := by
  split
  · exact hf
  · rename_i h
    obtain rfl : M = 2 := not_not.1 h
    exact h2 rfl

theorem seqAdj_coeff {N s : Nat} (hs : 0 < s) (hN : s < N) : (N - 1 - s + 1) % N = N - s := by
  rw [show N - 1 - s + 1 = N - s by omega, Nat.mod_eq_of_lt (by omega)]

/-- **C37, one sequence of matrices for the whole batch**, shape `(N, M, M)`. -/
theorem C37_backward_shared_partial (hf : IsVaryingOp M f) (h2 : M = 2 → IsVaryingOp 2 op2) (hN : 0 < N)
    (A : Nat → Nat → Nat → α) (zi : Nat → Nat → α) (x g : Nat → Nat → Nat → α) :
    ∃ (y : Tensor α) (gA : Nat → Nat → Nat → α) (gz : Nat → Nat → α) (gx : Nat → Nat → Nat → α),
      f (t3 N M M A) (t2 B M zi) (t3 B N M x) = .ok y ∧
      (∀ nA nz nx : Bool, recurNBackward f op2 (nA, nz, nx) (t3 N M M A) (t2 B M zi) y (t3 B N M g) =
        .ok (if nA then some (t3 N M M gA) else none, if nz then some (t2 B M gz) else none,
          if nx then some (t3 B N M gx) else none)) ∧
      ∀ (dA : Nat → Nat → Nat → α) (dz : Nat → Nat → α) (dx : Nat → Nat → Nat → α),
        ip3 B N M g (fun b n => dVecRec M A dA (zi b) (dz b) (x b) (dx b) (n + 1)) =
          ip3 N M M gA dA + ip2 B M gz dz + ip3 B N M gx dx := by
  refine ⟨_, fun n i k => ∑ b ∈ Finset.range B, seqAdj N M A (g b) n i * star (vecRec M A (zi b) (x b) n k), _, _,
    hf B N _ _ zi x (.shared A), fun nA nz nx =>
    recurNBackward_eq (isVaryingOp_ite hf h2) (nA, nz, nx) hN (.shared A) zi x g, fun dA dz dx => ?_⟩
  rw [vec_grad B N M (fun _ => A) (fun _ => dA) zi dz x dx g (fun _ s i k => star (A ((N - 1 - s + 1) % N) k i))
    (fun _ s h1 h2 _ _ _ _ => by rw [seqAdj_coeff h1 h2]), ip4_shared]
  rfl

example := C37_backward_shared_partial (B := 3) (N := 7) (M := 2) (recurNCpu_isVaryingOp C38_alternating_case 2)
  (fun _ => recurNCpu_isVaryingOp sequential_isScheduler 2) (by decide) (fun i t k => (i : ℤ) + t * k) (fun i t => (i : ℤ) - t)
  (fun i t k => (i : ℤ) + t * k) (fun i t k => (i : ℤ) - t * k)

/-- **C37, one sequence of matrices per batch item**, shape `(B, N, M, M)`. -/
theorem C37_backward_batched_partial (hf : IsVaryingOp M f) (h2 : M = 2 → IsVaryingOp 2 op2) (hN : 0 < N)
    (A : Nat → Nat → Nat → Nat → α) (zi : Nat → Nat → α) (x g : Nat → Nat → Nat → α) :
    ∃ (y : Tensor α) (gA : Nat → Nat → Nat → Nat → α) (gz : Nat → Nat → α) (gx : Nat → Nat → Nat → α),
      f (t4 B N M M A) (t2 B M zi) (t3 B N M x) = .ok y ∧
      (∀ nA nz nx : Bool, recurNBackward f op2 (nA, nz, nx) (t4 B N M M A) (t2 B M zi) y (t3 B N M g) =
        .ok (if nA then some (t4 B N M M gA) else none, if nz then some (t2 B M gz) else none,
          if nx then some (t3 B N M gx) else none)) ∧
      ∀ (dA : Nat → Nat → Nat → Nat → α) (dz : Nat → Nat → α) (dx : Nat → Nat → Nat → α),
        ip3 B N M g (fun b n => dVecRec M (A b) (dA b) (zi b) (dz b) (x b) (dx b) (n + 1)) =
          ip4 B N M M gA dA + ip2 B M gz dz + ip3 B N M gx dx := by
  refine ⟨_, fun b n i k => star (vecRec M (A b) (zi b) (x b) n k) * seqAdj N M (A b) (g b) n i, _, _,
    hf B N _ _ zi x (.batched A), fun nA nz nx =>
    recurNBackward_eq (isVaryingOp_ite hf h2) (nA, nz, nx) hN (.batched A) zi x g, fun dA dz dx => ?_⟩
  rw [vec_grad B N M A dA zi dz x dx g (fun b s i k => star (A b ((N - 1 - s + 1) % N) k i))
    (fun _ s h1 h2 _ _ _ _ => by rw [seqAdj_coeff h1 h2])]
  simp only [mul_comm (star _)]
  rfl

example := C37_backward_batched_partial (B := 3) (N := 7) (M := 2) (recurNCpu_isVaryingOp C38_alternating_case 2)
  (fun _ => recurNCpu_isVaryingOp sequential_isScheduler 2) (by decide) (fun i t k j => (i : ℤ) + t * k - j) (fun i t => (i : ℤ) - t)
  (fun i t k => (i : ℤ) + t * k) (fun i t k => (i : ℤ) - t * k)

omit [StarRing α] in
/-- **C37, forward mode.** -/
theorem C37_jvp (hf : IsVaryingOp M f) {A : Tensor α} {a : Nat → Nat → Nat → Nat → α}
    (hA : MatSeq B N M M A a) (zi : Nat → Nat → α) (x : Nat → Nat → Nat → α)
    {DA DI DX : Option (Tensor α)} {da : Nat → Nat → Nat → Nat → α} {di : Nat → Nat → α} {dx : Nat → Nat → Nat → α}
    (hDA : (DA = none ∧ da = fun _ _ _ _ => 0) ∨ ∃ D, DA = some D ∧ MatSeq B N M M D da)
    (hDI : (DI = none ∧ di = fun _ _ => 0) ∨ DI = some (t2 B M di))
    (hDX : (DX = none ∧ dx = fun _ _ _ => 0) ∨ DX = some (t3 B N M dx)) :
    ∃ y, f A (t2 B M zi) (t3 B N M x) = .ok y ∧ recurNJvp f A (t2 B M zi) y DA DI DX =
      .ok (t3 B N M fun b n => dVecRec M (a b) (da b) (zi b) (di b) (x b) (dx b) (n + 1)) :=
  ⟨_, hf B N A a zi x hA, recurNJvp_eq hf hA zi x hDA hDI hDX⟩

example := C37_jvp (B := 3) (N := 7) (M := 2) (recurNCpu_isVaryingOp C38_alternating_case 2)
  (.batched fun i t k j => (i : ℤ) + t * k - j) (fun i t => (i : ℤ) + t) (fun i t k => (i : ℤ) - t * k)
  (Or.inr ⟨_, rfl, .batched fun i t k j => (i : ℤ) + t * k - j⟩) (Or.inl ⟨rfl, rfl⟩) (Or.inl ⟨rfl, rfl⟩)

/-- **C37**: the registered backward rule and the one of the autograd `Function` agree, as do the rules of any two backends. -/
theorem C37_agree_partial {f' : Op α} (hf : IsVaryingOp M f) (h2 : M = 2 → IsVaryingOp 2 op2) (hf' : IsVaryingOp M f')
    (hN : 0 < N) {A : Tensor α} {a : Nat → Nat → Nat → Nat → α} (hA : MatSeq B N M M A a) (zi : Nat → Nat → α)
    (x g : Nat → Nat → Nat → α) (needs : Bool × Bool × Bool) :
    ∃ y r, f A (t2 B M zi) (t3 B N M x) = .ok y ∧ f' A (t2 B M zi) (t3 B N M x) = .ok y ∧
      recurNBackward f op2 needs A (t2 B M zi) y (t3 B N M g) = .ok r ∧
      recurNBackward f' f' needs A (t2 B M zi) y (t3 B N M g) = .ok r :=
  ⟨_, _, hf B N A a zi x hA, hf' B N A a zi x hA, recurNBackward_eq (isVaryingOp_ite hf h2) needs hN hA zi x g,
    recurNBackward_eq (isVaryingOp_ite hf' fun h => h ▸ hf') needs hN hA zi x g⟩

example := C37_agree_partial (B := 3) (N := 7) (M := 2) (recurNCpu_isVaryingOp C38_alternating_case 2)
  (fun _ => recurNCpu_isVaryingOp sequential_isScheduler 2) (recurNCpu_isVaryingOp sequential_isScheduler 2) (by decide)
  (.batched fun i t k j => (i : ℤ) + t * k - j) (fun i t => (i : ℤ) * t) (fun i t k => (i : ℤ) - t * k) (fun i t k => (i : ℤ) + t * k)
  (true, false, true)

omit [StarRing α] in
theorem matSeq_first_fails {R Q : Nat} {A : Tensor α} {a : Nat → Nat → Nat → Nat → α} (h : MatSeq B 0 R Q A a) :
    Fails (select A (-3) 0) := by
  cases h with
  | shared f => exact ⟨_, rfl⟩
  | batched f => exact ⟨_, rfl⟩

/-- **C37, limit**: on an empty signal the backward rule raises if the gradient of `zi` is needed. -/
theorem C37_empty_fails (hf : IsVaryingOp M f) {A : Tensor α}
    {a : Nat → Nat → Nat → Nat → α} (hA : MatSeq B 0 M M A a) (zi : Nat → Nat → α) (x g : Nat → Nat → Nat → α) (nA nx : Bool) :
    ∃ y, f A (t2 B M zi) (t3 B 0 M x) = .ok y ∧
      Fails (recurNBackward f op2 (nA, true, nx) A (t2 B M zi) y (t3 B 0 M g)) := by
  refine ⟨_, hf B 0 A a zi x hA, ?_⟩
  obtain ⟨T, hT, hTv⟩ := matSeq_adj hA
  unfold recurNBackward
  refine fails_step hT ?_
  refine fails_bind fun r hr => fails_bind fun r' hr' => fails_bind fun g' hg' => fails_bind fun y' hy' => ?_
  refine fails_left ?_
  unfold ifNeeded
  rw [if_pos rfl]
  exact fails_left (fails_left (matSeq_first_fails hTv))

example := C37_empty_fails (op2 := recurNCpu sequential) (B := 3) (M := 2) (recurNCpu_isVaryingOp C38_alternating_case 2)
  (.batched fun i t k j => (i : ℤ) + t * k - j) (fun i t => (i : ℤ) * t) (fun i t k => (i : ℤ) + t * k) (fun i t k => (i : ℤ) - t * k) true true

/-! ## The compiled CPU op -/

/-- **C37 for the compiled CPU ops**: any thread schedules for `recurN` and `recur2`. -/
theorem C37_cpu_partial {sch sch' : Scheduler (Regs α) α} (hsch : IsScheduler sch) (hsch' : IsScheduler sch') (hN : 0 < N)
    (A : Nat → Nat → Nat → Nat → α) (zi : Nat → Nat → α) (x g : Nat → Nat → Nat → α) :
    ∃ (y : Tensor α) (gA : Nat → Nat → Nat → Nat → α) (gz : Nat → Nat → α) (gx : Nat → Nat → Nat → α),
      recurNCpu sch (t4 B N M M A) (t2 B M zi) (t3 B N M x) = .ok y ∧
      recurNBackward (recurNCpu sch) (recurNCpu sch') (true, true, true) (t4 B N M M A) (t2 B M zi) y (t3 B N M g) =
        .ok (some (t4 B N M M gA), some (t2 B M gz), some (t3 B N M gx)) ∧
      ∀ (dA : Nat → Nat → Nat → Nat → α) (dz : Nat → Nat → α) (dx : Nat → Nat → Nat → α),
        ip3 B N M g (fun b n => dVecRec M (A b) (dA b) (zi b) (dz b) (x b) (dx b) (n + 1)) =
          ip4 B N M M gA dA + ip2 B M gz dz + ip3 B N M gx dx := by
  obtain ⟨y, gA, gz, gx, h1, h2, h3⟩ := C37_backward_batched_partial (recurNCpu_isVaryingOp hsch M)
    (fun _ => recurNCpu_isVaryingOp hsch' 2) hN A zi x g
  exact ⟨y, gA, gz, gx, h1, h2 true true true, h3⟩

example := C37_cpu_partial (B := 3) (N := 7) (M := 2) C38_alternating_case sequential_isScheduler (by decide) (fun i t k j => (i : ℤ) + t * k - j)
  (fun i t => (i : ℤ) - t) (fun i t k => (i : ℤ) + t * k) (fun i t k => (i : ℤ) - t * k)

/-- Scalar state, coefficients `2, i, 3`, state `1`, zero input: the outputs are `2, 2i, 6i`; the last output depends on the
second coefficient with derivative `3 · 2`, on the first with derivative `3 i`. -/
example : (let A : Tensor GaussianInt := t3 3 1 1 fun n _ _ => if n = 0 then 2 else if n = 1 then ⟨0, 1⟩ else 3
    let zi : Tensor GaussianInt := t2 1 1 fun _ _ => 1
    let r := do
      let y ← recurNCpu sequential A zi (t3 1 3 1 fun _ _ _ => 0)
      recurNBackward (recurNCpu sequential) (recurNCpu sequential) (true, true, true) A zi y
        (t3 1 3 1 fun _ n _ => if n = 2 then 1 else 0)
    (gradA? r [1, 0, 0], gradA? r [0, 0, 0])) = (some 6, some ⟨0, -3⟩) := by decide +kernel

end Props
