import Verif.Props.C35

/-!
# C36: derivatives of the time-invariant matrix recurrence

`f` is the op whose backward rule is registered (`lti_recurN` or its Helion replacement), `op2` is `lti_recur2`, which the rule
uses for state dimension 2; both are arbitrary implementations of the contract `IsMatrixOp M` (C38 for the compiled CPU ops).
`LTIMatrixRecurrence.backward` is the same rule with `f = op2 = LTIMatrixRecurrence.apply`.

Partial: the backward rule needs at least one sample if the gradient of `zi` is needed (`C36_empty_fails`).
-/

namespace Props
open Torch Torch.Tensor Spec Phil Phil.Grad Phil.Host Omp

/-- **C36**: `dVecRec` is the derivative of the matrix recurrence (also with coefficients that vary over time). -/
theorem C36_tangent {𝕜 : Type} [NontriviallyNormedField 𝕜] (M : Nat) (A dA : Nat → Nat → Nat → 𝕜) (init dinit : Nat → 𝕜)
    (x dx : Nat → Nat → 𝕜) (n i : Nat) :
    HasDerivAt (fun s : 𝕜 => vecRec M (fun t i k => A t i k + s * dA t i k) (fun i => init i + s * dinit i)
      (fun t i => x t i + s * dx t i) n i) (dVecRec M A dA init dinit x dx n i) 0 :=
  hasDerivAt_vecRec M A dA init dinit x dx n i

variable {α : Type} [CommRing α] [StarRing α] {f op2 : Op α} {B N M : Nat}

omit [StarRing α] in
theorem isMatrixOp_ite (hf : IsMatrixOp M f) (h2 : M = 2 → IsMatrixOp 2 op2) : IsMatrixOp M (if M ≠ 2 then f else op2) := by
  split
  · exact hf
  · rename_i h
    obtain rfl : M = 2 := not_not.1 h
    exact h2 rfl

/-- **C36, one matrix for the whole batch**, shape `(M, M)`. -/
theorem C36_backward_shared_partial (hf : IsMatrixOp M f) (h2 : M = 2 → IsMatrixOp 2 op2) (hN : 0 < N) (A : Nat → Nat → α)
    (zi : Nat → Nat → α) (x g : Nat → Nat → Nat → α) :
    ∃ (y : Tensor α) (gA gz : Nat → Nat → α) (gx : Nat → Nat → Nat → α),
      f (t2 M M A) (t2 B M zi) (t3 B N M x) = .ok y ∧
      (∀ nA nz nx : Bool, ltiRecurNBackward f op2 (nA, nz, nx) (t2 M M A) (t2 B M zi) y (t3 B N M g) =
        .ok (if nA then some (t2 M M gA) else none, if nz then some (t2 B M gz) else none,
          if nx then some (t3 B N M gx) else none)) ∧
      ∀ (dA dz : Nat → Nat → α) (dx : Nat → Nat → Nat → α),
        ip3 B N M g (fun b n => dVecRec M (fun _ => A) (fun _ => dA) (zi b) (dz b) (x b) (dx b) (n + 1)) =
          ip2 M M gA dA + ip2 B M gz dz + ip3 B N M gx dx := by
  refine ⟨_, fun i k => ∑ b ∈ Finset.range B, ∑ n ∈ Finset.range N,
    matAdj N M A (g b) n i * star (vecRec M (fun _ => A) (zi b) (x b) n k), _, _, hf B N _ _ zi x (.shared A), fun nA nz nx =>
    ltiRecurNBackward_eq (isMatrixOp_ite hf h2) (nA, nz, nx) hN (.shared A) zi x g, fun dA dz dx => ?_⟩
  rw [vec_grad B N M (fun _ _ => A) (fun _ _ => dA) zi dz x dx g (fun _ _ i k => star (A k i)) (fun _ _ _ _ _ _ _ _ => rfl),
    ip4_const_time (d := fun _ => dA), ip_shared]
  rfl

example := C36_backward_shared_partial (B := 3) (N := 7) (M := 2) (ltiRecurNCpu_isMatrixOp C38_alternating_case 2)
  (fun _ => ltiRecurNCpu_isMatrixOp sequential_isScheduler 2) (by decide) (fun i t => (i : ℤ) + t) (fun i t => (i : ℤ) - t)
  (fun i t k => (i : ℤ) + t * k) (fun i t k => (i : ℤ) - t * k)

/-- **C36, one matrix per batch item**, shape `(B, M, M)`. -/
theorem C36_backward_batched_partial (hf : IsMatrixOp M f) (h2 : M = 2 → IsMatrixOp 2 op2) (hN : 0 < N)
    (A : Nat → Nat → Nat → α) (zi : Nat → Nat → α) (x g : Nat → Nat → Nat → α) :
    ∃ (y : Tensor α) (gA : Nat → Nat → Nat → α) (gz : Nat → Nat → α) (gx : Nat → Nat → Nat → α),
      f (t3 B M M A) (t2 B M zi) (t3 B N M x) = .ok y ∧
      (∀ nA nz nx : Bool, ltiRecurNBackward f op2 (nA, nz, nx) (t3 B M M A) (t2 B M zi) y (t3 B N M g) =
        .ok (if nA then some (t3 B M M gA) else none, if nz then some (t2 B M gz) else none,
          if nx then some (t3 B N M gx) else none)) ∧
      ∀ (dA : Nat → Nat → Nat → α) (dz : Nat → Nat → α) (dx : Nat → Nat → Nat → α),
        ip3 B N M g (fun b n => dVecRec M (fun _ => A b) (fun _ => dA b) (zi b) (dz b) (x b) (dx b) (n + 1)) =
          ip3 B M M gA dA + ip2 B M gz dz + ip3 B N M gx dx := by
  refine ⟨_, fun b i k => ∑ n ∈ Finset.range N,
    matAdj N M (A b) (g b) n i * star (vecRec M (fun _ => A b) (zi b) (x b) n k), _, _, hf B N _ _ zi x (.batched A), fun nA nz nx =>
    ltiRecurNBackward_eq (isMatrixOp_ite hf h2) (nA, nz, nx) hN (.batched A) zi x g, fun dA dz dx => ?_⟩
  rw [vec_grad B N M (fun b _ => A b) (fun b _ => dA b) zi dz x dx g (fun b _ i k => star (A b k i))
    (fun _ _ _ _ _ _ _ _ => rfl), ip4_const_time]
  rfl

example := C36_backward_batched_partial (B := 3) (N := 7) (M := 2) (ltiRecurNCpu_isMatrixOp C38_alternating_case 2)
  (fun _ => ltiRecurNCpu_isMatrixOp sequential_isScheduler 2) (by decide) (fun i t k => (i : ℤ) + t * k) (fun i t => (i : ℤ) - t)
  (fun i t k => (i : ℤ) + t * k) (fun i t k => (i : ℤ) - t * k)

omit [StarRing α] in
/-- **C36, forward mode.** -/
theorem C36_jvp (hf : IsMatrixOp M f) {A : Tensor α} {a : Nat → Nat → Nat → α} (hA : MatVals B M M A a)
    (zi : Nat → Nat → α) (x : Nat → Nat → Nat → α)
    {DA DI DX : Option (Tensor α)} {da : Nat → Nat → Nat → α} {di : Nat → Nat → α} {dx : Nat → Nat → Nat → α}
    (hDA : (DA = none ∧ da = fun _ _ _ => 0) ∨ ∃ D, DA = some D ∧ MatVals B M M D da)
    (hDI : (DI = none ∧ di = fun _ _ => 0) ∨ DI = some (t2 B M di))
    (hDX : (DX = none ∧ dx = fun _ _ _ => 0) ∨ DX = some (t3 B N M dx)) :
    ∃ y, f A (t2 B M zi) (t3 B N M x) = .ok y ∧ ltiRecurNJvp f A (t2 B M zi) y DA DI DX =
      .ok (t3 B N M fun b n => dVecRec M (fun _ => a b) (fun _ => da b) (zi b) (di b) (x b) (dx b) (n + 1)) :=
  ⟨_, hf B N A a zi x hA, ltiRecurNJvp_eq hf hA zi x hDA hDI hDX⟩

example := C36_jvp (B := 3) (N := 7) (M := 2) (ltiRecurNCpu_isMatrixOp C38_alternating_case 2) (.batched fun i t k => (i : ℤ) + t * k)
  (fun i t => (i : ℤ) * t) (fun i t k => (i : ℤ) + t * k) (Or.inr ⟨_, rfl, .batched fun i t k => (i : ℤ) - t * k⟩) (Or.inl ⟨rfl, rfl⟩)
  (Or.inl ⟨rfl, rfl⟩)

/-- **C36**: the registered backward rule and the one of the autograd `Function` agree, as do the rules of any two backends. -/
theorem C36_agree_partial {f' : Op α} (hf : IsMatrixOp M f) (h2 : M = 2 → IsMatrixOp 2 op2) (hf' : IsMatrixOp M f')
    (hN : 0 < N) {A : Tensor α} {a : Nat → Nat → Nat → α} (hA : MatVals B M M A a) (zi : Nat → Nat → α)
    (x g : Nat → Nat → Nat → α) (needs : Bool × Bool × Bool) :
    ∃ y r, f A (t2 B M zi) (t3 B N M x) = .ok y ∧ f' A (t2 B M zi) (t3 B N M x) = .ok y ∧
      ltiRecurNBackward f op2 needs A (t2 B M zi) y (t3 B N M g) = .ok r ∧
      ltiRecurNBackward f' f' needs A (t2 B M zi) y (t3 B N M g) = .ok r :=
  ⟨_, _, hf B N A a zi x hA, hf' B N A a zi x hA, ltiRecurNBackward_eq (isMatrixOp_ite hf h2) needs hN hA zi x g,
    ltiRecurNBackward_eq (isMatrixOp_ite hf' fun h => h ▸ hf') needs hN hA zi x g⟩

example := C36_agree_partial (B := 3) (N := 7) (M := 2) (ltiRecurNCpu_isMatrixOp C38_alternating_case 2)
  (fun _ => ltiRecurNCpu_isMatrixOp sequential_isScheduler 2) (ltiRecurNCpu_isMatrixOp sequential_isScheduler 2) (by decide)
  (.batched fun i t k => (i : ℤ) - t * k) (fun i t => (i : ℤ) * t) (fun i t k => (i : ℤ) - t * k) (fun i t k => (i : ℤ) + t * k) (true, false, true)

omit [StarRing α] in
theorem select_t3_1_last_fails (B M : Nat) (h : Nat → Nat → Nat → α) : Fails (select (t3 B 0 M h) 1 (-1)) := ⟨_, rfl⟩

/-- **C36, limit**: on an empty signal the backward rule raises if the gradient of `zi` is needed. -/
theorem C36_empty_fails (hf : IsMatrixOp M f) (h2 : M = 2 → IsMatrixOp 2 op2) {A : Tensor α} {a : Nat → Nat → Nat → α}
    (hA : MatVals B M M A a) (zi : Nat → Nat → α) (x g : Nat → Nat → Nat → α) (nA nx : Bool) :
    ∃ y, f A (t2 B M zi) (t3 B 0 M x) = .ok y ∧
      Fails (ltiRecurNBackward f op2 (nA, true, nx) A (t2 B M zi) y (t3 B 0 M g)) := by
  refine ⟨_, hf B 0 A a zi x hA, ?_⟩
  obtain ⟨T, hT, hTv⟩ := matVals_adj hA
  unfold ltiRecurNBackward
  refine fails_step hT ?_
  refine fails_step (flip_t3_1 _ _ _ _) ?_
  rw [matVals_size hA, show (zeros (t2 B M zi).shape : Tensor α) = t2 B M fun _ _ => 0 from full_t2 _ _ _]
  have := isMatrixOp_ite hf h2 B 0 (conj T) _ (fun _ _ => 0) (fun b n => g b (0 - 1 - n)) hTv
  refine fails_step (v := ?_) (show (if M ≠ 2 then f (conj T) _ _ else op2 (conj T) _ _) = .ok _ from ?_) ?_
  · exact t3 B 0 M fun b n i => vecRec M (fun _ i k => star (a b k i)) (fun _ => 0) (fun n => g b (0 - 1 - n)) (n + 1) i
  · split <;> rename_i h
    · rw [if_pos h] at this; exact this
    · rw [if_neg h] at this; exact this
  · refine fails_left ?_
    unfold ifNeeded
    rw [if_pos rfl]
    exact fails_left (fails_left (select_t3_1_last_fails _ _ _))

example := C36_empty_fails (B := 3) (M := 2) (ltiRecurNCpu_isMatrixOp C38_alternating_case 2)
  (fun _ => ltiRecurNCpu_isMatrixOp sequential_isScheduler 2) (.batched fun i t k => (i : ℤ) - t * k) (fun i t => (i : ℤ) + t)
  (fun i t k => (i : ℤ) - t * k) (fun i t k => (i : ℤ) + t * k) true true

/-! ## The compiled CPU op -/

/-- **C36 for the compiled CPU ops**: any thread schedules for `lti_recurN` and `lti_recur2`. -/
theorem C36_cpu_partial {sch sch' : Scheduler (Regs α) α} (hsch : IsScheduler sch) (hsch' : IsScheduler sch') (hN : 0 < N)
    (A : Nat → Nat → Nat → α) (zi : Nat → Nat → α) (x g : Nat → Nat → Nat → α) :
    ∃ (y : Tensor α) (gA : Nat → Nat → Nat → α) (gz : Nat → Nat → α) (gx : Nat → Nat → Nat → α),
      ltiRecurNCpu sch (t3 B M M A) (t2 B M zi) (t3 B N M x) = .ok y ∧
      ltiRecurNBackward (ltiRecurNCpu sch) (ltiRecurNCpu sch') (true, true, true) (t3 B M M A) (t2 B M zi) y (t3 B N M g) =
        .ok (some (t3 B M M gA), some (t2 B M gz), some (t3 B N M gx)) ∧
      ∀ (dA : Nat → Nat → Nat → α) (dz : Nat → Nat → α) (dx : Nat → Nat → Nat → α),
        ip3 B N M g (fun b n => dVecRec M (fun _ => A b) (fun _ => dA b) (zi b) (dz b) (x b) (dx b) (n + 1)) =
          ip3 B M M gA dA + ip2 B M gz dz + ip3 B N M gx dx := by
  obtain ⟨y, gA, gz, gx, h1, h2, h3⟩ := C36_backward_batched_partial (ltiRecurNCpu_isMatrixOp hsch M)
    (fun _ => ltiRecurNCpu_isMatrixOp hsch' 2) hN A zi x g
  exact ⟨y, gA, gz, gx, h1, h2 true true true, h3⟩

example := C36_cpu_partial (B := 3) (N := 7) (M := 2) C38_alternating_case sequential_isScheduler (by decide) (fun i t k => (i : ℤ) + t * k)
  (fun i t => (i : ℤ) - t) (fun i t k => (i : ℤ) + t * k) (fun i t k => (i : ℤ) - t * k)

/-- `A = [[1, i], [0, 2]]`, `zi = (1, 1)`, one step, gradient of the first output: `conj(zi)` in the first row. -/
example : gradA? (do
    let A : Tensor GaussianInt := t2 2 2 fun i k => if i = 0 then (if k = 0 then 1 else ⟨0, 1⟩) else (if k = 0 then 0 else 2)
    let zi := t2 1 2 fun _ k => ⟨1, k⟩
    let y ← ltiRecurNCpu sequential A zi (t3 1 1 2 fun _ _ _ => 0)
    ltiRecurNBackward (ltiRecurNCpu sequential) (ltiRecurNCpu sequential) (true, true, true) A zi y
      (t3 1 1 2 fun _ _ i => if i = 0 then 1 else 0)) [0, 1] = some ⟨1, -1⟩ := by decide +kernel

end Props
