import Verif.Proof.GradAdjoint
import Verif.Proof.GradDeriv
import Verif.Props.C38

/-!
# C35: derivatives of the scalar recurrence

`op` is any implementation of `torch.ops.philtorch.lti_recur` (contract `IsScalarOp`; the compiled CPU op satisfies it under
every schedule, C38).  The backward rule is run on the output that `op` returned.  `dScalarRec` is the derivative of the
recurrence (`C35_tangent`).  Inner products `ip1`, `ip2` are `∑ conj(f) g`, the convention of PyTorch for complex gradients.

Partial: the backward rule needs at least one sample; with `N = 0` the forward op works and the backward rule raises
(`C35_empty_fails`).
-/

namespace Props
open Torch Torch.Tensor Spec Phil Phil.Grad Phil.Host Omp

/-- **C35**: `dScalarRec` is the derivative of the recurrence in the direction `(da, dinit, dx)`. -/
theorem C35_tangent {𝕜 : Type} [NontriviallyNormedField 𝕜] (a da : Nat → 𝕜) (init dinit : 𝕜) (x dx : Nat → 𝕜) (n : Nat) :
    HasDerivAt (fun s : 𝕜 => scalarRec (fun t => a t + s * da t) (init + s * dinit) (fun t => x t + s * dx t) n)
      (dScalarRec a da init dinit x dx n) 0 :=
  hasDerivAt_scalarRec a da init dinit x dx n

variable {α : Type} [CommRing α] [StarRing α] {op : Op α} {B N : Nat}

/-- **C35, coefficient of shape `()`.** The gradients are the adjoint of the derivative; each gradient is returned exactly
if it is needed. -/
theorem C35_backward_shared_partial (hop : IsScalarOp op) (hN : 0 < N) (a : α) (init : Nat → α) (x g : Nat → Nat → α) :
    ∃ (out : Tensor α) (ga : α) (gi : Nat → α) (gx : Nat → Nat → α),
      op (t0 a) (t1 B init) (t2 B N x) = .ok out ∧
      (∀ na ni nx : Bool, ltiRecurBackward op (na, ni, nx) (t0 a) (t1 B init) out (t2 B N g) =
        .ok (if na then some (t0 ga) else none, if ni then some (t1 B gi) else none, if nx then some (t2 B N gx) else none)) ∧
      ∀ (da : α) (di : Nat → α) (dx : Nat → Nat → α),
        ip2 B N g (fun b n => dScalarRec (fun _ => a) (fun _ => da) (init b) (di b) (x b) (dx b) (n + 1)) =
          star ga * da + ip1 B gi di + ip2 B N gx dx := by
  refine ⟨_, _, _, _, hop B N _ _ init x (.scalar a), fun na ni nx =>
    ltiRecurBackward_eq hop (na, ni, nx) hN (.scalar a) init x g, fun da di dx => ?_⟩
  rw [scalar_grad B N (fun _ => a) (fun _ => da) init di x dx g, ← Finset.sum_mul, ← star_sum]

example := C35_backward_shared_partial (B := 3) (N := 7) (ltiRecurCpu_isScalarOp C38_alternating_case) (by decide) (3 : ℤ) (fun i => (i : ℤ) + 5)
  (fun i t => (i : ℤ) - t) (fun i t => (i : ℤ) * t)

/-- **C35, coefficient of shape `(B,)`.** -/
theorem C35_backward_batched_partial (hop : IsScalarOp op) (hN : 0 < N) (a init : Nat → α) (x g : Nat → Nat → α) :
    ∃ (out : Tensor α) (ga gi : Nat → α) (gx : Nat → Nat → α),
      op (t1 B a) (t1 B init) (t2 B N x) = .ok out ∧
      (∀ na ni nx : Bool, ltiRecurBackward op (na, ni, nx) (t1 B a) (t1 B init) out (t2 B N g) =
        .ok (if na then some (t1 B ga) else none, if ni then some (t1 B gi) else none,
          if nx then some (t2 B N gx) else none)) ∧
      ∀ (da di : Nat → α) (dx : Nat → Nat → α),
        ip2 B N g (fun b n => dScalarRec (fun _ => a b) (fun _ => da b) (init b) (di b) (x b) (dx b) (n + 1)) =
          ip1 B ga da + ip1 B gi di + ip2 B N gx dx :=
  ⟨_, _, _, _, hop B N _ _ init x (.full a), fun na ni nx => ltiRecurBackward_eq hop (na, ni, nx) hN (.full a) init x g,
    fun da di dx => scalar_grad B N a da init di x dx g⟩

example := C35_backward_batched_partial (B := 3) (N := 7) (ltiRecurCpu_isScalarOp C38_alternating_case) (by decide) (fun i => (i : ℤ) + 4)
  (fun i => (i : ℤ) + 5) (fun i t => (i : ℤ) - t) (fun i t => (i : ℤ) * t)

/-- **C35, coefficient of shape `(1,)`** with any batch size: the rule returns one gradient per batch item, of shape `(B,)`,
which autograd sums to the shape `(1,)`; the sum is the gradient. -/
theorem C35_backward_single_partial (hop : IsScalarOp op) (hN : 0 < N) (a : α) (init : Nat → α) (x g : Nat → Nat → α) :
    ∃ (out : Tensor α) (ga gi : Nat → α) (gx : Nat → Nat → α),
      op (t1 1 fun _ => a) (t1 B init) (t2 B N x) = .ok out ∧
      (∀ na ni nx : Bool, ltiRecurBackward op (na, ni, nx) (t1 1 fun _ => a) (t1 B init) out (t2 B N g) =
        .ok (if na then some (t1 B ga) else none, if ni then some (t1 B gi) else none,
          if nx then some (t2 B N gx) else none)) ∧
      ∀ (da : α) (di : Nat → α) (dx : Nat → Nat → α),
        ip2 B N g (fun b n => dScalarRec (fun _ => a) (fun _ => da) (init b) (di b) (x b) (dx b) (n + 1)) =
          star (∑ b ∈ Finset.range B, ga b) * da + ip1 B gi di + ip2 B N gx dx := by
  refine ⟨_, fun b => ∑ n ∈ Finset.range N, star (scalarRec (fun _ => a) (init b) (x b) n) * scalarAdj N a (g b) n, _, _,
    hop B N _ _ init x (.single fun _ => a), fun na ni nx =>
    ltiRecurBackward_eq hop (na, ni, nx) hN (.single fun _ => a) init x g, fun da di dx => ?_⟩
  rw [scalar_grad B N (fun _ => a) (fun _ => da) init di x dx g, ← Finset.sum_mul, ← star_sum]

example := C35_backward_single_partial (B := 3) (N := 7) (ltiRecurCpu_isScalarOp C38_alternating_case) (by decide) (3 : ℤ) (fun i => (i : ℤ) + 5)
  (fun i t => (i : ℤ) - t) (fun i t => (i : ℤ) * t)

omit [StarRing α] in
/-- **C35, forward mode.** The rule returns the derivative; a missing tangent (`none`) counts as zero. -/
theorem C35_jvp (hop : IsScalarOp op) {A : Tensor α} {a : Nat → α} (hA : BatchVals B A a)
    (init : Nat → α) (x : Nat → Nat → α) {DA DI DX : Option (Tensor α)} {da di : Nat → α} {dx : Nat → Nat → α}
    (hDA : (DA = none ∧ da = fun _ => 0) ∨ ∃ D, DA = some D ∧ BatchVals B D da)
    (hDI : (DI = none ∧ di = fun _ => 0) ∨ DI = some (t1 B di))
    (hDX : (DX = none ∧ dx = fun _ _ => 0) ∨ DX = some (t2 B N dx)) :
    ∃ out, op A (t1 B init) (t2 B N x) = .ok out ∧ ltiRecurJvp op A (t1 B init) out DA DI DX =
      .ok (t2 B N fun b n => dScalarRec (fun _ => a b) (fun _ => da b) (init b) (di b) (x b) (dx b) (n + 1)) :=
  ⟨_, hop B N A a init x hA, ltiRecurJvp_eq hop hA init x hDA hDI hDX⟩

example := C35_jvp (B := 3) (N := 7) (ltiRecurCpu_isScalarOp C38_alternating_case) (.full fun i => (i : ℤ) + 2) (fun i => (i : ℤ) + 4)
  (fun i t => (i : ℤ) + t) (Or.inr ⟨_, rfl, .full fun i => (i : ℤ) + 2⟩) (Or.inl ⟨rfl, rfl⟩) (Or.inl ⟨rfl, rfl⟩)

/-- **C35, independence of the backend**: the rule gives the same gradients with any two correct implementations of the op
(the registered backward calls the op, `LTIRecurrence.backward` calls `LTIRecurrence.apply`). -/
theorem C35_agree_partial {op' : Op α} (hop : IsScalarOp op) (hop' : IsScalarOp op') (hN : 0 < N) {A : Tensor α} {a : Nat → α}
    (hA : BatchVals B A a) (init : Nat → α) (x g : Nat → Nat → α) (needs : Bool × Bool × Bool) :
    ∃ out r, op A (t1 B init) (t2 B N x) = .ok out ∧ op' A (t1 B init) (t2 B N x) = .ok out ∧
      ltiRecurBackward op needs A (t1 B init) out (t2 B N g) = .ok r ∧
      ltiRecurBackward op' needs A (t1 B init) out (t2 B N g) = .ok r :=
  ⟨_, _, hop B N A a init x hA, hop' B N A a init x hA, ltiRecurBackward_eq hop needs hN hA init x g,
    ltiRecurBackward_eq hop' needs hN hA init x g⟩

example := C35_agree_partial (B := 3) (N := 7) (ltiRecurCpu_isScalarOp C38_alternating_case) (ltiRecurCpu_isScalarOp sequential_isScheduler)
  (by decide) (.full fun i => (i : ℤ) + 2) (fun i => (i : ℤ) + 6) (fun i t => (i : ℤ) * t) (fun i t => (i : ℤ) + t) (true, false, true)

omit [StarRing α] in
theorem select_t2_1_last_fails (B : Nat) (f : Nat → Nat → α) : Fails (select (t2 B 0 f) 1 (-1)) := by
  refine ⟨_, rfl⟩

/-- **C35, limit**: on an empty signal the op accepts its arguments and the backward rule raises. -/
theorem C35_empty_fails (hop : IsScalarOp op) {A : Tensor α} {a : Nat → α} (hA : BatchVals B A a) (init : Nat → α)
    (x g : Nat → Nat → α) (needs : Bool × Bool × Bool) :
    ∃ out, op A (t1 B init) (t2 B 0 x) = .ok out ∧ Fails (ltiRecurBackward op needs A (t1 B init) out (t2 B 0 g)) := by
  refine ⟨_, hop B 0 A a init x hA, ?_⟩
  unfold ltiRecurBackward
  exact fails_left (select_t2_1_last_fails _ _)

example := C35_empty_fails (B := 3) (ltiRecurCpu_isScalarOp C38_alternating_case) (.full fun i => (i : ℤ) + 2) (fun i => (i : ℤ) + 4)
  (fun i t => (i : ℤ) + t) (fun i t => (i : ℤ) - t) (true, false, true)

/-! ## The compiled CPU op -/

/-- **C35 for the compiled CPU op**, any thread schedules in the forward and in the backward pass. -/
theorem C35_cpu_partial {sch : Scheduler (Regs α) α} (hsch : IsScheduler sch) (hN : 0 < N) (a init : Nat → α)
    (x g : Nat → Nat → α) :
    ∃ (out : Tensor α) (ga gi : Nat → α) (gx : Nat → Nat → α),
      ltiRecurCpu sch (t1 B a) (t1 B init) (t2 B N x) = .ok out ∧
      ltiRecurBackward (ltiRecurCpu sch) (true, true, true) (t1 B a) (t1 B init) out (t2 B N g) =
        .ok (some (t1 B ga), some (t1 B gi), some (t2 B N gx)) ∧
      ∀ (da di : Nat → α) (dx : Nat → Nat → α),
        ip2 B N g (fun b n => dScalarRec (fun _ => a b) (fun _ => da b) (init b) (di b) (x b) (dx b) (n + 1)) =
          ip1 B ga da + ip1 B gi di + ip2 B N gx dx := by
  obtain ⟨out, ga, gi, gx, h1, h2, h3⟩ := C35_backward_batched_partial (ltiRecurCpu_isScalarOp hsch) hN a init x g
  exact ⟨out, ga, gi, gx, h1, h2 true true true, h3⟩

example := C35_cpu_partial (B := 3) (N := 7) C38_alternating_case (by decide) (fun i => (i : ℤ) + 4) (fun i => (i : ℤ) + 5) (fun i t => (i : ℤ) - t)
  (fun i t => (i : ℤ) * t)

/-- The gradient with respect to the first argument. -/
def gradA? {α : Type} [Zero α] (r : Res (Option (Tensor α) × Option (Tensor α) × Option (Tensor α))) (l : List Nat) :
    Option α :=
  match r with
  | .ok (some g, _, _) => some (g.get l)
  | _ => none

/-- Coefficient `2 + i`, state `1`, input `1, i, 2`: the outputs `h` are `3+i`, `5+6i`, `6+17i`; the gradient of the last output
is `conj(h[1] + a h[0] + a² init)`. -/
example : gradA? (do
    let a : Tensor GaussianInt := t0 ⟨2, 1⟩
    let zi := t1 1 fun _ => ⟨1, 0⟩
    let out ← ltiRecurCpu sequential a zi (t2 1 3 fun _ n => if n = 0 then ⟨1, 0⟩ else if n = 1 then ⟨0, 1⟩ else ⟨2, 0⟩)
    ltiRecurBackward (ltiRecurCpu sequential) (true, true, true) a zi out (t2 1 3 fun _ n => if n = 2 then 1 else 0)) [] =
    some (star (⟨5, 6⟩ + ⟨2, 1⟩ * ⟨3, 1⟩ + ⟨2, 1⟩ * ⟨2, 1⟩ * ⟨1, 0⟩)) := by decide +kernel

end Props
