import Verif.Proof.Rounding
import Verif.Props.C38
import Verif.Props.C40

/-!
# C59: rounding errors of the compiled recurrences

In floating point without overflow and underflow the compiled recurrences return the exact recurrence up to a perturbation that depends
on the machine precision and on the number of steps, not on the schedule of the threads or on the order in which a scan combines its
elements.

Here the kernels of Verif/Model/HostKernels.lean and Verif/Model/Scan.lean, the same definitions as in C38 and C40, run on numbers
whose `+` and `*` have a relative error of at most `ε` (`Spec.Arith`).  The error at time `t` is at most
`(1 + ε)^(k (t+1)) - 1`, about `k (t+1) ε`, times the recurrence of the absolute values, where `k = 2` for `lti_recur`, `k = M + 2` for
`lti_recurN` and `recurN` on the CPU and `k = 3` for `lti_recur2` and `recur2` on CUDA.  The results on CPU and CUDA need not be equal
(`C59_devices_differ`).  Not covered: `host_recur2` and `host_recurN`, which are not registered
for any op, the Helion kernels and the Python code.
-/

namespace Props
open Torch Torch.Tensor Spec Phil Phil.Host Omp Phil.Cuda Scan
variable {K : Type} [NormedField K] {ε : ℝ} {F : Arith K ε}

/-- **C59, `lti_recur` on the CPU**: two roundings per step, for every schedule. -/
theorem C59_lti_recur_cpu (hε : 0 ≤ ε) {sch : Scheduler (Regs (Fl F)) (Fl F)} (hsch : IsScheduler sch) :
    ScalarAccuracy 2 (ltiRecurCpu sch) := fun _ _ _ _ zi x hA =>
  ⟨_, ltiRecurCpu_run hsch zi x hA, fun b _ n _ => (macRec_approx hε _ (zi b) (x b) (n + 1)).1⟩

example := C59_lti_recur_cpu (F := binary 23) (by positivity) C38_alternating_case

/-- **C59, `lti_recur` on CUDA**: two roundings per step, for every bracketing of the scan. -/
theorem C59_lti_recur_cuda (hε : 0 ≤ ε) {scan : Scanner (Fl F × Fl F)} (hscan : IsScan scan) :
    ScalarAccuracy 2 (ltiRecurCuda scan) := ltiRecurCuda_accuracy hε hscan

example := C59_lti_recur_cuda (F := binary 23) (by positivity) C40_left_case

/-- **C59, `lti_recurN` on the CPU**. -/
theorem C59_lti_recurN_cpu (hε : 0 ≤ ε) {sch : Scheduler (Regs (Fl F)) (Fl F)} (hsch : IsScheduler sch) (M : Nat) :
    MatrixAccuracy M (M + 2) (ltiRecurNCpu sch) := fun _ _ _ _ zi x hA =>
  ⟨_, ltiRecurNCpu_run hsch zi x hA, fun b _ n _ i _ => (macVec_approx hε M _ (zi b) (x b) (n + 1) i).1⟩

example := C59_lti_recurN_cpu (F := binary 23) (by positivity) C38_alternating_case 3

/-- **C59, `recurN` on the CPU**. -/
theorem C59_recurN_cpu (hε : 0 ≤ ε) {sch : Scheduler (Regs (Fl F)) (Fl F)} (hsch : IsScheduler sch) (M : Nat) :
    VaryingAccuracy M (M + 2) (recurNCpu sch) := fun _ _ _ a zi x hA =>
  ⟨_, recurNCpu_run hsch zi x hA, fun b _ n _ i _ => (macVec_approx hε M (a b) (zi b) (x b) (n + 1) i).1⟩

example := C59_recurN_cpu (F := binary 23) (by positivity) C38_alternating_case 3

/-- **C59, `lti_recur2` on CUDA**, for every bracketing of the scan. -/
theorem C59_lti_recur2_cuda (hε : 0 ≤ ε) {scan : Scanner (Sq2 (Fl F))} (hscan : IsScan scan) :
    MatrixAccuracy 2 3 (ltiRecur2Cuda scan) := by
  intro B N A a zi x hA
  obtain ⟨e, he, hr⟩ := ltiRecur2Cuda_run scan (N := N) zi x hA
  exact ⟨_, hr, fun b hb n hn i hi => scan2_accuracy hε hscan he hb hn hi⟩

example := C59_lti_recur2_cuda (F := binary 23) (by positivity) C40_right_case

/-- **C59, `recur2` on CUDA**, for every bracketing of the scan. -/
theorem C59_recur2_cuda (hε : 0 ≤ ε) {scan : Scanner (Sq2 (Fl F))} (hscan : IsScan scan) :
    VaryingAccuracy 2 3 (recur2Cuda scan) := by
  intro B N A a zi x hA
  obtain ⟨e, he, hr⟩ := recur2Cuda_run scan (N := N) zi x hA
  exact ⟨_, hr, fun b hb n hn i hi => scan2_accuracy hε hscan he hb hn hi⟩

example := C59_recur2_cuda (F := binary 23) (by positivity) C40_right_case

/-- **C59, size of the factor**: `(1 + ε)^j - 1 ≤ 2 j ε` as long as `2 j ε ≤ 1`. -/
theorem C59_growth {j : Nat} (hε : 0 ≤ ε) (h : 2 * j * ε ≤ 1) : (1 + ε) ^ j - 1 ≤ 2 * j * ε := growth_le hε h

example := C59_growth (j := 1000) (ε := 2⁻¹ ^ 24) (by positivity) (by norm_num)

/-- **C59, CPU against CUDA**: two schedules and bracketings agree within the sum of the two bounds. -/
theorem C59_devices_agree (hε : 0 ≤ ε) {sch : Scheduler (Regs (Fl F)) (Fl F)} (hsch : IsScheduler sch)
    {scan : Scanner (Fl F × Fl F)} (hscan : IsScan scan) {B N : Nat} {A : Tensor (Fl F)} {a : Nat → Fl F} (zi : Nat → Fl F)
    (x : Nat → Nat → Fl F) (hA : BatchVals B A a) :
    ∃ y y' : Nat → Nat → Fl F, ltiRecurCpu sch A (t1 B zi) (t2 B N x) = .ok (t2 B N y) ∧
      ltiRecurCuda scan A (t1 B zi) (t2 B N x) = .ok (t2 B N y') ∧ ∀ b < B, ∀ n < N,
        ‖(y b n).val - (y' b n).val‖ ≤ 2 * ((1 + ε) ^ (2 * (n + 1)) - 1) *
          scalarRec (fun _ => ‖(a b).val‖) ‖(zi b).val‖ (fun t => ‖(x b t).val‖) (n + 1) := by
  obtain ⟨y, hy, e⟩ := C59_lti_recur_cpu hε hsch (N := N) zi x hA
  obtain ⟨y', hy', e'⟩ := C59_lti_recur_cuda hε hscan (N := N) zi x hA
  refine ⟨y, y', hy, hy', fun b hb n hn => ?_⟩
  have h1 := e b hb n hn
  have h2 := e' b hb n hn
  rw [← norm_neg, neg_sub] at h2
  set w := scalarRec (fun _ => (a b).val) (zi b).val (fun t => (x b t).val) (n + 1)
  have h3 : ‖(y b n).val - (y' b n).val‖ ≤ ‖(y b n).val - w‖ + ‖w - (y' b n).val‖ := by
    simpa using norm_add_le ((y b n).val - w) (w - (y' b n).val)
  linarith

example := C59_devices_agree (F := binary 23) (by positivity) C38_alternating_case C40_right_case (B := 3) (N := 7)
  (fun i => (⟨(i : ℝ)⟩ : Fl (binary 23))) (fun i t => ⟨(i : ℝ) + t⟩) (.full fun i => (⟨(i : ℝ) / 2⟩ : Fl (binary 23)))

/-- **C59, stable case**: with `|a| ≤ r` and `r (1 + ε)² < 1` the error of `lti_recur` on the CPU has a bound that does not depend on
the length of the signal. -/
theorem C59_lti_recur_stable (hε : 0 ≤ ε) {sch : Scheduler (Regs (Fl F)) (Fl F)} (hsch : IsScheduler sch) {r Z X : ℝ}
    (hr : 0 ≤ r) (hr1 : r * (1 + ε) ^ 2 < 1) (hX : 0 ≤ X) {B N : Nat} {A : Tensor (Fl F)} {a : Nat → Fl F} (zi : Nat → Fl F)
    (x : Nat → Nat → Fl F) (hA : BatchVals B A a) (ha : ∀ b < B, ‖(a b).val‖ ≤ r) (hz : ∀ b < B, ‖(zi b).val‖ ≤ Z)
    (hx : ∀ b < B, ∀ t < N, ‖(x b t).val‖ ≤ X) :
    ∃ y : Nat → Nat → Fl F, ltiRecurCpu sch A (t1 B zi) (t2 B N x) = .ok (t2 B N y) ∧ ∀ b < B, ∀ n < N,
      ‖(y b n).val - scalarRec (fun _ => (a b).val) (zi b).val (fun t => (x b t).val) (n + 1)‖ ≤
        ε * (X + (2 + ε) * r * (Z + (1 + ε) * X / (1 - r * (1 + ε) ^ 2))) / (1 - r) :=
  ⟨_, ltiRecurCpu_run hsch zi x hA, fun b hb n hn =>
    (macRec_stable hε hr hr1 hX (fun _ => a b) (zi b) (x b) (n := n + 1) (fun _ _ => ha b hb) (hz b hb)
      fun t ht => hx b hb t (by omega)).2⟩

/-- **C59, an arithmetic**: rounding to `p + 1` binary digits has relative error at most `2^-(p+1)`. -/
theorem C59_binary_case (p : Nat) (x : ℝ) : |binRound p x - x| ≤ (2 : ℝ)⁻¹ ^ (p + 1) * |x| := binRound_err p x

/-- `lti_recur` in single precision (24 digits), decay one half, a signal bounded by one: the error never exceeds `7 · 2^-24`. -/
example {N : Nat} (x : Nat → Nat → Fl (binary 23)) (hx : ∀ b < 1, ∀ t < N, ‖(x b t).val‖ ≤ 1) :
    ∃ y : Nat → Nat → Fl (binary 23),
      ltiRecurCpu sequential (t0 ⟨1 / 2⟩) (t1 1 fun _ => ⟨0⟩) (t2 1 N x) = .ok (t2 1 N y) ∧ ∀ b < 1, ∀ n < N,
        ‖(y b n).val - scalarRec (fun _ => 1 / 2) 0 (fun t => (x b t).val) (n + 1)‖ ≤ 7 * (2 : ℝ)⁻¹ ^ 24 := by
  obtain ⟨y, h1, h2⟩ := C59_lti_recur_stable (F := binary 23) (by positivity) sequential_isScheduler (r := 1 / 2) (Z := 0) (X := 1)
    (by norm_num) (by norm_num) (by norm_num) (fun _ => ⟨0⟩) x (.scalar ⟨1 / 2⟩) (by intro b _; simp) (by simp) hx
  refine ⟨y, h1, fun b hb n hn => (h2 b hb n hn).trans ?_⟩
  norm_num

/-- Sums that are an eighth too large, exact products. -/
noncomputable def coarse : Arith ℝ (1 / 8) where
  add x y := 9 / 8 * (x + y)
  mul x y := x * y
  add_err x y := by
    rw [show 9 / 8 * (x + y) - (x + y) = 1 / 8 * (x + y) by ring, norm_mul]; norm_num
  mul_err x y := by rw [sub_self, norm_zero]; positivity

/-- **C59, the devices differ**: an arithmetic, a scan and arguments for which CPU and CUDA return different numbers. -/
theorem C59_devices_differ : ∃ (F : Arith ℝ (1 / 8)) (scan : Scanner (Fl F × Fl F)) (A zi x : Tensor (Fl F)), IsScan scan ∧
    ltiRecurCpu sequential A zi x ≠ ltiRecurCuda scan A zi x := by
  refine ⟨coarse, rightScan, t0 ⟨1⟩, t1 1 fun _ => ⟨0⟩, t2 1 2 fun _ t => ⟨t⟩, C40_right_case, fun h => ?_⟩
  obtain ⟨e, he, hr⟩ := ltiRecurCuda_run (rightScan : Scanner (Fl coarse × Fl coarse)) (B := 1) (N := 2) (fun _ => ⟨0⟩)
    (fun _ t => ⟨t⟩) (.scalar ⟨1⟩)
  have hc := ltiRecurCpu_run (sequential_isScheduler (ρ := Regs (Fl coarse)) (α := Fl coarse)) (B := 1) (N := 2)
    (fun _ => (⟨0⟩ : Fl coarse)) (fun _ t => ⟨t⟩) (.scalar ⟨1⟩)
  rw [hc, hr] at h
  have h1 := congrArg (fun T => (T.data 1).val) (Except.ok.inj h)
  have d1 := fun f : Nat → Nat → Fl coarse => data_t2 f (n := 1) (m := 2) (i := 0) (j := 1) (by omega) (by omega)
  simp only [Nat.zero_mul, Nat.zero_add] at d1
  have e0 : e 0 = (⟨0⟩, ⟨0⟩) := he 0 (by omega) 0 (by omega)
  have e1 : e 1 = (⟨1⟩, ⟨(0 : Nat)⟩) := he 0 (by omega) 1 (by omega)
  have e2 : e 2 = (⟨1⟩, ⟨(1 : Nat)⟩) := he 0 (by omega) 2 (by omega)
  simp only [d1] at h1
  have hs : seg (index2key (2 + 1)) 2 = [0, 1, 2] := by decide
  simp only [Nat.zero_mul, Nat.zero_add, Nat.reduceAdd, rightScan, hs, List.map_cons, List.map_nil, sumRight, e0, e1, e2] at h1
  have h2 : (9 / 8 : ℝ) * (((1 : Nat) : ℝ) + 1 * (9 / 8 * (((0 : Nat) : ℝ) + 1 * 0))) =
      9 / 8 * (0 * (1 * 1) + 9 / 8 * (((0 : Nat) : ℝ) * 1 + ((1 : Nat) : ℝ))) := h1
  norm_num at h2

end Props
