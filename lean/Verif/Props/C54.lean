import Verif.Proof.Int32Cuda
import Verif.Props.C38
import Verif.Props.C40

/-!
# C54: the 32-bit indices of the compiled ops

The kernels take their sizes as `int` and compute offsets with `int` arithmetic; Verif/Model/Int32.lean models exactly that
(an `int` product outside of its range is an error, `int64_t` sizes are converted modulo `2 ^ 32`).  The ops compute the
recurrence as long as all offsets are below `2 ^ 31`, in particular if every tensor passed to the kernels has fewer than
`2 ^ 31` elements.  The exact limits are proved; beyond them the offsets overflow, the ops return the signal unfiltered, or
the result is uninitialised memory.
-/

namespace Props
open Torch Torch.Tensor Spec Phil Phil.Host Phil.Int32 Omp Scan

variable {α : Type} [CommRing α]

theorem le_intMax {n : Nat} (h : n < 2 ^ 31) : n ≤ intMax := by unfold intMax; omega

theorem intMax_lt {n : Nat} (h : 2 ^ 31 ≤ n) : intMax < n := by unfold intMax; omega

/-! ## CPU, scalar recurrence -/

/-- **C54, `lti_recur`**, arbitrary tensors: where no offset reaches `2 ^ 31`, the op does what it does with unbounded
indices, on some schedule. -/
theorem C54_lti_recur_refines {sch : Scheduler (Regs α) α} (hsch : IsScheduler sch) (a zi x : Tensor α)
    (hB : x.size 0 < 2 ^ 31) (hT : x.size 1 + 1 < 2 ^ 31) (h : (x.size 0 - 1) * (x.size 1 + 1) < 2 ^ 31) :
    ∃ sch', IsScheduler sch' ∧ Int32.ltiRecurCpu sch a zi x = Host.ltiRecurCpu sch' a zi x :=
  ⟨restrict sch, restrict_isScheduler hsch, ltiRecurCpu_exact sch a zi x (le_intMax hB) (le_intMax hT) (le_intMax h)⟩

example := C54_lti_recur_refines C38_alternating_case (t1 2 fun i => (i : ℤ) + 2) (t1 2 fun i => (i : ℤ)) (t2 2 7 fun i t => (i : ℤ) * t)
  (by decide) (by decide) (by decide)

/-- **C54, `lti_recur`** (partial: offsets below `2 ^ 31`; what happens otherwise is proved below). -/
theorem C54_lti_recur_partial {sch : Scheduler (Regs α) α} (hsch : IsScheduler sch) {B N : Nat} {A : Tensor α} {a : Nat → α}
    (zi : Nat → α) (x : Nat → Nat → α) (hA : BatchVals B A a) (hB : B < 2 ^ 31) (hT : N + 1 < 2 ^ 31)
    (h : (B - 1) * (N + 1) < 2 ^ 31) :
    Int32.ltiRecurCpu sch A (t1 B zi) (t2 B N x) = .ok (t2 B N fun b n => scalarRec (fun _ => a b) (zi b) (x b) (n + 1)) := by
  rw [ltiRecurCpu_exact sch _ _ _ (by rw [size_t2_0]; exact le_intMax hB) (by rw [size_t2_1]; exact le_intMax hT)
    (by rw [size_t2_0, size_t2_1]; exact le_intMax h)]
  exact ltiRecurCpu_isScalarOp (restrict_isScheduler hsch) B N A a zi x hA

/-- **C54 fails for `lti_recur`** as soon as the last item starts at `2 ^ 31` or later: signed overflow. -/
theorem C54_lti_recur_overflow (sch : Scheduler (Regs α) α) {B N : Nat} {A : Tensor α} {a : Nat → α}
    (zi : Nat → α) (x : Nat → Nat → α) (hA : BatchVals B A a) (hB : B < 2 ^ 31) (hT : N + 1 < 2 ^ 31)
    (h : 2 ^ 31 ≤ (B - 1) * (N + 1)) :
    Int32.ltiRecurCpu sch A (t1 B zi) (t2 B N x) = .error "signed integer overflow" :=
  ltiRecurCpu_over sch zi x hA (le_intMax hB) (le_intMax hT) (intMax_lt h)

/-- **C54 fails for `lti_recur`** with one signal of at least `2 ^ 31 - 1` samples: the signal is returned unfiltered. -/
theorem C54_lti_recur_long {sch : Scheduler (Regs α) α} (hsch : IsScheduler sch) {N : Nat} (a : α) (zi : Nat → α)
    (x : Nat → Nat → α) (hT : 2 ^ 31 ≤ N + 1) (hT' : N + 1 ≤ 2 ^ 32) :
    Int32.ltiRecurCpu sch (t0 a) (t1 1 zi) (t2 1 N x) = .ok (t2 1 N x) ∧
    (a * zi 0 ≠ 0 → Int32.ltiRecurCpu sch (t0 a) (t1 1 zi) (t2 1 N x) ≠
      .ok (t2 1 N fun b n => scalarRec (fun _ => a) (zi b) (x b) (n + 1))) := by
  have e := ltiRecurCpu_long hsch a zi x (intMax_lt hT) (by omega)
  refine ⟨e, fun hne hc => ?_⟩
  rw [e] at hc
  have h0 := congrArg (fun t : Tensor α => t.get [0, 0]) (Except.ok.inj hc)
  have e1 := get_t2 (n := 1) (m := N) (f := x) (i := 0) (j := 0) (by omega) (by omega)
  have e2 := get_t2 (n := 1) (m := N) (f := fun b n => scalarRec (fun _ => a) (zi b) (x b) (n + 1)) (i := 0) (j := 0) (by omega) (by omega)
  beta_reduce at h0
  rw [e1, e2] at h0
  exact hne (by simpa [scalarRec] using h0)

/-- **C54 fails for `lti_recur`** with at least `2 ^ 31` items: all signals are returned unfiltered. -/
theorem C54_lti_recur_many {sch : Scheduler (Regs α) α} (hsch : IsScheduler sch) {B N : Nat} {A : Tensor α} {a : Nat → α}
    (zi : Nat → α) (x : Nat → Nat → α) (hA : BatchVals B A a) (hB : 2 ^ 31 ≤ B) (hB' : B ≤ 2 ^ 32) :
    Int32.ltiRecurCpu sch A (t1 B zi) (t2 B N x) = .ok (t2 B N x) :=
  ltiRecurCpu_many hsch zi x hA (intMax_lt hB) (by omega)

example := C54_lti_recur_many C38_alternating_case (B := 2 ^ 31) (N := 7) (fun i => (i : ℤ) + 3) (fun i t => (i : ℤ) * t) (.scalar 2)
  (by norm_num) (by norm_num)

/-! ## CPU, constant matrices -/

theorem ltiFits_of {B N M : Nat} (hM : 0 < M) (h1 : (B - 1) * (N + 1) * M < 2 ^ 31) (h2 : N * M < 2 ^ 31)
    (h3 : (M - 1) * M < 2 ^ 31) : LtiFits B (N + 1) M :=
  ⟨le_intMax (lt_of_le_of_lt (Nat.le_mul_of_pos_right _ hM) h1), le_intMax h1,
    fun _ => ⟨by rw [Nat.add_sub_cancel]; exact le_intMax h2, fun _ => le_intMax h3⟩⟩

/-- **C54, `lti_recurN` with one matrix**: exact limits. -/
theorem C54_lti_recurN_shared {sch : Scheduler (Regs α) α} (hsch : IsScheduler sch) {B N M : Nat} (A : Nat → Nat → α)
    (zi : Nat → Nat → α) (x : Nat → Nat → Nat → α) (hB : 0 < B ∧ B < 2 ^ 31) (hN : 0 < N ∧ N + 1 < 2 ^ 31)
    (hM : 0 < M ∧ M < 2 ^ 31) :
    ((B - 1) * (N + 1) * M < 2 ^ 31 ∧ N * M < 2 ^ 31 ∧ (M - 1) * M < 2 ^ 31 →
      Int32.ltiRecurNCpu sch (t2 M M A) (t2 B M zi) (t3 B N M x) =
        .ok (t3 B N M fun b n i => vecRec M (fun _ => A) (zi b) (x b) (n + 1) i)) ∧
    (¬ ((B - 1) * (N + 1) * M < 2 ^ 31 ∧ N * M < 2 ^ 31 ∧ (M - 1) * M < 2 ^ 31) →
      Int32.ltiRecurNCpu sch (t2 M M A) (t2 B M zi) (t3 B N M x) = .error "signed integer overflow") := by
  constructor
  · rintro ⟨h1, h2, h3⟩
    rw [ltiRecurNCpu_exact sch _ _ _ (by rw [size_t3_0]; exact le_intMax hB.2) (by rw [size_t3_1]; exact le_intMax hN.2)
      (by rw [size_t2_n1]; exact le_intMax hM.2)
      (by rw [size_t3_0, size_t3_1, size_t2_n1]; exact ltiFits_of hM.1 h1 h2 h3)
      (by rw [rank_t2]; intro h; cases h)]
    exact ltiRecurNCpu_isMatrixOp (restrict_isScheduler hsch) M B N _ _ zi x (.shared A)
  · intro h
    refine ltiRecurNCpu_over sch zi x (.shared A) (le_intMax hB.2) (le_intMax hN.2) (le_intMax hM.2) (.inl ?_)
    by_cases h1 : (B - 1) * (N + 1) * M < 2 ^ 31
    · refine .inr (.inr ⟨hB.1, by omega, hM.1, ?_⟩)
      rw [Nat.add_sub_cancel]
      by_cases h2 : N * M < 2 ^ 31
      · exact .inr (intMax_lt (Nat.le_of_not_lt fun h3 => h ⟨h1, h2, h3⟩))
      · exact .inl (intMax_lt (by omega))
    · exact .inr (.inl (intMax_lt (by omega)))

example := C54_lti_recurN_shared C38_alternating_case (B := 3) (N := 7) (M := 2) (fun i t => (i : ℤ) - t) (fun i t => (i : ℤ) * t)
  (fun i t k => (i : ℤ) + t * k) (by decide) (by decide) (by decide)

/-- **C54, `lti_recurN` with one matrix per item**: exact limits. -/
theorem C54_lti_recurN_batched {sch : Scheduler (Regs α) α} (hsch : IsScheduler sch) {B N M : Nat}
    (A : Nat → Nat → Nat → α) (zi : Nat → Nat → α) (x : Nat → Nat → Nat → α) (hB : 0 < B ∧ B < 2 ^ 31)
    (hN : 0 < N ∧ N + 1 < 2 ^ 31) (hM : 0 < M ∧ M < 2 ^ 31) :
    ((B - 1) * (N + 1) * M < 2 ^ 31 ∧ N * M < 2 ^ 31 ∧ (M - 1) * M < 2 ^ 31 ∧ (B - 1) * M * M < 2 ^ 31 →
      Int32.ltiRecurNCpu sch (t3 B M M A) (t2 B M zi) (t3 B N M x) =
        .ok (t3 B N M fun b n i => vecRec M (fun _ => A b) (zi b) (x b) (n + 1) i)) ∧
    (¬ ((B - 1) * (N + 1) * M < 2 ^ 31 ∧ N * M < 2 ^ 31 ∧ (M - 1) * M < 2 ^ 31 ∧ (B - 1) * M * M < 2 ^ 31) →
      Int32.ltiRecurNCpu sch (t3 B M M A) (t2 B M zi) (t3 B N M x) = .error "signed integer overflow") := by
  constructor
  · rintro ⟨h1, h2, h3, h4⟩
    rw [ltiRecurNCpu_exact sch _ _ _ (by rw [size_t3_0]; exact le_intMax hB.2) (by rw [size_t3_1]; exact le_intMax hN.2)
      (by rw [size_t3_n1]; exact le_intMax hM.2)
      (by rw [size_t3_0, size_t3_1, size_t3_n1]; exact ltiFits_of hM.1 h1 h2 h3)
      (by
        rw [size_t3_0, size_t3_n1]
        exact fun _ => ⟨le_intMax (lt_of_le_of_lt (Nat.le_mul_of_pos_right _ hM.1) h4), le_intMax h4⟩)]
    exact ltiRecurNCpu_isMatrixOp (restrict_isScheduler hsch) M B N _ _ zi x (.batched A)
  · intro h
    refine ltiRecurNCpu_over sch zi x (.batched A) (le_intMax hB.2) (le_intMax hN.2) (le_intMax hM.2) ?_
    by_cases h1 : (B - 1) * (N + 1) * M < 2 ^ 31
    · by_cases h4 : (B - 1) * M * M < 2 ^ 31
      · refine .inl (.inr (.inr ⟨hB.1, by omega, hM.1, ?_⟩))
        rw [Nat.add_sub_cancel]
        by_cases h2 : N * M < 2 ^ 31
        · exact .inr (intMax_lt (Nat.le_of_not_lt fun h3 => h ⟨h1, h2, h3, h4⟩))
        · exact .inl (intMax_lt (by omega))
      · exact .inr ⟨rank_t3 _ _ _ _, .inr (intMax_lt (by omega))⟩
    · exact .inl (.inr (.inl (intMax_lt (by omega))))

example := C54_lti_recurN_batched C38_alternating_case (B := 3) (N := 7) (M := 2) (fun i t k => (i : ℤ) + t * k) (fun i t => (i : ℤ) * t)
  (fun i t k => (i : ℤ) + t * k) (by decide) (by decide) (by decide)

/-- **C54, `lti_recurN`** (partial) in terms of the sizes of the buffers: fewer than `2 ^ 31` elements each. -/
theorem C54_lti_recurN_partial {sch : Scheduler (Regs α) α} (hsch : IsScheduler sch) {B N M : Nat} {A : Tensor α}
    {a : Nat → Nat → Nat → α} (zi : Nat → Nat → α) (x : Nat → Nat → Nat → α) (hA : MatVals B M M A a) (hB : 0 < B)
    (hN : 0 < N) (hM : 0 < M) (hout : B * (N + 1) * M < 2 ^ 31) (hnum : A.numel < 2 ^ 31) :
    Int32.ltiRecurNCpu sch A (t2 B M zi) (t3 B N M x) =
      .ok (t3 B N M fun b n i => vecRec M (fun _ => a b) (zi b) (x b) (n + 1) i) := by
  have h0 : B * (N + 1) < 2 ^ 31 := lt_of_le_of_lt (Nat.le_mul_of_pos_right _ hM) hout
  have hB' : B < 2 ^ 31 := lt_of_le_of_lt (Nat.le_mul_of_pos_right _ (by omega)) h0
  have hN' : N + 1 < 2 ^ 31 := lt_of_le_of_lt (Nat.le_mul_of_pos_left _ hB) h0
  have h1 : (B - 1) * (N + 1) * M < 2 ^ 31 :=
    lt_of_le_of_lt (Nat.mul_le_mul_right _ (Nat.mul_le_mul_right _ (Nat.sub_le _ _))) hout
  have h2 : N * M < 2 ^ 31 := by
    refine lt_of_le_of_lt (Nat.mul_le_mul_right _ ?_) hout
    exact le_trans (Nat.le_succ N) (Nat.le_mul_of_pos_left _ hB)
  cases hA with
  | shared f =>
    rw [numel_t2] at hnum
    have hM' : M < 2 ^ 31 := lt_of_le_of_lt (Nat.le_mul_of_pos_right _ hM) hnum
    exact (C54_lti_recurN_shared hsch f zi x ⟨hB, hB'⟩ ⟨hN, hN'⟩ ⟨hM, hM'⟩).1
      ⟨h1, h2, lt_of_le_of_lt (Nat.mul_le_mul_right _ (Nat.sub_le _ _)) hnum⟩
  | batched =>
    rw [numel_t3] at hnum
    have hMM : M * M < 2 ^ 31 := by
      refine lt_of_le_of_lt ?_ hnum
      rw [Nat.mul_assoc]
      exact Nat.le_mul_of_pos_left _ hB
    have hM' : M < 2 ^ 31 := lt_of_le_of_lt (Nat.le_mul_of_pos_right _ hM) hMM
    exact (C54_lti_recurN_batched hsch a zi x ⟨hB, hB'⟩ ⟨hN, hN'⟩ ⟨hM, hM'⟩).1
      ⟨h1, h2, lt_of_le_of_lt (Nat.mul_le_mul_right _ (Nat.sub_le _ _)) hMM,
        lt_of_le_of_lt (Nat.mul_le_mul_right _ (Nat.mul_le_mul_right _ (Nat.sub_le _ _))) hnum⟩

example := C54_lti_recurN_partial C38_alternating_case (B := 3) (N := 7) (M := 2) (A := t3 3 2 2 fun i t k => (i : ℤ) + t * k)
  (fun i t => (i : ℤ) - t) (fun i t k => (i : ℤ) - t * k) (.batched _) (by decide) (by decide) (by decide) (by decide) (by decide)

/-- **C54 fails for `lti_recurN`** with at least `2 ^ 31` items, or one item of at least `2 ^ 31 - 1` samples: the signal is
returned unfiltered. -/
theorem C54_lti_recurN_unfiltered {sch : Scheduler (Regs α) α} (hsch : IsScheduler sch) {B N M : Nat} {A : Tensor α}
    {a : Nat → Nat → Nat → α} (zi : Nat → Nat → α) (x : Nat → Nat → Nat → α) (hA : MatVals B M M A a)
    (h : (2 ^ 31 ≤ B ∧ B ≤ 2 ^ 32) ∨ (B = 1 ∧ 2 ^ 31 ≤ N + 1 ∧ N + 1 ≤ 2 ^ 32)) :
    Int32.ltiRecurNCpu sch A (t2 B M zi) (t3 B N M x) = .ok (t3 B N M x) := by
  refine ltiRecurNCpu_idle hsch zi x hA ?_
  rcases h with ⟨h, h'⟩ | ⟨h0, h, h'⟩
  · exact .inl ⟨intMax_lt h, by omega⟩
  · exact .inr ⟨h0, intMax_lt h, by omega⟩

example := C54_lti_recurN_unfiltered C38_alternating_case (B := 1) (N := 2 ^ 31) (M := 2) (fun i t => (i : ℤ) - t) (fun i t k => (i : ℤ) - t * k)
  (.batched fun i t k => (i : ℤ) + t * k) (by norm_num)

/-! ## CPU, time-varying matrices -/

/-- **C54, `recurN` with one sequence**: exact limits. -/
theorem C54_recurN_shared {sch : Scheduler (Regs α) α} (hsch : IsScheduler sch) {B N M : Nat} (A : Nat → Nat → Nat → α)
    (zi : Nat → Nat → α) (x : Nat → Nat → Nat → α) (hB : 0 < B ∧ B < 2 ^ 31) (hN : 0 < N ∧ N + 1 < 2 ^ 31)
    (hM : 0 < M ∧ M < 2 ^ 31) :
    ((B - 1) * (N + 1) * M < 2 ^ 31 ∧ N * M * M < 2 ^ 31 →
      Int32.recurNCpu sch (t3 N M M A) (t2 B M zi) (t3 B N M x) =
        .ok (t3 B N M fun b n i => vecRec M A (zi b) (x b) (n + 1) i)) ∧
    (¬ ((B - 1) * (N + 1) * M < 2 ^ 31 ∧ N * M * M < 2 ^ 31) →
      Int32.recurNCpu sch (t3 N M M A) (t2 B M zi) (t3 B N M x) = .error "signed integer overflow") := by
  constructor
  · rintro ⟨h1, h2⟩
    have h3 : N * M < 2 ^ 31 := lt_of_le_of_lt (Nat.le_mul_of_pos_right _ hM.1) h2
    have h4 : (M - 1) * M < 2 ^ 31 := by
      refine lt_of_le_of_lt (Nat.mul_le_mul_right _ ?_) h2
      exact le_trans (Nat.sub_le _ _) (Nat.le_mul_of_pos_left _ hN.1)
    rw [recurNCpu_exact sch _ _ _ (by rw [size_t3_0]; exact le_intMax hB.2) (by rw [size_t3_1]; exact le_intMax hN.2)
      (by rw [size_t3_n1]; exact le_intMax hM.2)
      (by rw [size_t3_0, size_t3_1, size_t3_n1]; exact ltiFits_of hM.1 h1 h3 h4)
      (by rw [size_t3_1, size_t3_n1]; exact fun _ => le_intMax h2) (by rw [rank_t3]; intro h; cases h)]
    exact recurNCpu_isVaryingOp (restrict_isScheduler hsch) M B N _ _ zi x (.shared A)
  · intro h
    refine recurNCpu_over sch zi x (.shared A) (le_intMax hB.2) (le_intMax hN.2) (le_intMax hM.2) ?_
    by_cases h1 : (B - 1) * (N + 1) * M < 2 ^ 31
    · exact .inr (.inl ⟨hB.1, intMax_lt (Nat.le_of_not_lt fun h2 => h ⟨h1, h2⟩)⟩)
    · exact .inl (.inr (.inl (intMax_lt (by omega))))

example := C54_recurN_shared C38_alternating_case (B := 3) (N := 7) (M := 2) (fun i t k => (i : ℤ) + t * k) (fun i t => (i : ℤ) * t)
  (fun i t k => (i : ℤ) + t * k) (by decide) (by decide) (by decide)

/-- **C54, `recurN` with one sequence per item**: exact limits. -/
theorem C54_recurN_batched {sch : Scheduler (Regs α) α} (hsch : IsScheduler sch) {B N M : Nat}
    (A : Nat → Nat → Nat → Nat → α) (zi : Nat → Nat → α) (x : Nat → Nat → Nat → α) (hB : 0 < B ∧ B < 2 ^ 31)
    (hN : 0 < N ∧ N + 1 < 2 ^ 31) (hM : 0 < M ∧ M < 2 ^ 31) :
    ((B - 1) * (N + 1) * M * M < 2 ^ 31 ∧ N * M * M < 2 ^ 31 →
      Int32.recurNCpu sch (t4 B N M M A) (t2 B M zi) (t3 B N M x) =
        .ok (t3 B N M fun b n i => vecRec M (A b) (zi b) (x b) (n + 1) i)) ∧
    (¬ ((B - 1) * (N + 1) * M * M < 2 ^ 31 ∧ N * M * M < 2 ^ 31) →
      Int32.recurNCpu sch (t4 B N M M A) (t2 B M zi) (t3 B N M x) = .error "signed integer overflow") := by
  constructor
  · rintro ⟨h1, h2⟩
    have h0 : (B - 1) * (N + 1) * M < 2 ^ 31 := lt_of_le_of_lt (Nat.le_mul_of_pos_right _ hM.1) h1
    have h3 : N * M < 2 ^ 31 := lt_of_le_of_lt (Nat.le_mul_of_pos_right _ hM.1) h2
    have h4 : (M - 1) * M < 2 ^ 31 := by
      refine lt_of_le_of_lt (Nat.mul_le_mul_right _ ?_) h2
      exact le_trans (Nat.sub_le _ _) (Nat.le_mul_of_pos_left _ hN.1)
    rw [recurNCpu_exact sch _ _ _ (by rw [size_t3_0]; exact le_intMax hB.2) (by rw [size_t3_1]; exact le_intMax hN.2)
      (by rw [size_t4_n1]; exact le_intMax hM.2)
      (by rw [size_t3_0, size_t3_1, size_t4_n1]; exact ltiFits_of hM.1 h0 h3 h4)
      (by rw [size_t3_1, size_t4_n1]; exact fun _ => le_intMax h2)
      (by rw [size_t3_0, size_t3_1, size_t4_n1]; exact fun _ => le_intMax h1)]
    exact recurNCpu_isVaryingOp (restrict_isScheduler hsch) M B N _ _ zi x (.batched A)
  · intro h
    refine recurNCpu_over sch zi x (.batched A) (le_intMax hB.2) (le_intMax hN.2) (le_intMax hM.2) ?_
    by_cases h1 : (B - 1) * (N + 1) * M * M < 2 ^ 31
    · exact .inr (.inl ⟨hB.1, intMax_lt (Nat.le_of_not_lt fun h2 => h ⟨h1, h2⟩)⟩)
    · exact .inr (.inr ⟨rank_t4 _ _ _ _ _, intMax_lt (by omega)⟩)

/-- **C54, `recurN`** (partial) in terms of the sizes of the buffers: fewer than `2 ^ 31` elements each (`A` with the zero
matrices in front). -/
theorem C54_recurN_partial {sch : Scheduler (Regs α) α} (hsch : IsScheduler sch) {B N M : Nat} {A : Tensor α}
    {a : Nat → Nat → Nat → Nat → α} (zi : Nat → Nat → α) (x : Nat → Nat → Nat → α) (hA : MatSeq B N M M A a) (hB : 0 < B)
    (hN : 0 < N) (hM : 0 < M) (hout : B * (N + 1) * M < 2 ^ 31)
    (hnum : (if A.rank = 4 then B else 1) * (N + 1) * M * M < 2 ^ 31) :
    Int32.recurNCpu sch A (t2 B M zi) (t3 B N M x) =
      .ok (t3 B N M fun b n i => vecRec M (a b) (zi b) (x b) (n + 1) i) := by
  have h0 : B * (N + 1) < 2 ^ 31 := lt_of_le_of_lt (Nat.le_mul_of_pos_right _ hM) hout
  have hB' : B < 2 ^ 31 := lt_of_le_of_lt (Nat.le_mul_of_pos_right _ (by omega)) h0
  have hN' : N + 1 < 2 ^ 31 := lt_of_le_of_lt (Nat.le_mul_of_pos_left _ hB) h0
  have h1 : (B - 1) * (N + 1) * M < 2 ^ 31 :=
    lt_of_le_of_lt (Nat.mul_le_mul_right _ (Nat.mul_le_mul_right _ (Nat.sub_le _ _))) hout
  have hM' : M < 2 ^ 31 := lt_of_le_of_lt (Nat.le_mul_of_pos_left _ (Nat.mul_pos hB (by omega))) hout
  have hmono : ∀ k, N ≤ k → k * M * M < 2 ^ 31 → N * M * M < 2 ^ 31 := fun k hk h =>
    lt_of_le_of_lt (Nat.mul_le_mul_right _ (Nat.mul_le_mul_right _ hk)) h
  cases hA with
  | shared f =>
    rw [rank_t3, if_neg (by decide), Nat.one_mul] at hnum
    exact (C54_recurN_shared hsch f zi x ⟨hB, hB'⟩ ⟨hN, hN'⟩ ⟨hM, hM'⟩).1 ⟨h1, hmono _ (Nat.le_succ N) hnum⟩
  | batched =>
    rw [rank_t4, if_pos rfl] at hnum
    refine (C54_recurN_batched hsch a zi x ⟨hB, hB'⟩ ⟨hN, hN'⟩ ⟨hM, hM'⟩).1 ⟨lt_of_le_of_lt ?_ hnum, hmono _ ?_ hnum⟩
    · exact Nat.mul_le_mul_right _ (Nat.mul_le_mul_right _ (Nat.mul_le_mul_right _ (Nat.sub_le _ _)))
    · exact le_trans (Nat.le_succ N) (Nat.le_mul_of_pos_left _ hB)

example := C54_recurN_partial C38_alternating_case (B := 3) (N := 7) (M := 2) (A := t4 3 7 2 2 fun i t k j => (i : ℤ) + t * k - j)
  (fun i t => (i : ℤ) - t) (fun i t k => (i : ℤ) - t * k) (.batched _) (by decide) (by decide) (by decide) (by decide) (by decide)

/-- **C54 fails for `recurN`** with at least `2 ^ 31` items, or one item of at least `2 ^ 31 - 1` samples. -/
theorem C54_recurN_unfiltered {sch : Scheduler (Regs α) α} (hsch : IsScheduler sch) {B N M : Nat} {A : Tensor α}
    {a : Nat → Nat → Nat → Nat → α} (zi : Nat → Nat → α) (x : Nat → Nat → Nat → α) (hA : MatSeq B N M M A a)
    (h : (2 ^ 31 ≤ B ∧ B ≤ 2 ^ 32) ∨ (B = 1 ∧ 2 ^ 31 ≤ N + 1 ∧ N + 1 ≤ 2 ^ 32)) :
    Int32.recurNCpu sch A (t2 B M zi) (t3 B N M x) = .ok (t3 B N M x) := by
  refine recurNCpu_idle hsch zi x hA ?_
  rcases h with ⟨h, h'⟩ | ⟨h0, h, h'⟩
  · exact .inl ⟨intMax_lt h, by omega⟩
  · exact .inr ⟨h0, intMax_lt h, by omega⟩

example := C54_recurN_unfiltered C38_alternating_case (B := 1) (N := 2 ^ 31) (M := 2) (fun i t => (i : ℤ) - t) (fun i t k => (i : ℤ) - t * k)
  (.batched fun i t k j => (i : ℤ) + t * k - j) (by norm_num)

/-! ## CUDA -/

/-- **C54, `lti_recur` on CUDA** (partial: fewer than `2 ^ 31` steps in all items together). -/
theorem C54_cuda_lti_recur_partial {scan : Scanner (α × α)} (hscan : IsScan scan) (junk : Nat → α × α) {B N : Nat}
    {A : Tensor α} {a : Nat → α} (zi : Nat → α) (x : Nat → Nat → α) (hA : BatchVals B A a) (hT : N + 1 < 2 ^ 31)
    (h : B * (N + 1) < 2 ^ 31) :
    Int32.ltiRecurCuda scan junk A (t1 B zi) (t2 B N x) =
      .ok (t2 B N fun b n => scalarRec (fun _ => a b) (zi b) (x b) (n + 1)) := by
  rw [ltiRecurCuda_exact scan junk _ _ _ (by rw [size_t2_1]; exact le_intMax hT)
    (by rw [size_t2_0, size_t2_1]; exact le_intMax h)]
  exact Cuda.ltiRecurCuda_isScalarOp (fill_isScan hscan junk) B N A a zi x hA

example := C54_cuda_lti_recur_partial C40_left_case (fun i => ((i : ℤ), 7)) (B := 3) (N := 7) (fun i => (i : ℤ) + 4) (fun i t => (i : ℤ) + t)
  (.full fun i => (i : ℤ) + 2) (by decide) (by decide)

/-- **C54 fails for `lti_recur` on CUDA** with `2 ^ 31` steps or more: nothing is computed, the result is the uninitialised
output buffer. -/
theorem C54_cuda_lti_recur_uninitialised (scan : Scanner (α × α)) (junk : Nat → α × α) {B N : Nat} {A : Tensor α}
    {a : Nat → α} (zi : Nat → α) (x : Nat → Nat → α) (hA : BatchVals B A a) (h : 2 ^ 31 ≤ B * (N + 1))
    (h' : B * (N + 1) ≤ 2 ^ 32) :
    Int32.ltiRecurCuda scan junk A (t1 B zi) (t2 B N x) = .ok (t2 B N fun b n => (junk (b * (N + 1) + (n + 1))).2) :=
  ltiRecurCuda_open scan junk zi x hA (intMax_lt h) (by omega)

example := C54_cuda_lti_recur_uninitialised leftScan (fun i => ((i : ℤ), 7)) (B := 2 ^ 16) (N := 2 ^ 16 - 1) (fun i => (i : ℤ) + 4)
  (fun i t => (i : ℤ) + t) (.full fun i => (i : ℤ) + 2) (by norm_num) (by norm_num)

/-- **C54, `lti_recur2` on CUDA with one matrix** (partial: fewer than `2 ^ 31` steps). -/
theorem C54_cuda_lti_recur2_shared_partial {scan : Scanner (Cuda.Sq2 α)} (hscan : IsScan scan) (junk : Nat → α) {B N : Nat}
    (A : Nat → Nat → α) (zi : Nat → Nat → α) (x : Nat → Nat → Nat → α) (hT : N + 1 < 2 ^ 31) (h : B * (N + 1) < 2 ^ 31) :
    Int32.ltiRecur2Cuda scan junk (t2 2 2 A) (t2 B 2 zi) (t3 B N 2 x) =
      .ok (t3 B N 2 fun b n i => vecRec 2 (fun _ => A) (zi b) (x b) (n + 1) i) := by
  rw [ltiRecur2Cuda_exact scan junk _ _ _ (by rw [size_t3_1]; exact le_intMax hT)
    (by rw [size_t3_0, size_t3_1]; exact le_intMax h) (by rw [rank_t2]; intro h; cases h)]
  exact Cuda.ltiRecur2Cuda_isMatrixOp (fill_isScan hscan _) B N _ _ zi x (.shared A)

example := C54_cuda_lti_recur2_shared_partial C40_left_case (fun i => (i : ℤ) + 3) (B := 3) (N := 7) (fun i t => (i : ℤ) * t)
  (fun i t => (i : ℤ) + t) (fun i t k => (i : ℤ) - t * k) (by decide) (by decide)

/-- **C54, `lti_recur2` on CUDA with one matrix per item**: exact limit for fewer than `2 ^ 31` steps. -/
theorem C54_cuda_lti_recur2_batched {scan : Scanner (Cuda.Sq2 α)} (hscan : IsScan scan) (junk : Nat → α) {B N : Nat}
    (A : Nat → Nat → Nat → α) (zi : Nat → Nat → α) (x : Nat → Nat → Nat → α) (hN : 0 < N) (hT : N + 1 < 2 ^ 31)
    (h : B * (N + 1) < 2 ^ 31) :
    (4 * B ≤ 2 ^ 31 → Int32.ltiRecur2Cuda scan junk (t3 B 2 2 A) (t2 B 2 zi) (t3 B N 2 x) =
      .ok (t3 B N 2 fun b n i => vecRec 2 (fun _ => A b) (zi b) (x b) (n + 1) i)) ∧
    (2 ^ 31 < 4 * B → Int32.ltiRecur2Cuda scan junk (t3 B 2 2 A) (t2 B 2 zi) (t3 B N 2 x) =
      .error "signed integer overflow") := by
  constructor
  · intro hB
    rw [ltiRecur2Cuda_exact scan junk _ _ _ (by rw [size_t3_1]; exact le_intMax hT)
      (by rw [size_t3_0, size_t3_1]; exact le_intMax h) (by rw [size_t3_0]; unfold intMax; omega)]
    exact Cuda.ltiRecur2Cuda_isMatrixOp (fill_isScan hscan _) B N _ _ zi x (.batched A)
  · intro hB
    exact ltiRecur2Cuda_over scan junk A zi x hN (le_intMax hT) (le_intMax h) (by unfold intMax; omega)

example := C54_cuda_lti_recur2_batched C40_left_case (fun i => (i : ℤ) + 3) (B := 3) (N := 7) (fun i t k => (i : ℤ) - t * k)
  (fun i t => (i : ℤ) + t) (fun i t k => (i : ℤ) - t * k) (by decide) (by decide) (by decide)

/-- **C54 fails for `lti_recur2` on CUDA** with `2 ^ 31` steps or more: uninitialised memory. -/
theorem C54_cuda_lti_recur2_uninitialised (scan : Scanner (Cuda.Sq2 α)) (junk : Nat → α) {B N : Nat} {A : Tensor α}
    {a : Nat → Nat → Nat → α} (zi : Nat → Nat → α) (x : Nat → Nat → Nat → α) (hA : MatVals B 2 2 A a)
    (h : 2 ^ 31 ≤ B * (N + 1)) (h' : B * (N + 1) ≤ 2 ^ 32) :
    Int32.ltiRecur2Cuda scan junk A (t2 B 2 zi) (t3 B N 2 x) =
      .ok (t3 B N 2 fun b n i => junk (i * (B * (N + 1)) + (b * (N + 1) + (n + 1)))) :=
  ltiRecur2Cuda_open scan junk zi x hA (intMax_lt h) (by omega)

example := C54_cuda_lti_recur2_uninitialised leftScan (fun i => (i : ℤ) + 3) (B := 2 ^ 16) (N := 2 ^ 16 - 1) (fun i t => (i : ℤ) * t)
  (fun i t k => (i : ℤ) + t * k) (.batched fun i t k => (i : ℤ) - t * k) (by norm_num) (by norm_num)

/-- **C54, `recur2` on CUDA with one sequence**: exact limit for fewer than `2 ^ 31` steps. -/
theorem C54_cuda_recur2_shared {scan : Scanner (Cuda.Sq2 α)} (hscan : IsScan scan) (junk : Nat → α) {B N : Nat}
    (A : Nat → Nat → Nat → α) (zi : Nat → Nat → α) (x : Nat → Nat → Nat → α) (hB : 0 < B) (hT : N + 1 < 2 ^ 31)
    (h : B * (N + 1) < 2 ^ 31) :
    (4 * (N + 1) ≤ 2 ^ 31 → Int32.recur2Cuda scan junk (t3 N 2 2 A) (t2 B 2 zi) (t3 B N 2 x) =
      .ok (t3 B N 2 fun b n i => vecRec 2 A (zi b) (x b) (n + 1) i)) ∧
    (2 ^ 31 < 4 * (N + 1) → Int32.recur2Cuda scan junk (t3 N 2 2 A) (t2 B 2 zi) (t3 B N 2 x) =
      .error "signed integer overflow") := by
  constructor
  · intro hA
    rw [recur2Cuda_exact scan junk _ _ _ (by rw [size_t3_1]; exact le_intMax hT)
      (by rw [size_t3_0, size_t3_1]; exact le_intMax h) (by rw [size_t3_1]; unfold intMax; omega)
      (by rw [rank_t3]; intro h; cases h)]
    exact Cuda.recur2Cuda_isVaryingOp (fill_isScan hscan _) B N _ _ zi x (.shared A)
  · intro hA
    exact recur2Cuda_over_shared scan junk A zi x hB (le_intMax hT) (le_intMax h) (by unfold intMax; omega)

example := C54_cuda_recur2_shared C40_left_case (fun i => (i : ℤ) + 3) (B := 3) (N := 7) (fun i t k => (i : ℤ) - t * k) (fun i t => (i : ℤ) + t)
  (fun i t k => (i : ℤ) - t * k) (by decide) (by decide) (by decide)

/-- **C54, `recur2` on CUDA with one sequence per item**: exact limit for fewer than `2 ^ 31` steps. -/
theorem C54_cuda_recur2_batched {scan : Scanner (Cuda.Sq2 α)} (hscan : IsScan scan) (junk : Nat → α) {B N : Nat}
    (A : Nat → Nat → Nat → Nat → α) (zi : Nat → Nat → α) (x : Nat → Nat → Nat → α) (hT : N + 1 < 2 ^ 31)
    (h : B * (N + 1) < 2 ^ 31) :
    (3 * (B * (N + 1)) < 2 ^ 31 → Int32.recur2Cuda scan junk (t4 B N 2 2 A) (t2 B 2 zi) (t3 B N 2 x) =
      .ok (t3 B N 2 fun b n i => vecRec 2 (A b) (zi b) (x b) (n + 1) i)) ∧
    (2 ^ 31 ≤ 3 * (B * (N + 1)) → Int32.recur2Cuda scan junk (t4 B N 2 2 A) (t2 B 2 zi) (t3 B N 2 x) =
      .error "signed integer overflow") := by
  constructor
  · intro hA
    rw [recur2Cuda_exact scan junk _ _ _ (by rw [size_t3_1]; exact le_intMax hT)
      (by rw [size_t3_0, size_t3_1]; exact le_intMax h) (by rw [rank_t4]; intro h; exact absurd rfl h)
      (by rw [size_t3_0, size_t3_1]; exact fun _ => le_intMax (by omega))]
    exact Cuda.recur2Cuda_isVaryingOp (fill_isScan hscan _) B N _ _ zi x (.batched A)
  · intro hA
    exact recur2Cuda_over_batched scan junk A zi x (le_intMax hT) (le_intMax h) (by unfold intMax; omega)

/-! ## The hypotheses can be met -/

/-- Two signals of three samples. -/
example : Int32.ltiRecurCpu (α := Int) sequential (t1 2 fun b => b + 2) (t1 2 fun _ => 1) (t2 2 3 fun _ t => t) =
    .ok (t2 2 3 fun b n => scalarRec (fun _ => (b : Int) + 2) 1 (fun t => t) (n + 1)) :=
  C54_lti_recur_partial sequential_isScheduler _ _ (.full _) (by decide) (by decide) (by decide)

/-- 65536 signals of 65535 samples: the offsets of the second half do not fit. -/
example (x : Nat → Nat → Int) : Int32.ltiRecurCpu sequential (t0 2) (t1 65536 fun _ => 1) (t2 65536 65535 x) =
    .error "signed integer overflow" :=
  C54_lti_recur_overflow sequential _ x (.scalar 2) (by norm_num) (by norm_num) (by norm_num)

/-- One signal of `2 ^ 31 - 1` samples and the coefficient 1: unfiltered. -/
example (x : Nat → Nat → Int) : Int32.ltiRecurCpu sequential (t0 1) (t1 1 fun _ => 1) (t2 1 (2 ^ 31 - 1) x) =
    .ok (t2 1 (2 ^ 31 - 1) x) :=
  (C54_lti_recur_long sequential_isScheduler 1 _ x (by norm_num) (by norm_num)).1

/-- Sixteen sequences of 2 ^ 22 matrices of dimension eight: `b * T * N * N` does not fit. -/
example (A : Nat → Nat → Nat → Nat → Int) (zi : Nat → Nat → Int) (x : Nat → Nat → Nat → Int) :
    Int32.recurNCpu sequential (t4 16 4194304 8 8 A) (t2 16 8 zi) (t3 16 4194304 8 x) = .error "signed integer overflow" :=
  (C54_recurN_batched sequential_isScheduler A zi x (by norm_num) (by norm_num) (by norm_num)).2 (by norm_num)

/-- The same shapes in dimension two on CUDA fit. -/
example {scan : Scanner (Cuda.Sq2 Int)} (hscan : IsScan scan) (junk : Nat → Int) (A : Nat → Nat → Nat → Nat → Int)
    (zi : Nat → Nat → Int) (x : Nat → Nat → Nat → Int) :
    Int32.recur2Cuda scan junk (t4 16 4194304 2 2 A) (t2 16 2 zi) (t3 16 4194304 2 x) =
      .ok (t3 16 4194304 2 fun b n i => vecRec 2 (A b) (zi b) (x b) (n + 1) i) :=
  (C54_cuda_recur2_batched hscan junk A zi x (by norm_num) (by norm_num)).1 (by norm_num)

end Props
