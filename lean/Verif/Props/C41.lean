import Verif.Proof.DispatchFilter
import Verif.Proof.Helion
import Verif.Props.C07
import Verif.Props.C38
import Verif.Props.C39
import Verif.Props.C40

/-!
# C41: backend transparency

An `Env` (Model/Dispatch.lean) says what is installed, where the tensors are and what the installed operators do; `Correct`
(Spec/Backends.lean) says that they compute their recurrences.  Full claim: the values of the functions do not depend on the
`Env`.  That is false:

* some combinations of installed packages fail on arguments that are fine without them (`C41_…_fails`); the theorems therefore
  assume `LtiInstall` or `LpvInstall`, which list the combinations that work;
* empty signals are rejected without the extension and give an output of length one with it (`C41_empty_signal`);
* the extension ignores the unroll factor of the forms `df1` and `tdf1` of `lpv.lfilter`, and the pure Python code is wrong for
  some unroll factors (C07): `C41_unroll_ignored`;
* the extension reads outside its arguments for one sequence of matrices and several signals (`C41_out_of_bounds`).
-/

namespace Props
open Torch Torch.Tensor Spec Phil Phil.Host Omp Phil.Cuda Scan
variable {α : Type} [CommRing α]

/-! ## Installations made of the modelled kernels -/

/-- A function that meets the contract of ParaRNN's reduction. -/
def refReduce (M : Nat) (jac rhs : Tensor α) : Res (Tensor α) :=
  .ok (t3 (rhs.size 0) (rhs.size 1) M fun b t i =>
    vecRec M (fun t i k => -jac.get [b, t, i, k]) (fun _ => 0) (fun t i => rhs.get [b, t, i]) (t + 1) i)

theorem C41_reduce_contract (M : Nat) : IsBlockReduce (α := α) M (refReduce M) := by
  intro B T jac rhs
  refine congrArg Except.ok (t3_congr rfl rfl rfl fun b t i hb ht hi => ?_)
  have ht' : t < T := ht
  have hb' : b < B := hb
  refine vecRec_congr (fun _ _ => rfl) (fun s hs i k hi hk => ?_) (fun s hs i hi => ?_) hi
  · rw [get_t4 hb' (by omega) hi hk]
  · rw [get_t3 hb' (by omega) hi]

/-- The compiled extension on the CPU; the OpenMP threads are scheduled by `sch`. -/
def cpuEnv (sch : Scheduler (Regs α) α) : Env α where
  ext := true
  extCuda := false
  helion := false
  pararnn := false
  cuda := false
  complex := false
  ltiRecur := ltiRecurCpu sch
  ltiRecur2 := ltiRecurNCpu sch
  ltiRecurN := ltiRecurNCpu sch
  recur2 := recurNCpu sch
  recurN := recurNCpu sch
  hlLtiRecurN := fun _ _ _ => .error "not installed"
  hlRecurN := fun _ _ _ => .error "not installed"
  reduce2 := fun _ _ => .error "not installed"
  reduce3 := fun _ _ => .error "not installed"
  lpc := Lpv.refLpc

/-- Everything installed, tensors on a CUDA device; the scans bracket as they like, Helion tiles as it likes. -/
def cudaEnv (s1 : Scanner (α × α)) (s2 s3 : Scanner (Sq2 α)) (tile : Helion.Tiler) : Env α where
  ext := true
  extCuda := true
  helion := true
  pararnn := true
  cuda := true
  complex := false
  ltiRecur := ltiRecurCuda s1
  ltiRecur2 := ltiRecur2Cuda s2
  ltiRecurN := fun _ _ _ => .error "no CUDA implementation"
  recur2 := recur2Cuda s3
  recurN := fun _ _ _ => .error "no CUDA implementation"
  hlLtiRecurN := Helion.hlLtiRecurN tile
  hlRecurN := Helion.hlRecurN tile
  reduce2 := refReduce 2
  reduce3 := refReduce 3
  lpc := Lpv.refLpc

/-- **C41, instance**: the extension on the CPU, under every schedule of its threads. -/
theorem C41_cpu_extension {sch : Scheduler (Regs α) α} (h : IsScheduler sch) :
    Correct (cpuEnv sch) ∧ ∀ M, LtiInstall (cpuEnv sch) M ∧ LpvInstall (cpuEnv sch) M := by
  refine ⟨⟨fun _ => ltiRecurCpu_isScalarOp h, fun _ => ltiRecurNCpu_isMatrixOp h 2, fun _ _ M => ltiRecurNCpu_isMatrixOp h M,
    fun _ => recurNCpu_isVaryingOp h 2, fun _ _ M => recurNCpu_isVaryingOp h M, fun h => (by cases h), fun h => (by cases h),
    fun h => (by cases h), fun h => (by cases h), Lpv.refLpc_isLpc⟩, fun M => ⟨⟨fun _ h => (by cases h), fun h => (by cases h.1)⟩, fun _ h => (by cases h),
    fun h => (by cases h.1), fun h => (by cases h.1)⟩⟩

example := C41_cpu_extension (α := ℤ) C38_alternating_case

/-- **C41, instance**: the CUDA extension, Helion and ParaRNN, under every bracketing and tiling. -/
theorem C41_cuda_extension {s1 : Scanner (α × α)} {s2 s3 : Scanner (Sq2 α)} {tile : Helion.Tiler} (h1 : IsScan s1) (h2 : IsScan s2)
    (h3 : IsScan s3) (ht : Helion.IsTiler tile) :
    Correct (cudaEnv s1 s2 s3 tile) ∧ ∀ M, LtiInstall (cudaEnv s1 s2 s3 tile) M ∧ LpvInstall (cudaEnv s1 s2 s3 tile) M := by
  refine ⟨⟨fun _ => ltiRecurCuda_isScalarOp h1, fun _ => ltiRecur2Cuda_isMatrixOp h2, fun _ h => (by cases h),
    fun _ => recur2Cuda_isVaryingOp h3, fun _ h => (by cases h), fun _ M => Helion.hlLtiRecurN_isMatrixOp tile ht M,
    fun _ M => Helion.hlRecurN_isVaryingOp tile ht M, fun _ => C41_reduce_contract 2, fun _ => C41_reduce_contract 3, Lpv.refLpc_isLpc⟩,
    fun M => ⟨⟨fun _ _ => rfl, fun _ _ => rfl⟩, fun _ _ => rfl, fun _ => Or.inl rfl, fun _ _ => Or.inl rfl⟩⟩

example := C41_cuda_extension (α := ℤ) C40_left_case C40_left_case C40_right_case Helion.whole_isTiler

/-! ## The functions do not depend on the backend -/

section
variable [StarRing α]

omit [StarRing α] in
/-- **C41, `lti.state_space_recursion`**: any unroll factor, also a rejected one. -/
theorem C41_lti_recursion_partial {e : Env α} (hc : Correct e) {B N M : Nat} (hi : LtiInstall e M) {A x : Tensor α}
    {Av xv : Nat → Nat → Nat → α} (hA : MatVals B M M A Av) (hx : Drive B N M x xv) (zi : Nat → Nat → α) (u : Int)
    (o : Option Int) (ho : ∀ i, o = some i → -(M : Int) ≤ i ∧ i < M) (hM : 0 < M) (hN : 0 < N) :
    Lti.stateSpaceRecursionOn e A (t2 B M zi) x u o = Lti.stateSpaceRecursion A (t2 B M zi) x u o :=
  Lti.stateSpaceRecursionOn_eq hc hi hA hx zi u o (by cases o; exacts [trivial, ho _ rfl]) hM hN

example := C41_lti_recursion_partial (C41_cpu_extension C38_alternating_case).1 (B := 3) (N := 7) (M := 2)
  ((C41_cpu_extension C38_alternating_case).2 _).1 (.batched fun i t k => (i : ℤ) - t * k) (.full fun i t k => (i : ℤ) + t * k)
  (fun i t => (i : ℤ) - t) 2 (some (-1)) (by simp) (by decide) (by decide)

/-- **C41, `lti.state_space`**: whatever `C`, `D`, the unroll factor and the output index are. -/
theorem C41_lti_state_space_partial {e : Env α} (hc : Correct e) {B N M : Nat} (hi : LtiInstall e M) {A x : Tensor α}
    {Bm C D zi : Option (Tensor α)} {Av v : Nat → Nat → Nat → α} {z : Nat → Nat → α} {u o : Option Int}
    (hA : MatVals B M M A Av) (hB : LtiInput B N M Bm x v) (hz : InitState B M zi z)
    (ho : ∀ i, o = some i → -(M : Int) ≤ i ∧ i < M) (hM : 0 < M) (hN : 0 < N) :
    Lti.stateSpaceOn e A x Bm C D zi u o = Lti.stateSpace A x Bm C D zi u o :=
  Lti.stateSpaceOn_eq hc hi hA hB hz (by cases o; exacts [trivial, ho _ rfl]) hM hN

example := C41_lti_state_space_partial (C41_cpu_extension C38_alternating_case).1 (B := 3) (N := 7) (M := 2)
  ((C41_cpu_extension C38_alternating_case).2 _).1 (C := none) (D := none) (u := some 2) (o := some 1) (.batched fun i t k => (i : ℤ) - t * k)
  (.batchVec (fun i t => (i : ℤ) + t) fun i t => (i : ℤ) * t) (.full fun i t => (i : ℤ) - t) (by simp) (by decide) (by decide)

/-- **C41, `lti.lfilter`** in every form. -/
theorem C41_lti_lfilter_partial {e : Env α} (hc : Correct e) {B N K P : Nat} {b a X : Tensor α} {bv av x z : Nat → Nat → α}
    (hi : LtiInstall e (max P (K - 1))) (hb : Rows B K b bv) (ha : Rows B P a av) (hx : Sig N B X x) {zi : Option (Tensor α)}
    (hz : InitState B (max P (K - 1)) zi z) (form : Lti.Form) (u : Option Int)
    (hB : 0 < B) (hK : 0 < K) (hM : 0 < max P (K - 1)) (hN : 0 < N) :
    Lti.lfilterOn e b a X zi form u = Lti.lfilter b a X zi form u :=
  Lti.lfilterWith_congr hx (Lti.ssmLfilterOn_eq hc hi hb ha x hz form hB hK hM hN u)

example := C41_lti_lfilter_partial (C41_cpu_extension C38_alternating_case).1 (B := 3) (N := 7) (K := 3) (P := 2)
  ((C41_cpu_extension C38_alternating_case).2 _).1 (.batched fun i t => (i : ℤ) + t) (.batched fun i t => (i : ℤ) + t)
  (.batched 3 fun i t => (i : ℤ) * t) (.full fun i t => (i : ℤ) - t) .tdf2 (some 2) (by decide) (by decide) (by decide) (by decide)

omit [StarRing α] in
/-- **C41, `lpv.state_space_recursion`**, for every unroll factor. -/
theorem C41_lpv_recursion_partial {e : Env α} (hc : Correct e) {B N M : Nat} (hi : LpvInstall e M) {A x : Tensor α}
    {Av : Nat → Nat → Nat → Nat → α} {xv : Nat → Nat → Nat → α} (hA : MatSeq B N M M A Av) (hx : Drive B N M x xv)
    (zi : Nat → Nat → α) (u : Int) (o : Option Int) (ho : ∀ i, o = some i → -(M : Int) ≤ i ∧ i < M) (hM : 0 < M) (hN : 0 < N)
    (hP : HelionRuns e → 0 < B) :
    Lpv.stateSpaceRecursionOn e A (t2 B M zi) x u o = Lpv.stateSpaceRecursion A (t2 B M zi) x u o :=
  Lpv.stateSpaceRecursionOn_eq hc hi hA hx zi u o (by cases o; exacts [trivial, ho _ rfl]) hM hN hP

example := C41_lpv_recursion_partial (C41_cpu_extension C38_alternating_case).1 (B := 3) (N := 7) (M := 2)
  ((C41_cpu_extension C38_alternating_case).2 _).2 (.batched fun i t k j => (i : ℤ) + t * k - j) (.full fun i t k => (i : ℤ) + t * k)
  (fun i t => (i : ℤ) - t) 2 (some (-1)) (by simp) (by decide) (by decide) (fun _ => by decide)

/-- **C41, `lpv.state_space`**, for every unroll factor: where the blocked algorithm is wrong (C07), it is wrong
in the same way with every backend. -/
theorem C41_lpv_state_space_partial {e : Env α} (hc : Correct e) {B N M : Nat} (hi : LpvInstall e M) {A x : Tensor α}
    {Bm C D zi : Option (Tensor α)} {Av : Nat → Nat → Nat → Nat → α} {v : Nat → Nat → Nat → α} {z : Nat → Nat → α}
    {u o : Option Int} (hA : MatSeq B N M M A Av) (hB : LpvInput B N M Bm x v) (hz : InitState B M zi z)
    (ho : ∀ i, o = some i → -(M : Int) ≤ i ∧ i < M) (hM : 0 < M) (hN : 0 < N) (hP : HelionRuns e → 0 < B) :
    Lpv.stateSpaceOn e A x Bm C D zi u o = Lpv.stateSpace A x Bm C D zi u o :=
  Lpv.stateSpaceOn_eq hc hi hA hB hz (by cases o; exacts [trivial, ho _ rfl]) hM hN hP

example := C41_lpv_state_space_partial (C41_cpu_extension C38_alternating_case).1 (B := 3) (N := 7) (M := 2)
  ((C41_cpu_extension C38_alternating_case).2 _).2 (C := none) (D := none) (u := some 2) (o := some 1) (.batched fun i t k j => (i : ℤ) + t * k - j)
  (.batchVec (fun i t => (i : ℤ) + t) (fun i t => (i : ℤ) * t) (by decide)) (.full fun i t => (i : ℤ) - t) (by simp) (by decide) (by decide)
  (fun _ => by decide)

/-- **C41, `lpv.lfilter`** in every form; the unroll factor matters only for the forms `df1` and `tdf1`, where the extension
ignores it (`C41_unroll_ignored`). -/
theorem C41_lpv_lfilter_partial {e : Env α} (hc : Correct e) {B N K P : Nat} {b a X : Tensor α} {bv av : Nat → Nat → Nat → α}
    {x z : Nat → Nat → α} (hi : LpvInstall e (max P (K - 1))) (hb : MatVals B N K b bv) (ha : MatVals B N P a av)
    (hx : Sig N B X x) {zi : Option (Tensor α)} (hz : InitState B (max P (K - 1)) zi z) (form : Lti.Form) (back : Lpv.Backend)
    {u : Option Int} (hB : 0 < B) (hK : 0 < K) (hM : 0 < max P (K - 1)) (hN : 0 < N)
    (hu : form = .df1 ∨ form = .tdf1 → GoodUnroll N (some (u.getD 1))) :
    Lpv.lfilterOn e b a X zi form back u = Lpv.lfilter e.lpc b a X zi form back u := by
  refine Lpv.lfilterWith_congr hx ?_
  cases back with
  | ssm => exact Lpv.ssmLfilterOn_eq hc hi hb ha x hz form hB hK hM hN u hu
  | torchlpc => rfl
  | other => rfl

example := C41_lpv_lfilter_partial (C41_cpu_extension C38_alternating_case).1 (B := 3) (N := 7) (K := 3) (P := 2)
  ((C41_cpu_extension C38_alternating_case).2 _).2 (.batched fun i t k => (i : ℤ) - t * k) (.batched fun i t k => (i : ℤ) + t * k)
  (.batched 3 fun i t => (i : ℤ) * t) (.full fun i t => (i : ℤ) - t) .tdf2 .ssm (u := some 2) (by decide) (by decide) (by decide)
  (by decide) (by simp)

/-- **C41, two installations**: the same result on the same arguments. -/
theorem C41_lti_state_space_same_partial {e e' : Env α} (hc : Correct e) (hc' : Correct e') {B N M : Nat} (hi : LtiInstall e M)
    (hi' : LtiInstall e' M) {A x : Tensor α}
    {Bm C D zi : Option (Tensor α)} {Av v : Nat → Nat → Nat → α} {z : Nat → Nat → α} {u o : Option Int}
    (hA : MatVals B M M A Av) (hB : LtiInput B N M Bm x v) (hz : InitState B M zi z)
    (ho : ∀ i, o = some i → -(M : Int) ≤ i ∧ i < M) (hM : 0 < M) (hN : 0 < N) :
    Lti.stateSpaceOn e A x Bm C D zi u o = Lti.stateSpaceOn e' A x Bm C D zi u o := by
  rw [C41_lti_state_space_partial hc hi hA hB hz ho hM hN, C41_lti_state_space_partial hc' hi' hA hB hz ho hM hN]

end

example := C41_lti_state_space_same_partial (C41_cpu_extension C38_alternating_case).1
  (C41_cuda_extension C40_left_case C40_right_case C40_left_case Helion.whole_isTiler).1 (B := 3) (N := 7) (M := 2)
  ((C41_cpu_extension C38_alternating_case).2 _).1 ((C41_cuda_extension C40_left_case C40_right_case C40_left_case Helion.whole_isTiler).2 _).1
  (C := none) (D := none) (u := some 2) (o := some 1) (.batched fun i t k => (i : ℤ) - t * k)
  (.batchVec (fun i t => (i : ℤ) + t) fun i t => (i : ℤ) * t) (.full fun i t => (i : ℤ) - t) (by simp) (by decide) (by decide)

/-- **C41, `lti.diag_state_space`**: `V` and `Vinv` given, in matching layouts (they need not diagonalise anything). -/
theorem C41_diag_state_space_partial {α : Type} [Field α] [StarRing α] {e : Env α} (hc : Correct e) (hi : e.ext → e.cuda → e.extCuda)
    {eigvals : Tensor α → Res (Tensor α)} {fe : Tensor α → Tensor α → Res (Tensor α)} {re : α → α} {realC : Bool} {B N M : Nat}
    {L V W x : Tensor α} {A Bm C D zi : Option (Tensor α)} {l z : Nat → Nat → α} {v w vx : Nat → Nat → Nat → α} {u out : Option Int}
    (hL : Eigen B M L V W l v w) (hA : ∀ A', A = some A' → A'.shape = V.shape) (hB : LtiInput B N M Bm x vx)
    (hz : InitState B M zi z) (hM : 0 < M) (hN : 0 < N) :
    Lti.diagStateSpaceOn e eigvals fe re realC x (some L) (some V) (some W) A Bm C D zi out u =
      Lti.diagStateSpace eigvals fe re realC x (some L) (some V) (some W) A Bm C D zi out u := by
  obtain ⟨h1, h2, h3⟩ := Lti.eigen_parts hL
  obtain ⟨hx1, hx2, hx3⟩ := Lti.size_LtiInput hB
  unfold Lti.diagStateSpaceOn Lti.diagStateSpace Lti.diagStateSpaceWith
  iterate 2 refine Lti.bind_congr_ok fun _ _ => ?_
  dsimp only
  rw [hx2, Lti.checkEigen_eq hL (Or.inr rfl) (Or.inr rfl) (Or.inl rfl) hA, ok_bind, ok_bind]
  show Lti.diagRun _ _ _ _ _ _ _ _ _ _ _ _ _ _ = Lti.diagRun _ _ _ _ _ _ _ _ _ _ _ _ _ _
  exact Lti.diagRun_congr re realC h1 h3 hB hz hM fun a i x => Lti.diagRunner_eq hc hi hN a i x _

example (ev : Tensor ℚ → Res (Tensor ℚ)) (fe : Tensor ℚ → Tensor ℚ → Res (Tensor ℚ)) :=
  C41_diag_state_space_partial (C41_cpu_extension C38_alternating_case).1 (fun _ h => by cases h) (eigvals := ev) (fe := fe) (re := id)
  (realC := true) (B := 3) (N := 7) (M := 2) (A := none) (C := none) (D := none) (u := some 2) (out := some 1)
  (.batched (fun i t => (i : ℚ) + t) (fun i t k => (i : ℚ) + t * k) fun i t k => (i : ℚ) - t * k) (by simp)
  (.batchVec (fun i t => (i : ℚ) + t) fun i t => (i : ℚ) * t) (.full fun i t => (i : ℚ) - t) (by decide) (by decide)

/-- **C41, CPU against CUDA** for `lti.state_space`. -/
theorem C41_cpu_cuda [StarRing α] {sch : Scheduler (Regs α) α} (h : IsScheduler sch) {s1 : Scanner (α × α)} {s2 s3 : Scanner (Sq2 α)}
    {tile : Helion.Tiler} (h1 : IsScan s1) (h2 : IsScan s2) (h3 : IsScan s3) (ht : Helion.IsTiler tile) {B N M : Nat} {A x : Tensor α}
    {Bm C D zi : Option (Tensor α)} {Av v : Nat → Nat → Nat → α} {z : Nat → Nat → α} {u : Option Int}
    (hA : MatVals B M M A Av) (hB : LtiInput B N M Bm x v) (hz : InitState B M zi z) (hM : 0 < M) (hN : 0 < N) :
    Lti.stateSpaceOn (cpuEnv sch) A x Bm C D zi u none = Lti.stateSpaceOn (cudaEnv s1 s2 s3 tile) A x Bm C D zi u none :=
  C41_lti_state_space_same_partial (C41_cpu_extension h).1 (C41_cuda_extension h1 h2 h3 ht).1 ((C41_cpu_extension h).2 M).1
    ((C41_cuda_extension h1 h2 h3 ht).2 M).1 hA hB hz (fun _ h => by cases h) hM hN

/-! ## Combinations that do not work -/

section
variable [StarRing α]

omit [StarRing α] in
theorem shiftedStates_fails {r : Tensor α → Tensor α → Tensor α → Int → Option Int → Res (Tensor α)} {A zi Bx : Tensor α} {u : Int}
    {out : Option Int} {rz : Bool} (h : ∀ o, Fails (r A zi Bx u o)) : Fails (Lti.shiftedStates r A zi Bx u out rz) := by
  unfold Lti.shiftedStates
  cases out with
  | none => exact fails_left (h none)
  | some i =>
    dsimp only
    split
    · exact fails_left (h none)
    · exact fails_left (h (some i))

theorem lti_state_space_fails {r : Tensor α → Tensor α → Tensor α → Int → Option Int → Res (Tensor α)} {B N M : Nat}
    {A x : Tensor α} {Bm C D zi : Option (Tensor α)} {v : Nat → Nat → Nat → α} {z : Nat → Nat → α} {u : Int} {out : Option Int}
    (hB : LtiInput B N M Bm x v) (hz : InitState B M zi z) (hA : A.size (-1) = M)
    (h : ∀ Bx o, Drive B N M Bx v → Fails (r A (t2 B M z) Bx u o)) :
    Fails (Lti.stateSpaceWith r A x Bm C D zi (some u) out) := by
  obtain ⟨hx1, hx2, hx3⟩ := Lti.size_LtiInput hB
  obtain ⟨Bx, hBx, hin⟩ := Lti.inputTerm_eq hB
  unfold Lti.stateSpaceWith
  iterate 5 refine fails_check fun _ => ?_
  rw [hx2, hA, Lti.initialState_eq hz, ok_bind]
  refine fails_bind fun Bx' hv => ?_
  obtain rfl : Bx' = Bx := Except.ok.inj (hv.symm.trans hin)
  exact fails_left (shiftedStates_fails fun o => h _ _ hBx)

theorem lpv_state_space_fails {r : Tensor α → Tensor α → Tensor α → Int → Option Int → Res (Tensor α)} {B N M : Nat}
    {A x : Tensor α} {Bm C D zi : Option (Tensor α)} {v : Nat → Nat → Nat → α} {z : Nat → Nat → α} {u : Int} {out : Option Int}
    (hB : LpvInput B N M Bm x v) (hz : InitState B M zi z) (hA : A.size (-1) = M)
    (h : ∀ Bx o, Drive B N M Bx v → Fails (r A (t2 B M z) Bx u o)) :
    Fails (Lpv.stateSpaceWith r A x Bm C D zi (some u) out) := by
  obtain ⟨hx1, hx2, hx3⟩ := Lpv.size_LpvInput hB
  obtain ⟨Bx, hBx, hin⟩ := Lpv.inputTerm_eq hB
  unfold Lpv.stateSpaceWith
  iterate 5 refine fails_check fun _ => ?_
  rw [hx2, hx3, hA, Lti.initialState_eq hz, ok_bind]
  refine fails_bind fun Bx' hv => ?_
  obtain rfl : Bx' = Bx := Except.ok.inj (hv.symm.trans hin)
  exact fails_left (shiftedStates_fails fun o => h _ _ hBx)

omit [StarRing α] in
/-- An operator of the extension that cannot be called. -/
theorem both_fails {e : Env α} {op : Op α} (h : e.ext = false ∨ (e.cuda = true ∧ e.extCuda = false)) (A zi x : Tensor α) :
    Fails (e.both op A zi x) := by
  unfold Env.both
  rcases h with h | ⟨h1, h2⟩
  · rw [if_pos (by simp [h])]; exact fails_error _
  · split
    · exact fails_error _
    · rw [if_pos (by simp [h1, h2])]; exact fails_error _

omit [StarRing α] in
theorem lti_ext_fails {e : Env α} {M : Nat} (h : e.ext = false ∨ (e.cuda = true ∧ e.extCuda = false)) (hM : M = 1 ∨ M = 2)
    {A Bx zi : Tensor α} {B N : Nat} {v : Nat → Nat → Nat → α} (hA : A.size (-1) = M) (hB : Drive B N M Bx v) (o : Option Int) :
    Fails (Lti.extSsRecur e A zi Bx o) := by
  unfold Lti.extSsRecur
  refine fails_check fun _ => fails_left ?_
  rw [hA]
  rcases hM with rfl | rfl
  · rw [if_pos rfl]
    exact fails_bind fun _ _ => fails_bind fun _ _ => fails_bind fun _ _ => fails_bind fun _ _ => fails_left (both_fails h _ _ _)
  · rw [if_neg (by decide)]
    refine fails_bind fun y hy => ?_
    have : y.size (-1) = 2 := by
      cases hB with
      | scalar x => rw [if_pos (by simp), Lti.firstComponent_t2 _ _ _ (by omega)] at hy; exact Except.ok.inj hy ▸ rfl
      | full x => rw [if_neg (by simp)] at hy; exact Except.ok.inj hy ▸ rfl
    unfold Lti.ltiMatrixRecurrence
    rw [if_pos this]
    exact both_fails h _ _ _

/-- **C41 is false for an extension built without CUDA**: on a CUDA device `lti.state_space` of dimension 2 fails with it, for all
arguments and unroll factor 1. -/
theorem C41_cpu_only_extension_fails {e : Env α} (h1 : e.ext = true) (h2 : e.cuda = true) (h3 : e.extCuda = false) {B N : Nat}
    {A x : Tensor α} {Bm C D zi : Option (Tensor α)} {Av v : Nat → Nat → Nat → α} {z : Nat → Nat → α} {out : Option Int}
    (hA : MatVals B 2 2 A Av) (hB : LtiInput B N 2 Bm x v) (hz : InitState B 2 zi z) :
    Fails (Lti.stateSpaceOn e A x Bm C D zi (some 1) out) := by
  obtain ⟨-, -, hA3, -⟩ := Lti.size_MatVals hA
  unfold Lti.stateSpaceOn
  refine lti_state_space_fails hB hz hA3 fun Bx o hBx => ?_
  unfold Lti.recurRunner
  rw [hA3, if_pos ⟨by simp [Env.ltiUseExt, h1], rfl⟩]
  exact lti_ext_fails (Or.inr ⟨h2, h3⟩) (Or.inr rfl) hA3 hBx o

example := C41_cpu_only_extension_fails (e := { cpuEnv (α := ℤ) alternating with cuda := true }) rfl rfl rfl (B := 3) (N := 7) (C := none)
  (D := none) (out := some 1) (.batched fun i t k => (i : ℤ) + t * k) (.batchVec (fun i t => (i : ℤ) + t) fun i t => (i : ℤ) * t)
  (.full fun i t => (i : ℤ) - t)

/-- **C41 is false for Helion without the extension**: for real tensors on a CUDA device `lti.state_space` of dimension 1 or 2 fails
with it, for all arguments and unroll factor 1. -/
theorem C41_helion_alone_fails {e : Env α} (h1 : e.ext = false) (h2 : HelionRuns e) {B N M : Nat} (hM : M = 1 ∨ M = 2)
    {A x : Tensor α} {Bm C D zi : Option (Tensor α)} {Av v : Nat → Nat → Nat → α} {z : Nat → Nat → α} {out : Option Int}
    (hA : MatVals B M M A Av) (hB : LtiInput B N M Bm x v) (hz : InitState B M zi z) :
    Fails (Lti.stateSpaceOn e A x Bm C D zi (some 1) out) := by
  obtain ⟨-, -, hA3, -⟩ := Lti.size_MatVals hA
  unfold Lti.stateSpaceOn
  refine lti_state_space_fails hB hz hA3 fun Bx o hBx => ?_
  unfold Lti.recurRunner
  rw [hA3, if_neg (by simp [Env.ltiUseExt, h1])]
  unfold Lti.stateSpaceRecursionOn
  rw [if_pos (Env.useHelion_iff.2 h2), Lti.stateSpaceRecursionAux]
  iterate 9 refine fails_check fun _ => ?_
  rw [if_pos (Or.inl (by decide))]
  exact lti_ext_fails (Or.inl h1) hM hA3 hBx o

example := C41_helion_alone_fails
  (e := { cudaEnv (α := ℤ) leftScan rightScan leftScan (fun n => [List.range n]) with ext := false }) rfl ⟨rfl, rfl, by decide⟩
  (B := 3) (N := 7) (M := 2) (Or.inr rfl) (C := none) (D := none) (out := some 1)
  (.batched fun i t k => (i : ℤ) + t * k) (.batchVec (fun i t => (i : ℤ) + t) fun i t => (i : ℤ) * t) (.full fun i t => (i : ℤ) - t)

/-- **C41 is false for ParaRNN alone**: `lpv.state_space` of dimension 2 or 3 fails with it, for all arguments and unroll
factor 1. -/
theorem C41_pararnn_alone_fails {e : Env α} (h1 : e.ext = false) (h2 : e.helion = false) {M : Nat} (h3 : PararnnRuns e M) {B N : Nat}
    {A x : Tensor α} {Bm C D zi : Option (Tensor α)} {Av : Nat → Nat → Nat → Nat → α} {v : Nat → Nat → Nat → α} {z : Nat → Nat → α}
    {out : Option Int} (hA : MatSeq B N M M A Av) (hB : LpvInput B N M Bm x v) (hz : InitState B M zi z) :
    Fails (Lpv.stateSpaceOn e A x Bm C D zi (some 1) out) := by
  obtain ⟨-, -, hA3, -⟩ := Lpv.size_MatSeq hA
  unfold Lpv.stateSpaceOn
  refine lpv_state_space_fails hB hz hA3 fun Bx o hBx => ?_
  unfold Lpv.recurRunner
  rw [hA3, if_pos ⟨(Env.lpvUseExt_iff M).2 (Or.inr h3), rfl⟩]
  unfold Lpv.extSsRecur
  exact fails_check fun h => by simp [h1, h2] at h

example := C41_pararnn_alone_fails
  (e := { cudaEnv (α := ℤ) leftScan rightScan leftScan (fun n => [List.range n]) with ext := false, helion := false }) rfl rfl
  (M := 3) ⟨rfl, rfl, by decide, Or.inr rfl⟩ (B := 3) (N := 7) (C := none) (D := none) (out := some 1)
  (.batched fun i t k j => (i : ℤ) + t * k - j) (.batchVec (fun i t => (i : ℤ) + t) (fun i t => (i : ℤ) * t) (by decide))
  (.full fun i t => (i : ℤ) - t)

/-- **C41 is false for Helion alone**, time-varying: `lpv.state_space` of dimension 2 fails with it, for all arguments and unroll
factor 1. -/
theorem C41_lpv_helion_alone_fails {e : Env α} (h1 : e.ext = false) (h2 : e.pararnn = false) (h3 : HelionRuns e) {B N : Nat}
    {A x : Tensor α} {Bm C D zi : Option (Tensor α)} {Av : Nat → Nat → Nat → Nat → α} {v : Nat → Nat → Nat → α} {z : Nat → Nat → α}
    {out : Option Int} (hA : MatSeq B N 2 2 A Av) (hB : LpvInput B N 2 Bm x v) (hz : InitState B 2 zi z) :
    Fails (Lpv.stateSpaceOn e A x Bm C D zi (some 1) out) := by
  obtain ⟨-, -, hA3, -⟩ := Lpv.size_MatSeq hA
  unfold Lpv.stateSpaceOn
  refine lpv_state_space_fails hB hz hA3 fun Bx o hBx => ?_
  unfold Lpv.recurRunner
  rw [hA3, if_neg (by simp [Env.lpvUseExt, Env.usePararnn, h1, h2])]
  unfold Lpv.stateSpaceRecursionOn
  rw [if_pos (Env.useHelion_iff.2 h3), Lpv.stateSpaceRecursionAux]
  iterate 10 refine fails_check fun _ => ?_
  rw [if_pos (Or.inl (by decide))]
  unfold Lpv.extSsRecur
  refine fails_check fun _ => fails_left ?_
  rw [hA3, if_neg (by decide)]
  refine fails_bind fun y hy => ?_
  have : y.size (-1) = 2 := by
    cases hBx with
    | scalar x => rw [if_pos (by simp), Lti.firstComponent_t2 _ _ _ (by omega)] at hy; exact Except.ok.inj hy ▸ rfl
    | full x => rw [if_neg (by simp)] at hy; exact Except.ok.inj hy ▸ rfl
  unfold Lpv.matrixRecurrence
  rw [if_neg (by simp [Env.usePararnn, h2]), if_pos this]
  exact both_fails (Or.inl h1) _ _ _

example := C41_lpv_helion_alone_fails
  (e := { cudaEnv (α := ℤ) leftScan rightScan leftScan (fun n => [List.range n]) with ext := false, pararnn := false }) rfl rfl
  ⟨rfl, rfl, by decide⟩ (B := 3) (N := 7) (C := none) (D := none) (out := some 1)
  (.batched fun i t k j => (i : ℤ) + t * k - j) (.batchVec (fun i t => (i : ℤ) + t) (fun i t => (i : ℤ) * t) (by decide))
  (.full fun i t => (i : ℤ) - t)

omit [StarRing α] in
/-- On a CUDA device without Helion the matrix recurrences themselves (`LTIMatrixRecurrence`, `MatrixRecurrence`) fail for states of
dimension 3 and more, since their operators exist on the CPU only; the tests of `state_space` do not choose them then. -/
theorem C41_matrix_recurrence_cuda_fails {e : Env α} (h1 : e.cuda = true) (h2 : ¬ HelionRuns e) {M : Nat} (hM : 3 ≤ M) {A zi x : Tensor α}
    (hx : x.size (-1) = M) :
    Fails (Lti.ltiMatrixRecurrence e A zi x) ∧ e.ltiUseExt M = false ∧
    (¬ PararnnRuns e M → Fails (Lpv.matrixRecurrence e A zi x) ∧ e.lpvUseExt M = false) := by
  have hu : ¬ e.useHelion = true := fun h => h2 (Env.useHelion_iff.1 h)
  have hc : ∀ op : Op α, Fails (e.cpuOnly op A zi x) := by
    intro op
    unfold Env.cpuOnly
    split
    · exact fails_error _
    · exact fails_error _
  refine ⟨?_, ?_, fun h3 => ⟨?_, ?_⟩⟩
  · unfold Lti.ltiMatrixRecurrence
    rw [if_neg (by omega), if_neg hu]
    exact hc _
  · rw [Bool.eq_false_iff, Ne, Env.ltiUseExt_iff]
    rintro ⟨-, h | ⟨h, -⟩⟩
    · omega
    · rw [h1] at h; cases h
  · unfold Lpv.matrixRecurrence
    rw [if_neg (by rw [hx, Env.usePararnn_iff]; exact h3), if_neg (by omega), if_neg hu]
    exact hc _
  · rw [Bool.eq_false_iff, Ne, Env.lpvUseExt_iff]
    rintro (⟨-, h | h⟩ | h)
    · rw [h1] at h; cases h
    · omega
    · exact h3 h

example := C41_matrix_recurrence_cuda_fails (e := { cpuEnv (α := ℤ) alternating with cuda := true }) rfl (fun h => Bool.false_ne_true h.1)
  (M := 3) (by decide) (A := t2 3 3 fun i j => (i : ℤ) - j) (zi := t2 2 3 fun i j => (i : ℤ) * j) (x := t3 2 5 3 fun i t j => (i : ℤ) * t + j) rfl

/-- **C41 is false for one sequence of matrices and several signals**, `A` of shape `(1, N, M, M)` and `x` of shape `(B, N, M)`:
`lpv.state_space` with the CPU extension reads outside of `A`, without it it rejects the call. -/
theorem C41_out_of_bounds {sch : Scheduler (Regs α) α} (h : IsScheduler sch) {B N M : Nat} (hB : 1 < B) (hN : 0 < N) (hM : 2 ≤ M)
    (A : Nat → Nat → Nat → Nat → α) (x : Nat → Nat → Nat → α) :
    OutOfBounds (Lpv.stateSpaceOn (cpuEnv sch) (t4 1 N M M A) (t3 B N M x) none none none none (some 1) none) ∧
    Fails (Lpv.stateSpace (t4 1 N M M A) (t3 B N M x) none none none none (some 1) none) := by
  have hs : (t4 1 N M M A).size (-1) = M := rfl
  constructor
  · unfold Lpv.stateSpaceOn Lpv.stateSpaceWith
    refine oob_checked (Or.inr (rank_t3 ..)) ?_
    refine oob_checked (Or.inr (rank_t4 ..)) ?_
    refine oob_checked rfl ?_
    refine oob_checked rfl ?_
    refine oob_checked (Or.inl rfl) ?_
    refine oob_step (Lti.initialState_eq (B := B) (M := M) (z := fun _ _ => 0) .zero) ?_
    refine oob_step rfl ?_
    refine oob_left (oob_left ?_)
    unfold Lpv.recurRunner
    rw [if_pos ⟨by simp [Env.lpvUseExt, cpuEnv], rfl⟩]
    unfold Lpv.extSsRecur
    refine oob_checked (Or.inl rfl) (oob_left ?_)
    rw [hs, if_neg (by omega)]
    refine oob_step rfl ?_
    have : Lpv.matrixRecurrence (cpuEnv sch) (t4 1 N M M A) (t2 B M fun _ _ => 0) (t3 B N M x) =
        recurNCpu sch (t4 1 N M M A) (t2 B M fun _ _ => 0) (t3 B N M x) := by
      unfold Lpv.matrixRecurrence
      rw [if_neg (by simp [Env.usePararnn, cpuEnv])]
      split
      · rfl
      · rw [if_neg (by simp [Env.useHelion, cpuEnv])]; rfl
    exact this ▸ C39_recurN_out_of_bounds_batched h (by nlinarith) hN (by omega) _ _ _
  · unfold Lpv.stateSpace Lpv.stateSpaceWith
    iterate 5 refine fails_check fun _ => ?_
    refine fails_bind fun z _ => fails_bind fun Bx hBx => fails_left (shiftedStates_fails fun o => ?_)
    obtain rfl := Except.ok.inj hBx
    exact C07_rejects_shapes _ _ _ _ _ (Or.inr (Or.inr (Or.inr (Or.inr (Or.inl ⟨rfl, fun h => by
      have h : B = 1 := h
      omega⟩)))))

end

example := C41_out_of_bounds C38_alternating_case (B := 3) (N := 7) (M := 2) (by decide) (by decide) (by decide)
  (fun i t k j => (i : ℤ) - t * k - j) (fun i t k => (i : ℤ) + t * k)

/-- **C41 is false for empty signals**: `lti.state_space` of a signal of length 0 gives an output of length 1 with the extension
and fails without it. -/
theorem C41_empty_signal :
    let A : Tensor ℤ := t2 2 2 fun i j => i + j
    let x : Tensor ℤ := t3 1 0 2 fun _ _ _ => 0
    shape? (Prod.fst <$> Lti.stateSpaceOn (cpuEnv sequential) A x none none none none (some 1) none) = some [1, 1, 2] ∧
    Fails (Lti.stateSpace A x none none none none (some 1) none) := by
  exact ⟨by decide +kernel, fails_of_isOk (by decide +kernel)⟩

/-- **C41 is false for `lpv.lfilter` in the form `df1` with the unroll factor 9** and the filter `y[t] = x[t] + 2 y[t-1]`: the
extension ignores the factor, the Python code computes something else (C07). -/
theorem C41_unroll_ignored :
    let f (e : Env ℤ) := Prod.fst <$> Lpv.lfilterOn e (t3 1 10 1 fun _ _ _ => 1) (t3 1 10 1 fun _ _ _ => -2)
      (t2 1 10 fun _ _ => 1) none .df1 .ssm (some 9)
    at? (f (cpuEnv sequential)) [0, 8] = some 511 ∧
    at? (f { cpuEnv sequential with ext := false }) [0, 8] ≠ some 511 := by
  decide +kernel

/-! ## Examples -/

/-- The hypotheses of `C41_cpu_cuda` are met by two signals of five samples: two threads that take turns against one scan from the
left and two from the right. -/
example : Lti.stateSpaceOn (cpuEnv alternating) (t2 2 2 fun i j => ((i + 2 * j : Nat) : ℤ)) (t2 2 5 fun b t => ((b + t : Nat) : ℤ)) none
    none none none (some 1) none =
    Lti.stateSpaceOn (cudaEnv leftScan rightScan rightScan fun n => [List.range n]) (t2 2 2 fun i j => ((i + 2 * j : Nat) : ℤ))
      (t2 2 5 fun b t => ((b + t : Nat) : ℤ)) none none none none (some 1) none :=
  C41_cpu_cuda C38_alternating_case C40_left_case C40_right_case C40_right_case (fun n => by simp)
    (B := 2) (N := 5) (.shared _) (.none (.scalar _)) .zero (by decide) (by decide)

/-- The value of both sides at one place. -/
example : at? (Prod.fst <$> Lti.stateSpaceOn (cpuEnv alternating) (t2 2 2 fun i j => ((i + 2 * j : Nat) : ℤ))
    (t2 2 5 fun b t => ((b + t : Nat) : ℤ)) none none none none (some 1) none) [1, 4, 1] = some 20 := by decide +kernel

end Props
