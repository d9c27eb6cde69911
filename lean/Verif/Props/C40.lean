import Verif.Proof.ScanOps
import Mathlib.NumberTheory.Zsqrtd.GaussianInt

/-!
# C40: parallel scans

The result of a parallel scan at a position is some bracketing of the elements up to that position (`Scan.Sums`,
`Scan.IsScan` in Verif/Model/Scan.lean).  The three operators are associative, so every bracketing gives the same result,
and the ops return the recurrence (`IsScalarOp`, `IsMatrixOp`, `IsVaryingOp` in Verif/Spec/Ops.lean) for every such scan: the
CUDA ops, which separate the batch items by keys, and the host scans, which put all items in one flat scan and separate them
by a zero matrix.
-/

namespace Props
open Torch Torch.Tensor Spec Phil Phil.Cuda Scan

variable {α : Type} [CommRing α]

/-! ## Scans exist, with different bracketings -/

/-- From the left: `((f 0 ⊕ f 1) ⊕ f 2) ⊕ …`. -/
def sumLeft {β : Type} (op : β → β → β) (d : β) : List β → β
  | [] => d
  | a :: l => l.foldl op a

/-- From the right: `f 0 ⊕ (f 1 ⊕ (f 2 ⊕ …))`. -/
def sumRight {β : Type} (op : β → β → β) (d : β) : List β → β
  | [] => d
  | [a] => a
  | a :: b :: l => op a (sumRight op d (b :: l))

/-- The sequential scan. -/
def leftScan {β : Type} : Scanner β := fun op key _ f i => sumLeft op (f i) ((seg key i).map f)

/-- Every result is recomputed from the right. -/
def rightScan {β : Type} : Scanner β := fun op key _ f i => sumRight op (f i) ((seg key i).map f)

theorem seg_ne (key : Nat → Nat) (i : Nat) : seg key i ≠ [] := by
  cases i with
  | zero => simp [seg]
  | succ i => unfold seg; split <;> simp

theorem sums_left {β : Type} (op : β → β → β) (d : β) (l : List β) (h : l ≠ []) : Sums op l (sumLeft op d l) := by
  induction l using List.reverseRecOn with
  | nil => exact absurd rfl h
  | append_singleton l b ih =>
    cases l with
    | nil => exact .one b
    | cons a l =>
      have : sumLeft op d ((a :: l) ++ [b]) = op (sumLeft op d (a :: l)) b := by
        simp [sumLeft, List.foldl_append]
      rw [this]
      exact .join _ _ _ _ (ih (by simp)) (.one b)

theorem sums_right {β : Type} (op : β → β → β) (d : β) (l : List β) (h : l ≠ []) : Sums op l (sumRight op d l) := by
  induction l with
  | nil => exact absurd rfl h
  | cons a l ih =>
    cases l with
    | nil => exact .one a
    | cons b l => exact .join [a] (b :: l) _ _ (.one a) (ih (by simp))

theorem C40_left_case {β : Type} : IsScan (leftScan : Scanner β) := fun op key _ f i _ =>
  sums_left op (f i) _ (by simpa using seg_ne key i)

theorem C40_right_case {β : Type} : IsScan (rightScan : Scanner β) := fun op key _ f i _ =>
  sums_right op (f i) _ (by simpa using seg_ne key i)

/-! ## The combinations are associative, so the kernels do not depend on the bracketing -/

/-- **C40, associativity**: scalar recurrence. -/
theorem C40_assoc_scalar (a b c : α × α) : recurOp (recurOp a b) c = recurOp a (recurOp b c) := recurOp_assoc a b c

/-- **C40, associativity**: two-dimensional recurrence. -/
theorem C40_assoc_two (a b c : Sq2 α) : recur2Op (recur2Op a b) c = recur2Op a (recur2Op b c) := recur2Op_assoc a b c

/-- **C40, associativity**: recurrence of any dimension. -/
theorem C40_assoc_any (n : Nat) (a b c : Nat → α) : recurNOp n (recurNOp n a b) c = recurNOp n a (recurNOp n b c) :=
  recurNOp_assoc n a b c

/-- **C40, bracketing**: with an associative operator all bracketings agree. -/
theorem C40_bracketing {β : Type} {op : β → β → β} (h : ∀ a b c, op (op a b) c = op a (op b c)) {l : List β} {v w : β}
    (hv : Sums op l v) (hw : Sums op l w) : v = w := by
  obtain ⟨a, t, rfl, rfl⟩ := sums_foldl h hv
  obtain ⟨b, u, e, rfl⟩ := sums_foldl h hw
  injection e with e1 e2
  rw [e1, e2]

example := C40_bracketing (recurOp_assoc (α := ℤ)) (sums_left recurOp (1, 0) [(2, 3), (5, 7), (11, 13)] (by simp))
  (sums_right recurOp (1, 0) [(2, 3), (5, 7), (11, 13)] (by simp))

/-- **C40, CUDA op `lti_recur`.** -/
theorem C40_lti_recur {scan : Scanner (α × α)} (hscan : IsScan scan) : IsScalarOp (ltiRecurCuda scan) :=
  ltiRecurCuda_isScalarOp hscan

example := C40_lti_recur (α := ℤ) C40_right_case

/-- **C40, CUDA op `lti_recur2`.** -/
theorem C40_lti_recur2 {scan : Scanner (Sq2 α)} (hscan : IsScan scan) : IsMatrixOp 2 (ltiRecur2Cuda scan) :=
  ltiRecur2Cuda_isMatrixOp hscan

example := C40_lti_recur2 (α := ℤ) C40_right_case

/-- **C40, CUDA op `recur2`.** -/
theorem C40_recur2 {scan : Scanner (Sq2 α)} (hscan : IsScan scan) : IsVaryingOp 2 (recur2Cuda scan) :=
  recur2Cuda_isVaryingOp hscan

example := C40_recur2 (α := ℤ) C40_right_case

/-- **C40, host scan of dimension two**: one flat scan for all items. -/
theorem C40_host_two {scan : Scanner (Sq2 α)} (hscan : IsScan scan) : IsVaryingOp 2 (recur2HostScan scan) :=
  recur2HostScan_isVaryingOp hscan

example := C40_host_two (α := ℤ) C40_right_case

/-- **C40, host scan of any dimension**: one flat scan for all items. -/
theorem C40_host_any {scan : Scanner (Nat → α)} (hscan : IsScan scan) (M : Nat) : IsVaryingOp M (recurNHostScan scan) :=
  recurNHostScan_isVaryingOp hscan M

example := C40_host_any (α := ℤ) C40_right_case 3

/-- **C40, two scans agree**: the result of the CUDA op does not depend on the scan. -/
theorem C40_same {s s' : Scanner (Sq2 α)} (hs : IsScan s) (hs' : IsScan s') {B N : Nat} {A : Tensor α}
    {a : Nat → Nat → Nat → Nat → α} (hA : MatSeq B N 2 2 A a) (zi : Nat → Nat → α) (x : Nat → Nat → Nat → α) :
    recur2Cuda s A (t2 B 2 zi) (t3 B N 2 x) = recur2HostScan s' A (t2 B 2 zi) (t3 B N 2 x) := by
  rw [recur2Cuda_isVaryingOp hs B N A a zi x hA, recur2HostScan_isVaryingOp hs' B N A a zi x hA]

example := C40_same C40_left_case C40_right_case (B := 3) (N := 7) (.batched fun i t k j => (i : ℤ) + t * k - j) (fun i t => (i : ℤ) + t)
  (fun i t k => (i : ℤ) - t * k)

/-- Two items of three steps over the Gaussian integers, scanned from the right. -/
example : at? (recur2Cuda (α := GaussianInt) rightScan (t4 2 3 2 2 fun b t i j => ⟨b + t + i, j⟩) (t2 2 2 fun b i => ⟨b, i⟩)
    (t3 2 3 2 fun b t i => ⟨t, b + i⟩)) [1, 2, 1] =
    at? (recur2HostScan (α := GaussianInt) leftScan (t4 2 3 2 2 fun b t i j => ⟨b + t + i, j⟩) (t2 2 2 fun b i => ⟨b, i⟩)
    (t3 2 3 2 fun b t i => ⟨t, b + i⟩)) [1, 2, 1] ∧
    at? (recur2Cuda (α := GaussianInt) rightScan (t4 2 3 2 2 fun b t i j => ⟨b + t + i, j⟩) (t2 2 2 fun b i => ⟨b, i⟩)
    (t3 2 3 2 fun b t i => ⟨t, b + i⟩)) [1, 2, 1] = some ⟨21, 206⟩ := by
  decide +kernel

/-- The bracketing matters for an operator that is not associative. -/
example : sumLeft (fun a b : Int => a - b) 0 [1, 2, 3] ≠ sumRight (fun a b : Int => a - b) 0 [1, 2, 3] := by decide

/-! ## A sequence of matrices that is longer than the signal

`recur2` with a shared sequence of `N' > N` matrices passes the checks of both devices.  The CPU kernel uses the first `N`
matrices; the CUDA kernel has transposed the sequence with row length `N' + 1` and reads it with row length `N + 1`. -/

/-- **C40, device dependence** for coefficients that are longer than the signal: the CUDA op returns something else than the
recurrence. -/
theorem C40_longer_sequence :
    at? (recur2Cuda (α := Int) leftScan (t3 3 2 2 fun t i j => t + 2 * i + 3 * j) (t2 1 2 fun _ _ => 1) (t3 1 2 2 fun _ _ _ => 0))
      [0, 1, 0] ≠
    at? (Host.recurNCpu (α := Int) Omp.sequential (t3 3 2 2 fun t i j => t + 2 * i + 3 * j) (t2 1 2 fun _ _ => 1)
      (t3 1 2 2 fun _ _ _ => 0)) [0, 1, 0] ∧
    at? (Host.recurNCpu (α := Int) Omp.sequential (t3 3 2 2 fun t i j => t + 2 * i + 3 * j) (t2 1 2 fun _ _ => 1)
      (t3 1 2 2 fun _ _ _ => 0)) [0, 1, 0] =
      some (vecRec 2 (fun t i j => ((t + 2 * i + 3 * j : Nat) : Int)) (fun _ => 1) (fun _ _ => 0) 2 0) := by
  decide +kernel

end Props
