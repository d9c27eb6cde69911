import Verif.Proof.Cast
import Verif.Model.LtiRecur
import Verif.Model.LtiComb
import Verif.Model.LtiSsm
import Verif.Model.LtiStateSpace

/-!
# The time-invariant recursions and state-space models commute with a change of numbers
-/

namespace Phil.Mat
open Torch Torch.Tensor
variable {α β : Type} [CommRing α] [CommRing β] (φ : α →+* β)

theorem accumulate_cast (xs : List (Tensor α)) :
    accumulate matmul (xs.map (cast φ)) = Except.map (List.map (cast φ)) (accumulate matmul xs) := by
  cases xs with
  | nil => rfl
  | cons x xs =>
    simp only [accumulate, List.map_cons, scanM_cast (cast φ) (cast φ) matmul matmul (fun s t => cast_matmul φ s t), map_bind_cast]
    cases scanM matmul x xs <;> rfl

theorem matPwrAccumRunner_cast (A : Tensor α) (fs : List Nat) :
    matPwrAccumRunner (cast φ A) fs = Except.map (cast φ) (matPwrAccumRunner A fs) := by
  induction fs generalizing A with
  | nil => rfl
  | cons f fs ih =>
    have hr : List.replicate f (cast φ A) = (List.replicate f A).map (cast φ) := by simp
    pulls [matPwrAccumRunner, hr, accumulate_cast, ih]

theorem matrixPowerAccumulateNat_cast (fac : Nat → List Nat) (A : Tensor α) (n : Nat) :
    matrixPowerAccumulateNat fac (cast φ A) n = Except.map (cast φ) (matrixPowerAccumulateNat fac A n) := by
  pulls [matrixPowerAccumulateNat, cast_eye φ, matPwrAccumRunner_cast]

theorem matCumdotRunner_cast (k : Nat) (A : Tensor α) (l : Nat) :
    matCumdotRunner k (cast φ A) l = Except.map (cast φ) (matCumdotRunner k A l) := by
  induction k generalizing A with
  | zero => rfl
  | succ k ih => pulls [matCumdotRunner, accumulate_cast, ih]

theorem matricesCumdot_cast (A : Tensor α) : matricesCumdot (cast φ A) = Except.map (cast φ) (matricesCumdot A) := by
  pulls [matricesCumdot, matricesCumdotWith, matCumdotRunner_cast]

end Phil.Mat

namespace Phil.Lti
open Torch Torch.Tensor Phil.Mat
variable {α β : Type} [CommRing α] [CommRing β] (φ : α →+* β)

theorem firstComponent_cast (x : Tensor α) (M : Nat) : firstComponent (cast φ x) M = Except.map (cast φ) (firstComponent x M) := by
  pulls [firstComponent, cast_zeros φ]

theorem pick_cast (out : Option Int) (d : Int) (h : Tensor α) : pick out d (cast φ h) = Except.map (cast φ) (pick out d h) := by
  cases out with
  | none => rfl
  | some i => exact cast_select φ h d i

theorem recursionLoop_cast (A zi x : Tensor α) (out : Option Int) :
    recursionLoop (cast φ A) (cast φ zi) (cast φ x) out = Except.map (cast φ) (recursionLoop A zi x out) := by
  have h1 : ∀ (AT zi : Tensor α) (xs : List (Tensor α)), scanM (fun h xn => addmm xn h (cast φ AT)) (cast φ zi) (xs.map (cast φ)) =
      Except.map (List.map (cast φ)) (scanM (fun h xn => addmm xn h AT) zi xs) :=
    fun AT zi xs => scanM_cast _ _ _ _ (fun s t => cast_addmm φ t s AT) zi xs
  have h2 : ∀ (AT zi : Tensor α) (xs : List (Tensor α)),
      scanM (fun h xn => do let x1 ← unsqueeze xn 1; baddbmm x1 h (cast φ AT)) (cast φ zi) (xs.map (cast φ)) =
      Except.map (List.map (cast φ)) (scanM (fun h xn => do let x1 ← unsqueeze xn 1; baddbmm x1 h AT) zi xs) :=
    fun AT zi xs => scanM_cast _ _ _ _ (fun s t => by pulls []) zi xs
  have h3 : ∀ (d : Int) (hs : List (Tensor α)), (hs.map (cast φ)).mapM (pick out d) =
      Except.map (List.map (cast φ)) (hs.mapM (pick out d)) :=
    fun d hs => mapM_cast φ _ _ _ (fun h => pick_cast φ out d h) hs
  pulls [recursionLoop, firstComponent_cast, h1, h2, h3]

theorem ssrPowersPlusI_cast (A p : Tensor α) (M : Nat) :
    ssrPowersPlusI (cast φ A) (cast φ p) M = Except.map (cast φ) (ssrPowersPlusI A p M) := by
  pulls [ssrPowersPlusI, cast_eye φ]

theorem ssrMat1_cast (p : Tensor α) (n : Nat) : ssrMat1 (cast φ p) n = Except.map (cast φ) (ssrMat1 p n) := by
  pulls [ssrMat1]

theorem ssrMat2_cast (p : Tensor α) (out : Option Int) : ssrMat2 (cast φ p) out = Except.map (cast φ) (ssrMat2 p out) := by
  cases out <;> pulls [ssrMat2]

theorem ssrMat3_cast (p : Tensor α) (u M n : Nat) (out : Option Int) :
    ssrMat3 (cast φ p) u M n out = Except.map (cast φ) (ssrMat3 p u M n out) := by
  cases out <;> pulls [ssrMat3, cast_zeros φ]

theorem ssrAssemble_cast (o i : Tensor α) (M : Nat) (out : Option Int) :
    ssrAssemble (cast φ o) (cast φ i) M out = Except.map (cast φ) (ssrAssemble o i M out) := by
  cases out <;> pulls [ssrAssemble]

theorem ssrBlocked_cast (r : Tensor α → Tensor α → Tensor α → Res (Tensor α)) (r' : Tensor β → Tensor β → Tensor β → Res (Tensor β))
    (hr : ∀ A zi x, r' (cast φ A) (cast φ zi) (cast φ x) = Except.map (cast φ) (r A zi x)) (A zi x : Tensor α) (u N M : Nat)
    (out : Option Int) :
    ssrBlocked r' (cast φ A) (cast φ zi) (cast φ x) u N M out = Except.map (cast φ) (ssrBlocked r A zi x u N M out) := by
  pulls [ssrBlocked, matrixPowerAccumulateNat_cast, ssrPowersPlusI_cast, ssrMat1_cast, ssrMat2_cast, ssrMat3_cast, ssrAssemble_cast, hr]

theorem stateSpaceRecursionAux_cast (base : Tensor α → Tensor α → Tensor α → Option Int → Res (Tensor α))
    (base' : Tensor β → Tensor β → Tensor β → Option Int → Res (Tensor β))
    (hb : ∀ A zi x out, base' (cast φ A) (cast φ zi) (cast φ x) out = Except.map (cast φ) (base A zi x out)) (u : Int) (k : Nat)
    (A zi x : Tensor α) (out : Option Int) :
    stateSpaceRecursionAux base' u k (cast φ A) (cast φ zi) (cast φ x) out =
      Except.map (cast φ) (stateSpaceRecursionAux base u k A zi x out) := by
  induction k generalizing A zi x out with
  | zero => rfl
  | succ k ih =>
    have hB := ssrBlocked_cast φ (fun A zi x => stateSpaceRecursionAux base u k A zi x none)
      (fun A zi x => stateSpaceRecursionAux base' u k A zi x none) (fun A zi x => ih A zi x none)
    pulls [stateSpaceRecursionAux, hb, hB]

theorem stateSpaceRecursion_cast (A zi x : Tensor α) (u : Int) (out : Option Int) :
    stateSpaceRecursion (cast φ A) (cast φ zi) (cast φ x) u out = Except.map (cast φ) (stateSpaceRecursion A zi x u out) :=
  stateSpaceRecursionAux_cast φ _ _ (recursionLoop_cast φ) u _ A zi x out

variable [StarRing α] [StarRing β] (hφ : ∀ a, φ (star a) = star (φ a))
include hφ

omit [StarRing α] [StarRing β] hφ in
theorem scalarRecursionLoop_cast (a init x : Tensor α) :
    scalarRecursionLoop (cast φ a) (cast φ init) (cast φ x) = Except.map (cast φ) (scalarRecursionLoop a init x) := by
  have h1 : ∀ (a zi : Tensor α) (xs : List (Tensor α)),
      scanM (fun h xn => do let ah ← mul (cast φ a) h; add ah xn) (cast φ zi) (xs.map (cast φ)) =
      Except.map (List.map (cast φ)) (scanM (fun h xn => do let ah ← mul a h; add ah xn) zi xs) :=
    fun a zi xs => scanM_cast _ _ _ _ (fun s t => by pulls []) zi xs
  pulls [scalarRecursionLoop, h1]

theorem linearRecurrenceAux_cast (u : Int) (k : Nat) (a init x : Tensor α) :
    linearRecurrenceAux u k (cast φ a) (cast φ init) (cast φ x) = Except.map (cast φ) (linearRecurrenceAux u k a init x) := by
  induction k generalizing a init x with
  | zero => rfl
  | succ k ih => pulls [linearRecurrenceAux, scalarRecursionLoop_cast, ih, cast_conj φ hφ, cast_vecdot φ hφ]

theorem linearRecurrence_cast (a init x : Tensor α) (u : Int) :
    linearRecurrence (cast φ a) (cast φ init) (cast φ x) u = Except.map (cast φ) (linearRecurrence a init x u) :=
  linearRecurrenceAux_cast φ hφ u _ a init x

omit [StarRing α] [StarRing β] hφ in
theorem combInit_cast (a x : Tensor α) (zi : Option (Tensor α)) :
    combInit (cast φ a) (cast φ x) (zi.map (cast φ)) = Except.map (cast φ) (combInit a x zi) := by
  cases zi <;> pulls [combInit, Option.map_none, Option.map_some, cast_zeros φ]

theorem combRecurrence_cast (ext : Bool) (a zi x : Tensor α) (u : Int) :
    combRecurrence ext (cast φ a) (cast φ zi) (cast φ x) u = Except.map (cast φ) (combRecurrence ext a zi x u) := by
  pulls [combRecurrence, linearRecurrence_cast φ hφ]

theorem combFilter_cast (ext : Bool) (a x : Tensor α) (d : Int) (zi : Option (Tensor α)) (u : Int) :
    combFilter ext (cast φ a) d (cast φ x) (zi.map (cast φ)) u = Except.map (castP φ) (combFilter ext a d x zi u) := by
  have h := fun a x => combInit_cast φ a x zi
  cases zi <;> simp only [Option.map_none, Option.map_some] at h ⊢ <;>
    pulls [combFilter, cast_zeros φ, linearRecurrence_cast φ hφ, combRecurrence_cast φ hφ, h]

end Phil.Lti
