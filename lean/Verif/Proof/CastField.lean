import Verif.Proof.CastFilter
import Verif.Model.LtiFiltfilt
import Verif.Model.Poly
import Mathlib.LinearAlgebra.Matrix.NonsingularInverse

/-!
# Initial states, filtfilt and polynomial division commute with a change of numbers
-/

namespace Torch.Tensor
open Finset
variable {α β : Type} [Field α] [Field β] (φ : α →+* β)

theorem matAt_cast (x : Tensor α) (M P : Nat) (lb : List Nat) : matAt (cast φ x) M P lb = (matAt x M P lb).map φ := by
  ext i j
  rfl

theorem fm_inv_cast {M : Nat} (A : Matrix (Fin M) (Fin M) α) (i j : Nat) : fm (A.map φ)⁻¹ i j = φ (fm A⁻¹ i j) := by
  have h : (A.map φ)⁻¹ = (A⁻¹).map φ := by
    have hd : (A.map φ).det = φ A.det := (RingHom.map_det φ A).symm
    rw [Matrix.inv_def, Matrix.inv_def, hd, Ring.inverse_eq_inv', Ring.inverse_eq_inv', ← map_inv₀]
    ext i j
    have ha : (A.map φ).adjugate = (A.adjugate).map φ := (RingHom.map_adjugate φ A).symm
    rw [ha]
    simp
  rw [h]
  unfold fm
  split_ifs with c
  · rfl
  · simp

theorem cast_linalgSolveAux (A b : Tensor α) (M : Nat) (bs : List Nat) :
    linalgSolveAux (cast φ A) (cast φ b) M bs = Except.map (cast φ) (linalgSolveAux A b M bs) := by
  have hd : ∀ B : Matrix (Fin M) (Fin M) α, (B.map φ).det = φ B.det := fun B => (RingHom.map_det φ B).symm
  have hs : ∀ (f : Nat → α) (g : Nat → α), (∑ j ∈ range M, φ (f j) * φ (g j)) = φ (∑ j ∈ range M, f j * g j) := by
    intro f g
    simp
  classical
  unfold linalgSolveAux
  pulls [matAt_cast, hd, ne_eq, map_eq_zero, fm_inv_cast, cast_if, hs, cast_ofFn]

theorem cast_linalgSolve (A b : Tensor α) : linalgSolve (cast φ A) (cast φ b) = Except.map (cast φ) (linalgSolve A b) := by
  unfold linalgSolve
  rw [cast_size, cast_rank, cast_shape]
  exact cast_linalgSolveAux φ A b _ _

theorem cast_map_inv (x : Tensor α) : map (fun a => a⁻¹) (cast φ x) = cast φ (map (fun a => a⁻¹) x) := by
  unfold map
  rw [← cast_ofFn]
  simp [cast_get, cast_shape]

end Torch.Tensor

namespace Phil.Poly
open Torch Torch.Tensor
variable {α β : Type} [Field α] [Field β] (φ : α →+* β)

theorem sliceSub_cast (r : Tensor α) (k e : Int) (w : Tensor α) :
    sliceSub (cast φ r) k e (cast φ w) = Except.map (cast φ) (sliceSub r k e w) := by
  pulls [sliceSub]

theorem polydivLoop_cast (v scale : Tensor α) (n : Int) (c k : Nat) (r : Tensor α) :
    polydivLoop (cast φ v) (cast φ scale) n c k (cast φ r) =
      Except.map (Prod.map (List.map (cast φ)) (cast φ)) (polydivLoop v scale n c k r) := by
  induction c generalizing k r with
  | zero => rfl
  | succ c ih =>
    have h : ∀ (d : Tensor α) (q : List (Tensor α)) (r : Tensor α), (pure (cast φ d :: q.map (cast φ), cast φ r) : Res _) =
      Except.map (Prod.map (List.map (cast φ)) (cast φ)) (pure (d :: q, r)) := fun _ _ _ => rfl
    pulls [polydivLoop, sliceSub_cast, ih, h]

theorem polydiv_cast (u v : Tensor α) : polydiv (cast φ u) (cast φ v) = Except.map (Prod.map (cast φ) (cast φ)) (polydiv u v) := by
  pulls [polydiv, cast_map_inv, polydivLoop_cast]

end Phil.Poly

namespace Phil.Lti
open Torch Torch.Tensor Phil.Mat

section
variable {α β : Type} [CommRing α] [CommRing β] (φ : α →+* β)

theorem hankelApply_cast (c s : Tensor α) : hankelApply (cast φ c) (cast φ s) = Except.map (cast φ) (hankelApply c s) := by
  pulls [hankelApply]

theorem padTo_cast (v : Tensor α) (k : Nat) : padTo (cast φ v) k = Except.map (cast φ) (padTo v k) := by
  pulls [padTo]

theorem lfiltic_cast (b a y : Tensor α) (x : Option (Tensor α)) :
    lfiltic (cast φ b) (cast φ a) (cast φ y) (x.map (cast φ)) = Except.map (cast φ) (lfiltic b a y x) := by
  have h : ∀ n, (x.map (cast φ)).getD (t1 n fun _ => 0) = cast φ (x.getD (t1 n fun _ => 0)) := by
    intro n
    cases x with
    | none =>
      show ofFn [n] _ = cast φ (ofFn [n] _)
      rw [← cast_ofFn]
      simp
    | some x => rfl
  pulls [lfiltic, h, hankelApply_cast, padTo_cast]

end

variable {α β : Type} [Field α] [StarRing α] [Field β] [StarRing β] (φ : α →+* β) (hφ : ∀ a, φ (star a) = star (φ a))
include hφ

omit [StarRing α] [StarRing β] hφ in
theorem solveSteady_cast (A b : Tensor α) (n : Nat) : solveSteady (cast φ A) (cast φ b) n = Except.map (cast φ) (solveSteady A b n) := by
  pulls [solveSteady, cast_eye φ, cast_linalgSolve]

theorem lfilterZi_cast (a : Tensor α) (b : Option (Tensor α)) (t : Bool) :
    lfilterZi (cast φ a) (b.map (cast φ)) t = Except.map (cast φ) (lfilterZi a b t) := by
  have h : ∀ n, (t1 n fun i => if i = 0 then 1 else 0 : Tensor β) = cast φ (t1 n fun i => if i = 0 then 1 else 0) := by
    intro n
    show ofFn [n] _ = cast φ (ofFn [n] _)
    rw [← cast_ofFn]
    simp
  have h5 : ∀ e : String, (.error e : Res (Tensor β)) = Except.map (cast φ) (.error e) := fun _ => rfl
  unfold lfilterZi
  cases t with
  | false => pulls [Bool.false_eq_true, if_false, companion_cast, h, solveSteady_cast]
  | true =>
    cases b with
    | none =>
      simp only [Option.map_none, if_true, cast_rank]
      rw [h5, bind_pull]
    | some b =>
      pulls [if_true, Option.map_some, padOrders_cast, companion_cast, outputCoefs_cast, cast_conj φ hφ, solveSteady_cast]

omit [StarRing α] [StarRing β] hφ in
theorem padMode_cast (m : PadMode) (x : Tensor α) (n : Nat) : padMode m (cast φ x) n = Except.map (cast φ) (padMode m x n) := by
  cases m <;> pulls [padMode]

omit [StarRing α] [StarRing β] hφ in
theorem edgeLength_cast (b a : Tensor α) (m : Option PadMode) (n : Option Int) :
    edgeLength (cast φ b) (cast φ a) m n = edgeLength b a m n := by
  cases m <;> simp only [edgeLength, cast_size]

omit [StarRing α] [StarRing β] hφ in
theorem extendSignal_cast (x : Tensor α) (m : Option PadMode) (n : Int) :
    extendSignal (cast φ x) m n = Except.map (cast φ) (extendSignal x m n) := by
  cases m <;> pulls [extendSignal, padMode_cast]

omit [StarRing α] [StarRing β] hφ in
theorem unpackPair_cast (r : Tensor α × Option (Tensor α)) : unpackPair (castP φ r) = Except.map (cast φ) (unpackPair r) := by
  obtain ⟨y, z⟩ := r
  cases z with
  | none =>
    show (do check ((cast φ y).size 0 = 2) _; select (cast φ y) 0 0) = Except.map (cast φ) (do check (y.size 0 = 2) _; select y 0 0)
    pulls []
  | some z => rfl

theorem filtfilt_cast (b a x : Tensor α) (m : Option PadMode) (n : Option Int) (form : Form) (u : Option Int) :
    filtfilt (cast φ b) (cast φ a) (cast φ x) m n form u = Except.map (cast φ) (filtfilt b a x m n form u) := by
  have h1 : ∀ t, lfilterZi (cast φ a) (some (cast φ b)) t = Except.map (cast φ) (lfilterZi a (some b) t) :=
    fun t => lfilterZi_cast φ hφ a (some b) t
  have h2 : ∀ x z : Tensor α, lfilter (cast φ b) (cast φ a) (cast φ x) (some (cast φ z)) form u =
      Except.map (castP φ) (lfilter b a x (some z) form u) := fun x z => lfilter_cast φ hφ b a x (some z) form u
  pulls [filtfilt, filtfiltWith, edgeLength_cast, extendSignal_cast, h1, h2, unpackPair_cast]

end Phil.Lti
