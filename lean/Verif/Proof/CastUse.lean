import Verif.Proof.CastLpv
import Verif.Proof.LpvAllpole
import Mathlib.Algebra.Ring.PUnit
import Mathlib.Algebra.Ring.Subring.Basic
import Mathlib.Algebra.Star.Basic

/-!
# Tensors with entries in a subring; tensors over the zero ring
-/

namespace Phil.Lpv
open Torch Torch.Tensor Spec
variable {α β : Type} [CommRing α] [CommRing β] (φ : α →+* β)

theorem vecRec_cast (M : Nat) (A : Nat → Nat → Nat → α) (z : Nat → α) (x : Nat → Nat → α) (t i : Nat) :
    vecRec M (fun t i j => φ (A t i j)) (fun m => φ (z m)) (fun t m => φ (x t m)) t i = φ (vecRec M A z x t i) := by
  induction t generalizing i with
  | zero => rfl
  | succ t ih => simp [vecRec, ih, map_add, map_sum, map_mul]

theorem tvSignal_cast (M : Nat) (a : Nat → Nat → α) (z x : Nat → α) (n : Int) :
    tvSignal M (fun t k => φ (a t k)) (fun m => φ (z m)) (fun t => φ (x t)) n = φ (tvSignal M a z x n) := by
  unfold tvSignal withPast
  have e1 : (fun t => comp (fun k => φ (a t k))) = fun t i j => φ (comp (a t) i j) := by
    funext t i j
    unfold comp
    split_ifs <;> simp
  have e2 : first (fun t => φ (x t)) = fun t m => φ (first x t m) := by
    funext t m
    unfold first
    split_ifs <;> simp
  rw [e1, e2]
  split_ifs
  · rfl
  · exact vecRec_cast φ M _ z _ _ 0

theorem refLpc_natural : LpcNatural φ (refLpc : Lpc α) (refLpc : Lpc β) := by
  intro x a zi
  have hz : ∀ i, stateVals (zi.map (cast φ)) i = fun m => φ (stateVals zi i m) := by
    intro i
    funext m
    cases zi with
    | none => simp [stateVals]
    | some z => rfl
  unfold refLpc
  simp only [hz, cast_size, cast_get, tvSignal_cast]
  show Except.ok (_, _) = Except.ok (_, _)
  congr 2 <;> exact cast_ofFn φ _ _

end Phil.Lpv

namespace Torch.Tensor
variable {α β : Type} [CommRing α] [CommRing β]

/-- A tensor with entries in a subring is the image of a tensor over the subring. -/
theorem exists_cast (S : Subring α) (x : Tensor α) (h : ∀ l, x.get l ∈ S) : ∃ y : Tensor S, x = cast S.subtype y :=
  ⟨{ shape := x.shape, get := fun l => ⟨x.get l, h l⟩, canon := fun l hl => Subtype.ext (x.canon l hl) }, tensor_ext' rfl fun _ => rfl⟩

theorem exists_cast_option (S : Subring α) (x : Option (Tensor α)) (h : ∀ z, x = some z → ∀ l, z.get l ∈ S) :
    ∃ y : Option (Tensor S), x = y.map (cast S.subtype) := by
  cases x with
  | none => exact ⟨none, rfl⟩
  | some z =>
    obtain ⟨y, hy⟩ := exists_cast S z (h z rfl)
    exact ⟨some y, by rw [hy]; rfl⟩

theorem cast_mem (S : Subring α) (y : Tensor S) (l : List Nat) : (cast S.subtype y).get l ∈ S := (y.get l).2

/-- The star ring structure of a subring closed under `star`. -/
@[instance_reducible] def starSubring [StarRing α] (S : Subring α) (h : ∀ a ∈ S, star a ∈ S) : StarRing S where
  star := fun a => ⟨star a.1, h a.1 a.2⟩
  star_involutive := fun a => Subtype.ext (star_star a.1)
  star_mul := fun a b => Subtype.ext (star_mul a.1 b.1)
  star_add := fun a b => Subtype.ext (star_add a.1 b.1)

/-- The map to the zero ring. -/
def toZero : α →+* PUnit.{1} where
  toFun := fun _ => PUnit.unit
  map_one' := rfl
  map_mul' := fun _ _ => rfl
  map_zero' := rfl
  map_add' := fun _ _ => rfl

instance : StarRing PUnit.{1} where
  star := id
  star_involutive := fun _ => rfl
  star_mul := fun _ _ => rfl
  star_add := fun _ _ => rfl

theorem toZero_star [StarRing α] (a : α) : toZero (star a) = star (toZero a) := rfl

theorem cast_toZero {x : Tensor α} {y : Tensor β} (h : x.shape = y.shape) : cast toZero x = cast toZero y :=
  tensor_ext' h fun _ => rfl

theorem cast_toZero_option {x : Option (Tensor α)} {y : Option (Tensor β)} (h : x.map shape = y.map shape) :
    x.map (cast toZero) = y.map (cast toZero) := by
  cases x <;> cases y <;> simp at h ⊢
  exact cast_toZero h

theorem map_shape_of {r : Res (Tensor α)} {r' : Res (Tensor β)} (h : Except.map (cast toZero) r = Except.map (cast toZero) r') :
    r.map shape = r'.map shape := by
  have := congrArg (Except.map shape) h
  cases r <;> cases r' <;> exact this

theorem map_shapes_of {r : Res (Tensor α × Option (Tensor α))} {r' : Res (Tensor β × Option (Tensor β))}
    (h : Except.map (castP toZero) r = Except.map (castP toZero) r') : r.map shapes = r'.map shapes := by
  have := congrArg (Except.map shapes) h
  have e : ∀ {γ : Type} [CommRing γ] (z : Option (Tensor γ)), (z.map (cast toZero)).map shape = z.map shape := by
    intro γ _ z
    cases z <;> rfl
  rcases r with _ | ⟨r1, r2⟩ <;> rcases r' with _ | ⟨r1', r2'⟩
  · exact this
  · simp [Except.map] at this
  · simp [Except.map] at this
  · simp only [Except.map, castP, shapes, e] at this ⊢
    exact this

theorem map_gradShapes_of {r : Res (Option (Tensor α) × Option (Tensor α) × Option (Tensor α))}
    {r' : Res (Option (Tensor β) × Option (Tensor β) × Option (Tensor β))}
    (h : Except.map (castG toZero) r = Except.map (castG toZero) r') : r.map gradShapes = r'.map gradShapes := by
  have := congrArg (Except.map gradShapes) h
  have e : ∀ {γ : Type} [CommRing γ] (z : Option (Tensor γ)), (z.map (cast toZero)).map shape = z.map shape := by
    intro γ _ z
    cases z <;> rfl
  rcases r with _ | ⟨r1, r2, r3⟩ <;> rcases r' with _ | ⟨r1', r2', r3'⟩
  · exact this
  · simp [Except.map] at this
  · simp [Except.map] at this
  · simp only [Except.map, castG, gradShapes, e] at this ⊢
    exact this

end Torch.Tensor
