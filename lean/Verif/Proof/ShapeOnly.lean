import Verif.Proof.CastUse

/-!
# Functions whose control flow depends on the shapes only, as functions over the zero ring
-/

namespace Spec
open Torch Torch.Tensor
variable {α β : Type} [CommRing α] [CommRing β]

theorem zero_of_shape {r : Res (Tensor α)} {r' : Res (Tensor β)} (h : r.map shape = r'.map shape) :
    r.map (Tensor.cast toZero) = r'.map (Tensor.cast toZero) := by
  cases r <;> cases r' <;> simp only [Except.map, Except.error.injEq, Except.ok.injEq, reduceCtorEq] at h ⊢
  · exact h
  · exact cast_toZero h

theorem zero_of_shapes {r : Res (Tensor α × Tensor α)} {r' : Res (Tensor β × Tensor β)}
    (h : r.map (Prod.map shape shape) = r'.map (Prod.map shape shape)) :
    r.map (Prod.map (Tensor.cast toZero) (Tensor.cast toZero)) = r'.map (Prod.map (Tensor.cast toZero) (Tensor.cast toZero)) := by
  cases r <;> cases r' <;> simp only [Except.map, Except.error.injEq, Except.ok.injEq, reduceCtorEq] at h ⊢
  · exact h
  · exact Prod.ext (cast_toZero (congrArg Prod.fst h)) (cast_toZero (congrArg Prod.snd h))

/-- An op over the zero ring that both ops are natural to. -/
theorem OpShape.natural {op : Tensor α → Tensor α → Tensor α → Res (Tensor α)} {op' : Tensor β → Tensor β → Tensor β → Res (Tensor β)}
    (h : OpShape op op') : ∃ op0 : Tensor PUnit.{1} → Tensor PUnit.{1} → Tensor PUnit.{1} → Res (Tensor PUnit.{1}),
      OpNatural toZero op op0 ∧ OpNatural toZero op' op0 := by
  refine ⟨fun x y z => (op (zeros x.shape) (zeros y.shape) (zeros z.shape)).map (Tensor.cast toZero), fun x y z => ?_, fun x y z => ?_⟩
  · show Except.map _ (op (zeros (Tensor.cast toZero x).shape) (zeros (Tensor.cast toZero y).shape) (zeros (Tensor.cast toZero z).shape)) = _
    simp only [cast_shape]
    exact zero_of_shape ((h (zeros x.shape) (zeros y.shape) (zeros z.shape) (zeros x.shape) (zeros y.shape) (zeros z.shape) rfl rfl rfl).trans
      (h x y z (zeros x.shape) (zeros y.shape) (zeros z.shape) rfl rfl rfl).symm)
  · show Except.map _ (op (zeros (Tensor.cast toZero x).shape) (zeros (Tensor.cast toZero y).shape) (zeros (Tensor.cast toZero z).shape)) = _
    simp only [cast_shape]
    exact zero_of_shape (h (zeros x.shape) (zeros y.shape) (zeros z.shape) x y z rfl rfl rfl)

theorem LpcShape.natural {lpc : Tensor α → Tensor α → Option (Tensor α) → Res (Tensor α × Tensor α)}
    {lpc' : Tensor β → Tensor β → Option (Tensor β) → Res (Tensor β × Tensor β)} (h : LpcShape lpc lpc') :
    ∃ lpc0 : Tensor PUnit.{1} → Tensor PUnit.{1} → Option (Tensor PUnit.{1}) → Res (Tensor PUnit.{1} × Tensor PUnit.{1}),
      LpcNatural toZero lpc lpc0 ∧ LpcNatural toZero lpc' lpc0 := by
  have e : ∀ {γ δ : Type} [CommRing γ] [CommRing δ] (z : Option (Tensor γ)), ((z.map fun z => (zeros z.shape : Tensor δ)).map shape) = z.map shape := by
    intro γ δ _ _ z
    cases z <;> rfl
  have c : ∀ {γ : Type} [CommRing γ] (z : Option (Tensor γ)),
      ((z.map (Tensor.cast toZero)).map fun z => (zeros z.shape : Tensor α)) = z.map fun z => zeros z.shape := by
    intro γ _ z
    cases z <;> rfl
  refine ⟨fun x a z => (lpc (zeros x.shape) (zeros a.shape) (z.map fun z => zeros z.shape)).map (Prod.map (Tensor.cast toZero) (Tensor.cast toZero)),
    fun x a z => ?_, fun x a z => ?_⟩
  · show Except.map _ (lpc (zeros (Tensor.cast toZero x).shape) (zeros (Tensor.cast toZero a).shape)
      ((z.map (Tensor.cast toZero)).map fun z => zeros z.shape)) = _
    simp only [cast_shape, c]
    exact zero_of_shapes ((h (zeros x.shape) (zeros a.shape) (z.map fun z => zeros z.shape) (zeros x.shape) (zeros a.shape) (z.map fun z => zeros z.shape) rfl rfl ((e z).trans (e z).symm)).trans
      (h x a z (zeros x.shape) (zeros a.shape) (z.map fun z => zeros z.shape) rfl rfl (e z).symm).symm)
  · show Except.map _ (lpc (zeros (Tensor.cast toZero x).shape) (zeros (Tensor.cast toZero a).shape)
      ((z.map (Tensor.cast toZero)).map fun z => zeros z.shape)) = _
    simp only [cast_shape, c]
    exact zero_of_shapes (h (zeros x.shape) (zeros a.shape) (z.map fun z => zeros z.shape) x a z rfl rfl (e z))

end Spec
