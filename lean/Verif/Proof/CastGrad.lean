import Verif.Proof.Cast
import Verif.Model.Backward

/-!
# The derivative rules commute with a change of numbers
-/

namespace Phil.Grad
open Torch Torch.Tensor Spec
variable {α β : Type} [CommRing α] [CommRing β] [StarRing α] [StarRing β] (φ : α →+* β) (hφ : ∀ a, φ (star a) = star (φ a))

omit [StarRing α] [StarRing β] in
theorem ifNeeded_cast (b : Bool) (r : Res (Tensor α)) :
    ifNeeded b (Except.map (cast φ) r) = Except.map (Option.map (cast φ)) (ifNeeded b r) := by
  cases b <;> cases r <;> rfl

omit [StarRing α] [StarRing β] in
theorem pureG_cast (x y z : Option (Tensor α)) :
    (pure (x.map (cast φ), y.map (cast φ), z.map (cast φ)) : Res _) = Except.map (castG φ) (pure (x, y, z)) := rfl

omit [StarRing α] [StarRing β] in
theorem previousStates_cast (z y : Tensor α) : previousStates (cast φ z) (cast φ y) = Except.map (cast φ) (previousStates z y) := by
  pulls [previousStates]

omit [StarRing α] [StarRing β] in
theorem getD_zeros_cast (g : Option (Tensor α)) (s : List Nat) :
    (g.map (cast φ)).getD (zeros s) = cast φ (g.getD (zeros s)) := by
  cases g <;> simp [← cast_zeros φ]

include hφ

theorem ltiRecurBackward_cast {op : Tensor α → Tensor α → Tensor α → Res (Tensor α)}
    {op' : Tensor β → Tensor β → Tensor β → Res (Tensor β)} (h : OpNatural φ op op') (needs : Bool × Bool × Bool)
    (a init out g : Tensor α) :
    ltiRecurBackward op' needs (cast φ a) (cast φ init) (cast φ out) (cast φ g) =
      Except.map (castG φ) (ltiRecurBackward op needs a init out g) := by
  unfold OpNatural at h
  pulls [ltiRecurBackward, cast_conj φ hφ, cast_vecdot φ hφ, h, previousStates_cast, ifNeeded_cast, pureG_cast]

theorem ltiRecurNBackward_cast {f op2 : Tensor α → Tensor α → Tensor α → Res (Tensor α)}
    {f' op2' : Tensor β → Tensor β → Tensor β → Res (Tensor β)} (h : OpNatural φ f f') (h2 : OpNatural φ op2 op2')
    (needs : Bool × Bool × Bool) (A zi y g : Tensor α) :
    ltiRecurNBackward f' op2' needs (cast φ A) (cast φ zi) (cast φ y) (cast φ g) =
      Except.map (castG φ) (ltiRecurNBackward f op2 needs A zi y g) := by
  unfold OpNatural at h h2
  pulls [ltiRecurNBackward, cast_conj φ hφ, cast_zeros φ, h, h2, previousStates_cast, ifNeeded_cast, pureG_cast]

theorem recurNBackward_cast {f op2 : Tensor α → Tensor α → Tensor α → Res (Tensor α)}
    {f' op2' : Tensor β → Tensor β → Tensor β → Res (Tensor β)} (h : OpNatural φ f f') (h2 : OpNatural φ op2 op2')
    (needs : Bool × Bool × Bool) (A zi y g : Tensor α) :
    recurNBackward f' op2' needs (cast φ A) (cast φ zi) (cast φ y) (cast φ g) =
      Except.map (castG φ) (recurNBackward f op2 needs A zi y g) := by
  unfold OpNatural at h h2
  pulls [recurNBackward, cast_conj φ hφ, cast_zeros φ, h, h2, previousStates_cast, ifNeeded_cast, pureG_cast]

omit [StarRing α] [StarRing β] hφ

theorem viewColumn_cast (t : Tensor α) : ltiRecurJvp.viewColumn (cast φ t) = Except.map (cast φ) (ltiRecurJvp.viewColumn t) := by
  pulls [ltiRecurJvp.viewColumn]

theorem ltiRecurJvp_cast {op : Tensor α → Tensor α → Tensor α → Res (Tensor α)}
    {op' : Tensor β → Tensor β → Tensor β → Res (Tensor β)} (h : OpNatural φ op op') (a init out : Tensor α)
    (ga gi gx : Option (Tensor α)) :
    ltiRecurJvp op' (cast φ a) (cast φ init) (cast φ out) (ga.map (cast φ)) (gi.map (cast φ)) (gx.map (cast φ)) =
      Except.map (cast φ) (ltiRecurJvp op a init out ga gi gx) := by
  unfold OpNatural at h
  cases ga <;> pulls [ltiRecurJvp, Option.map_none, Option.map_some, getD_zeros_cast, h, previousStates_cast, viewColumn_cast]

theorem ltiRecurNJvp_cast {op : Tensor α → Tensor α → Tensor α → Res (Tensor α)}
    {op' : Tensor β → Tensor β → Tensor β → Res (Tensor β)} (h : OpNatural φ op op') (A zi y : Tensor α)
    (ga gi gx : Option (Tensor α)) :
    ltiRecurNJvp op' (cast φ A) (cast φ zi) (cast φ y) (ga.map (cast φ)) (gi.map (cast φ)) (gx.map (cast φ)) =
      Except.map (cast φ) (ltiRecurNJvp op A zi y ga gi gx) := by
  unfold OpNatural at h
  cases ga <;> pulls [ltiRecurNJvp, Option.map_none, Option.map_some, getD_zeros_cast, h, previousStates_cast]

theorem recurNJvp_cast {op : Tensor α → Tensor α → Tensor α → Res (Tensor α)}
    {op' : Tensor β → Tensor β → Tensor β → Res (Tensor β)} (h : OpNatural φ op op') (A zi y : Tensor α)
    (ga gi gx : Option (Tensor α)) :
    recurNJvp op' (cast φ A) (cast φ zi) (cast φ y) (ga.map (cast φ)) (gi.map (cast φ)) (gx.map (cast φ)) =
      Except.map (cast φ) (recurNJvp op A zi y ga gi gx) := by
  unfold OpNatural at h
  cases ga <;> pulls [recurNJvp, Option.map_none, Option.map_some, getD_zeros_cast, h, previousStates_cast]

end Phil.Grad
