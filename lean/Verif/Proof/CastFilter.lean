import Verif.Proof.CastLti
import Verif.Model.LtiFiltering

/-!
# Time-invariant state-space models and filters commute with a change of numbers
-/

namespace Phil.Mat
open Torch Torch.Tensor
variable {α β : Type} [CommRing α] [CommRing β] (φ : α →+* β)

theorem companion_cast (a : Tensor α) : companion (cast φ a) = Except.map (cast φ) (companion a) := by
  have h : ∀ (c : Prop) [Decidable c] (y : α), (if c then 1 else φ y) = φ (if c then 1 else y) := by
    intro c _ y
    split_ifs <;> simp
  pulls [companion, cast_zeros φ, h, cast_ofFn]

end Phil.Mat

namespace Phil.Lti
open Torch Torch.Tensor Phil.Mat
variable {α β : Type} [CommRing α] [CommRing β] (φ : α →+* β) [StarRing α] [StarRing β] (hφ : ∀ a, φ (star a) = star (φ a))
include hφ

omit [StarRing α] [StarRing β] hφ in
theorem featuresOf_cast (x : Tensor α) : featuresOf (cast φ x) = featuresOf x := by simp only [featuresOf, cast_rank, cast_size]

theorem inputTerm_cast (B x : Tensor α) (n M : Nat) (f : Int) :
    inputTerm (cast φ B) (cast φ x) n M f = Except.map (cast φ) (inputTerm B x n M f) := by
  unfold inputTerm
  rw [cast_shape]
  split <;> first | rfl | pulls [cast_conj φ hφ, cast_vecdot φ hφ]

theorem feedTerm_cast (D x : Tensor α) (n : Nat) (f : Int) :
    feedTerm (cast φ D) (cast φ x) n f = Except.map (cast φ) (feedTerm D x n f) := by
  unfold feedTerm
  rw [cast_shape]
  split <;> first | rfl | pulls [cast_conj φ hφ, cast_vecdot φ hφ]

theorem outputTerm_cast (C h : Tensor α) (n M : Nat) :
    outputTerm (cast φ C) (cast φ h) n M = Except.map (cast φ) (outputTerm C h n M) := by
  unfold outputTerm
  rw [cast_shape]
  split <;> first | rfl | pulls [cast_conj φ hφ, cast_vecdot φ hφ]

theorem ssmCD_cast (h x : Tensor α) (C D : Option (Tensor α)) (n M : Nat) :
    ssmCD (cast φ h) (cast φ x) (C.map (cast φ)) (D.map (cast φ)) n M = Except.map (cast φ) (ssmCD h x C D n M) := by
  cases C <;> cases D <;>
    pulls [ssmCD, Option.map_none, Option.map_some, featuresOf_cast, feedTerm_cast φ hφ, outputTerm_cast φ hφ, pure_bind, bind_assoc]

omit [StarRing α] [StarRing β] hφ in
theorem initialState_cast (zi : Option (Tensor α)) (n M : Nat) :
    initialState (zi.map (cast φ)) n M = Except.map (cast φ) (initialState zi n M) := by
  cases zi <;> pulls [initialState, Option.map_none, Option.map_some, cast_zeros φ]

omit [StarRing α] [StarRing β] hφ in
theorem shiftedStates_cast (r : Tensor α → Tensor α → Tensor α → Int → Option Int → Res (Tensor α))
    (r' : Tensor β → Tensor β → Tensor β → Int → Option Int → Res (Tensor β))
    (hr : ∀ A zi x u out, r' (cast φ A) (cast φ zi) (cast φ x) u out = Except.map (cast φ) (r A zi x u out)) (A zi x : Tensor α)
    (u : Int) (out : Option Int) (b : Bool) :
    shiftedStates r' (cast φ A) (cast φ zi) (cast φ x) u out b = Except.map (castP φ) (shiftedStates r A zi x u out b) := by
  cases out <;> cases b <;> pulls [shiftedStates, hr, if_true, Bool.false_eq_true, if_false, pure_bind]

theorem stateSpaceWith_cast (r : Tensor α → Tensor α → Tensor α → Int → Option Int → Res (Tensor α))
    (r' : Tensor β → Tensor β → Tensor β → Int → Option Int → Res (Tensor β))
    (hr : ∀ A zi x u out, r' (cast φ A) (cast φ zi) (cast φ x) u out = Except.map (cast φ) (r A zi x u out)) (A x : Tensor α)
    (B C D zi : Option (Tensor α)) (u out : Option Int) :
    stateSpaceWith r' (cast φ A) (cast φ x) (B.map (cast φ)) (C.map (cast φ)) (D.map (cast φ)) (zi.map (cast φ)) u out =
      Except.map (castP φ) (stateSpaceWith r A x B C D zi u out) := by
  have h1 := fun h x => ssmCD_cast φ hφ h x C D
  have h2 := initialState_cast φ zi
  have h3 := shiftedStates_cast φ r r' hr
  have h4 : (C.map (cast φ) = none) = (C = none) := by simp
  cases B <;>
    pulls [stateSpaceWith, h4, h1, h2, h3, featuresOf_cast, inputTerm_cast φ hφ, Option.map_none, Option.map_some, pure_bind]

theorem stateSpace_cast (A x : Tensor α) (B C D zi : Option (Tensor α)) (u out : Option Int) :
    stateSpace (cast φ A) (cast φ x) (B.map (cast φ)) (C.map (cast φ)) (D.map (cast φ)) (zi.map (cast φ)) u out =
      Except.map (castP φ) (stateSpace A x B C D zi u out) :=
  stateSpaceWith_cast φ hφ _ _ (stateSpaceRecursion_cast φ) A x B C D zi u out

theorem firTransposed_cast (b x : Tensor α) (zi : Option (Tensor α)) :
    firTransposed (cast φ b) (cast φ x) (zi.map (cast φ)) = Except.map (castP φ) (firTransposed b x zi) := by
  cases zi <;> pulls [firTransposed, Option.map_none, Option.map_some, cast_conj φ hφ]

omit [StarRing α] [StarRing β] hφ in
theorem firDirect_cast (b x : Tensor α) (zi : Option (Tensor α)) :
    firDirect (cast φ b) (cast φ x) (zi.map (cast φ)) = Except.map (castP φ) (firDirect b x zi) := by
  cases zi <;> pulls [firDirect, Option.map_none, Option.map_some, pure_bind, bind_assoc]

theorem fir_cast (b x : Tensor α) (zi : Option (Tensor α)) (t : Bool) :
    fir (cast φ b) (cast φ x) (zi.map (cast φ)) t = Except.map (castP φ) (fir b x zi t) := by
  have h1 : (∀ z, zi.map (cast φ) = some z → z.rank = 2) = (∀ z, zi = some z → z.rank = 2) := by
    cases zi <;> simp [cast_rank]
  have h2 : (∀ z, zi.map (cast φ) = some z → z.size 0 = x.size 0) = (∀ z, zi = some z → z.size 0 = x.size 0) := by
    cases zi <;> simp [cast_size]
  have h3 : (∀ z, zi.map (cast φ) = some z → (z.size 1 : Int) = (b.size 1 : Int) - 1) =
      (∀ z, zi = some z → (z.size 1 : Int) = (b.size 1 : Int) - 1) := by
    cases zi <;> simp [cast_size]
  pulls [fir, h1, h2, h3, firTransposed_cast φ hφ, firDirect_cast φ]

omit [StarRing α] [StarRing β] hφ in
theorem padOrders_cast (b a : Tensor α) : padOrders (cast φ b) (cast φ a) = Except.map (Prod.map (cast φ) (cast φ)) (padOrders b a) := by
  pulls [padOrders]

omit [StarRing α] [StarRing β] hφ in
theorem outputCoefs_cast (b a : Tensor α) : outputCoefs (cast φ b) (cast φ a) = Except.map (Prod.map (cast φ) (cast φ)) (outputCoefs b a) := by
  pulls [outputCoefs]

theorem ssmLfilter_cast (b a x : Tensor α) (zi : Option (Tensor α)) (form : Form) (u : Option Int) :
    ssmLfilter (cast φ b) (cast φ a) (cast φ x) (zi.map (cast φ)) form u = Except.map (castP φ) (ssmLfilter b a x zi form u) := by
  have h1 : ∀ A x C D : Tensor α, stateSpace (cast φ A) (cast φ x) none (some (cast φ C)) (some (cast φ D)) (zi.map (cast φ)) u none =
      Except.map (castP φ) (stateSpace A x none (some C) (some D) zi u none) :=
    fun A x C D => stateSpace_cast φ hφ A x none (some C) (some D) zi u none
  have h2 : ∀ A x B D : Tensor α, stateSpace (cast φ A) (cast φ x) (some (cast φ B)) none (some (cast φ D)) (zi.map (cast φ)) u (some 0) =
      Except.map (castP φ) (stateSpace A x (some B) none (some D) zi u (some 0)) :=
    fun A x B D => stateSpace_cast φ hφ A x (some B) none (some D) zi u (some 0)
  have h3 : ∀ (b x : Tensor α), fir (cast φ b) (cast φ x) none true = Except.map (castP φ) (fir b x none true) :=
    fun b x => fir_cast φ hφ b x none true
  have h5 : ∀ (r : Res (Tensor α)) (e : String), (do let _ ← r; .error e : Res (Tensor β × Option (Tensor β))) =
      Except.map (castP φ) (do let _ ← r; .error e) := by
    intro r e; cases r <;> rfl
  cases form <;> pulls [ssmLfilter, padOrders_cast, outputCoefs_cast, companion_cast, h1, h2, h3, h5,
    cast_conj φ hφ, cast_zeros φ, stateSpaceRecursion_cast]

omit [StarRing α] [StarRing β] hφ in
theorem lfilterWith_cast (bk : Tensor α → Tensor α → Tensor α → Option (Tensor α) → Res (Tensor α × Option (Tensor α)))
    (bk' : Tensor β → Tensor β → Tensor β → Option (Tensor β) → Res (Tensor β × Option (Tensor β)))
    (h : ∀ b a x zi, bk' (cast φ b) (cast φ a) (cast φ x) (zi.map (cast φ)) = Except.map (castP φ) (bk b a x zi))
    (b a x : Tensor α) (zi : Option (Tensor α)) :
    lfilterWith bk' (cast φ b) (cast φ a) (cast φ x) (zi.map (cast φ)) = Except.map (castP φ) (lfilterWith bk b a x zi) := by
  have h1 : (∀ z, zi.map (cast φ) = some z → z.rank = 1) = (∀ z, zi = some z → z.rank = 1) := by
    cases zi <;> simp [cast_rank]
  simp only [lfilterWith, cast_rank, cast_unsqueeze, cast_pure, ite_pull, ite_pull_error, map_bind_cast, h, h1]
  simp only [← bind_pull]
  refine bind_congr fun v => bind_congr fun _ => bind_congr fun _ => bind_congr fun r => ?_
  obtain ⟨y, z⟩ := r
  split_ifs
  · cases z <;> pulls [Option.map_none, Option.map_some]
  · rfl

theorem lfilter_cast (b a x : Tensor α) (zi : Option (Tensor α)) (form : Form) (u : Option Int) :
    lfilter (cast φ b) (cast φ a) (cast φ x) (zi.map (cast φ)) form u = Except.map (castP φ) (lfilter b a x zi form u) :=
  lfilterWith_cast φ _ _ (fun b a x zi => ssmLfilter_cast φ hφ b a x zi form u) b a x zi

end Phil.Lti
