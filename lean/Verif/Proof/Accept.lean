import Verif.Model.LtiComb
import Verif.Model.LtiInit
import Verif.Model.LtiFiltfilt
import Verif.Model.LpvFiltering
import Verif.Torch.Loop

/-!
# What a successful call says about its arguments

The functions of philtorch check their arguments by assertions and by the checks of the tensor operations.  The lemmas here go
backwards through a `do` block: a block that returns has passed every check and every operation in it has returned.
-/

namespace Torch

theorem ok_check {β : Type} {c : Prop} {inst : Decidable c} {msg : String} {f : Unit → Res β} {r : β}
    (h : (check c msg >>= f) = .ok r) : c ∧ f () = .ok r := by
  by_cases hc : c
  · rw [check_true hc] at h; exact ⟨hc, h⟩
  · rw [check_false hc] at h; cases h

theorem ok_bind_inv {β γ : Type} {x : Res β} {f : β → Res γ} {r : γ} (h : (x >>= f) = .ok r) :
    ∃ v, x = .ok v ∧ f v = .ok r := by
  cases x with
  | error e => cases h
  | ok v => exact ⟨v, rfl, h⟩

theorem ok_check_only {c : Prop} {inst : Decidable c} {msg : String} {v : Unit} (h : check c msg = .ok v) : c := by
  by_contra hc
  rw [check_false hc] at h; cases h

theorem not_fails {β : Type} {x : Res β} {r : β} (h : x = .ok r) (hf : Fails x) : False := by
  obtain ⟨e, he⟩ := hf
  rw [h] at he; cases he

namespace Tensor
variable {α : Type} [Zero α]

theorem shape_rank1 {x : Tensor α} (h : x.rank = 1) : ∃ n, x.shape = [n] := List.length_eq_one_iff.1 h
theorem shape_rank2 {x : Tensor α} (h : x.rank = 2) : ∃ n m, x.shape = [n, m] := List.length_eq_two.1 h
theorem shape_rank3 {x : Tensor α} (h : x.rank = 3) : ∃ n m p, x.shape = [n, m, p] := List.length_eq_three.1 h
theorem shape_rank4 {x : Tensor α} (h : x.rank = 4) : ∃ n m p q, x.shape = [n, m, p, q] := by
  have h : x.shape.length = 4 := h
  match hs : x.shape, h with
  | [a, b, c, d], _ => exact ⟨a, b, c, d, rfl⟩

theorem rank_of {x : Tensor α} {s : List Nat} (h : x.shape = s) : x.rank = s.length := by rw [rank, h]

theorem unsqueeze0_shape {x y : Tensor α} (h : unsqueeze x 0 = .ok y) : y.shape = 1 :: x.shape := by
  obtain ⟨p, hp, h⟩ := ok_bind_inv h
  have : p = 0 := by
    unfold wrapDim at hp
    rw [if_pos ⟨le_refl _, by omega⟩] at hp
    cases hp; rfl
  subst this
  cases h; rfl

/-- What `expand` of a two-dimensional tensor to `(n, -1)` gives. -/
theorem expand2_shape {x y : Tensor α} {n p q : Nat} (hx : x.shape = [p, q]) (h : expand x [some n, none] = .ok y) :
    y.shape = [n, q] ∧ (p = n ∨ p = 1) := by
  obtain ⟨f, rfl⟩ : ∃ f, x = t2 p q f := ⟨_, eq_t2 hx⟩
  obtain ⟨_, h⟩ := ok_check h
  obtain ⟨_, h⟩ := ok_check h
  obtain ⟨hb, h⟩ := ok_check h
  cases h
  refine ⟨rfl, ?_⟩
  have hb : (bshapeR [q, p] [q, n]).map List.reverse = some [n, q] := hb
  by_contra hc
  rw [not_or] at hc
  simp only [bshapeR, bdim, if_true, if_neg hc.1, if_neg hc.2] at hb
  by_cases hn : n = 1 <;> simp [hn] at hb
  omega

end Tensor
end Torch

namespace Phil
open Torch Torch.Tensor
variable {α : Type} [CommRing α]

/-- The state that `state_space` starts from, when it has the shape the recursion requires. -/
theorem initialState_shape {zi : Option (Tensor α)} {batch M : Nat} {z : Tensor α} (h : Lti.initialState zi batch M = .ok z)
    (hr : z.rank = 2) (h0 : z.size 0 = batch) (h1 : z.size 1 = M) :
    ∀ w, zi = some w → w.shape = [M] ∨ w.shape = [batch, M] := by
  rintro w rfl
  unfold Lti.initialState at h
  dsimp only at h
  split_ifs at h with hw
  · obtain ⟨n, hn⟩ := shape_rank1 hw
    obtain ⟨z1, h2, h3⟩ := ok_bind_inv h
    have hs := unsqueeze0_shape h2
    rw [hn] at hs
    have := (expand2_shape hs h3).1
    refine Or.inl ?_
    rw [hn, ← h1]
    simp [size, this]
  · cases h
    obtain ⟨n, m, hs⟩ := shape_rank2 hr
    refine Or.inr ?_
    rw [hs, ← h0, ← h1]
    simp [size, hs]

/-- The recursion of `state_space` runs on the state matrix, the initial state and the input term. -/
theorem shiftedStates_runner {runner : Tensor α → Tensor α → Tensor α → Int → Option Int → Res (Tensor α)} {A z Bx : Tensor α}
    {u : Int} {out : Option Int} {b : Bool} {r : Tensor α × Option (Tensor α)}
    (h : Lti.shiftedStates runner A z Bx u out b = .ok r) : ∃ o h', runner A z Bx u o = .ok h' := by
  unfold Lti.shiftedStates at h
  cases out with
  | none => obtain ⟨v, hv, _⟩ := ok_bind_inv h; exact ⟨_, v, hv⟩
  | some i =>
    dsimp only at h
    split_ifs at h <;> (obtain ⟨v, hv, _⟩ := ok_bind_inv h; exact ⟨_, v, hv⟩)

theorem ltiRecursion_ok {A z X : Tensor α} {u : Int} {o : Option Int} {h : Tensor α}
    (h : Lti.stateSpaceRecursion A z X u o = .ok h) :
    (X.rank = 2 ∨ X.rank = 3) ∧ (A.rank = 2 ∨ A.rank = 3) ∧ A.size (-2) = A.size (-1) ∧ (A.rank = 3 → X.size 0 = A.size 0) ∧
      (X.rank = 3 → A.size (-1) = X.size (-1)) ∧ z.rank = 2 ∧ z.size 0 = X.size 0 ∧ z.size 1 = A.size (-1) ∧ 1 ≤ u := by
  unfold Lti.stateSpaceRecursion at h
  rw [Lti.stateSpaceRecursionAux] at h
  obtain ⟨h1, h⟩ := ok_check h
  obtain ⟨h2, h⟩ := ok_check h
  obtain ⟨h3, h⟩ := ok_check h
  obtain ⟨h4, h⟩ := ok_check h
  obtain ⟨h5, h⟩ := ok_check h
  obtain ⟨h6, h⟩ := ok_check h
  obtain ⟨h7, h⟩ := ok_check h
  obtain ⟨h8, h⟩ := ok_check h
  obtain ⟨h9, h⟩ := ok_check h
  exact ⟨h1, h2, h3, h4, h5, h6, h7, h8, by omega⟩

theorem lpvRecursion_ok {A z X : Tensor α} {u : Int} {o : Option Int} {h : Tensor α}
    (h : Lpv.stateSpaceRecursion A z X u o = .ok h) :
    (X.rank = 2 ∨ X.rank = 3) ∧ (A.rank = 3 ∨ A.rank = 4) ∧ A.size (-2) = A.size (-1) ∧ A.size (-3) = X.size 1 ∧
      (A.rank = 4 → X.size 0 = A.size 0) ∧
      (X.rank = 3 → A.size (-1) = X.size (-1)) ∧ z.rank = 2 ∧ z.size 0 = X.size 0 ∧ z.size 1 = A.size (-1) ∧ 1 ≤ u := by
  unfold Lpv.stateSpaceRecursion at h
  rw [Lpv.stateSpaceRecursionAux] at h
  obtain ⟨h1, h⟩ := ok_check h
  obtain ⟨h2, h⟩ := ok_check h
  obtain ⟨h3, h⟩ := ok_check h
  obtain ⟨h4, h⟩ := ok_check h
  obtain ⟨h5, h⟩ := ok_check h
  obtain ⟨h6, h⟩ := ok_check h
  obtain ⟨h7, h⟩ := ok_check h
  obtain ⟨h8, h⟩ := ok_check h
  obtain ⟨h9, h⟩ := ok_check h
  obtain ⟨h10, h⟩ := ok_check h
  exact ⟨h1, h2, h3, h4, h5, h6, h7, h8, h9, by omega⟩

end Phil
