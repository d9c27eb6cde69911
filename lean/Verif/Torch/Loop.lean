import Verif.Torch.EvalMul

/-!
# Evaluation of Python loops, and broadcast batch parameters
-/

namespace Torch

/-- One step of a `do` block. -/
theorem bind_step {β γ : Type} {x : Res β} {v : β} {f : β → Res γ} {r : Res γ} (h : x = .ok v)
    (h' : f v = r) : (x >>= f) = r := by
  rw [h]; exact h'

/-- Three consecutive steps of a `do` block evaluated together. -/
theorem bind_assoc3 {β₁ β₂ β₃ γ : Type} {x : Res β₁} {f : β₁ → Res β₂} {g : β₂ → Res β₃} {k : β₃ → Res γ} {v : β₃}
    (h : (x >>= fun a => f a >>= fun b => g b) = .ok v) :
    (x >>= fun a => f a >>= fun b => g b >>= k) = k v := by
  cases x with
  | error e => cases h
  | ok a =>
    simp only [ok_bind] at h ⊢
    cases hb : f a with
    | error e => rw [hb] at h; cases h
    | ok b =>
      rw [hb] at h
      simp only [ok_bind] at h ⊢
      rw [h, ok_bind]

/-- A failing step of a `do` block. -/
theorem bind_fail {β γ : Type} {x : Res β} {f : β → Res γ} {e : String} (h : x = .error e) :
    (x >>= f) = .error e := by
  rw [h]; rfl

/-- A passed check. -/
theorem check_step {γ : Type} {c : Prop} {inst : Decidable c} {msg : String} {f : Unit → Res γ} {r : Res γ} (h : c)
    (h' : f () = r) : (check c msg >>= f) = r := by
  rw [check_true h]; exact h'

/-- The call raises an exception. -/
def Fails {β : Type} (r : Res β) : Prop := ∃ e, r = .error e

theorem fails_error {β : Type} (e : String) : Fails (.error e : Res β) := ⟨e, rfl⟩

theorem fails_check {β : Type} {c : Prop} {inst : Decidable c} {msg : String} {f : Unit → Res β}
    (h : c → Fails (f ())) : Fails (check c msg >>= f) := by
  by_cases hc : c
  · rw [check_true hc]; exact h hc
  · rw [check_false hc]; exact ⟨msg, rfl⟩

theorem fails_bind {β γ : Type} {x : Res β} {f : β → Res γ} (h : ∀ v, x = .ok v → Fails (f v)) :
    Fails (x >>= f) := by
  cases x with
  | error e => exact ⟨e, rfl⟩
  | ok v => exact h v rfl

theorem fails_left {β γ : Type} {x : Res β} {f : β → Res γ} (h : Fails x) : Fails (x >>= f) := by
  obtain ⟨e, rfl⟩ := h; exact ⟨e, rfl⟩

/-- The element at index `l` of a successful result. -/
def at? {α : Type} [Zero α] (r : Res (Tensor α)) (l : List Nat) : Option α :=
  match r with
  | .ok x => some (x.get l)
  | .error _ => none

/-- The shape of a successful result. -/
def shape? {α : Type} [Zero α] (r : Res (Tensor α)) : Option (List Nat) :=
  match r with
  | .ok x => some x.shape
  | .error _ => none

/-- Evaluate one tensor operation on canonical tensors. -/
macro "tens1" : tactic => `(tactic| simp (disch := omega) only [tens])

namespace Tensor

theorem scanM_range {σ β : Type} (step : σ → β → Res σ) (S : Nat → σ) (X : Nat → β) (N : Nat)
    (h : ∀ t, t < N → step (S t) (X t) = .ok (S (t + 1))) :
    scanM step (S 0) ((List.range N).map X) = .ok ((List.range N).map fun t => S (t + 1)) := by
  induction N generalizing S X with
  | zero => rfl
  | succ N ih =>
    rw [List.range_succ_eq_map]
    simp only [List.map_cons, List.map_map, scanM]
    rw [h 0 (by omega), ok_bind]
    have := ih (fun t => S (t + 1)) (fun t => X (t + 1)) fun t ht => h (t + 1) (by omega)
    simp only [Function.comp_def, Nat.succ_eq_add_one] at this ⊢
    rw [this, ok_bind, pure_eq_ok]

end Tensor

/-- A tensor of shape `()`, `(1,)` or `(B,)` seen as one value per batch item. -/
inductive BatchVals {α : Type} [Zero α] (B : Nat) : Tensor α → (Nat → α) → Prop
  | scalar (c : α) : BatchVals B (Tensor.t0 c) fun _ => c
  | single (g : Nat → α) : BatchVals B (Tensor.t1 1 g) fun _ => g 0
  | full (g : Nat → α) : BatchVals B (Tensor.t1 B g) g

end Torch
