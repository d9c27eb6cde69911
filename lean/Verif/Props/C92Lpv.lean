import Verif.Props.C89Lpv
import Verif.Props.C92

/-! # C92 for time-varying systems -/

namespace Props
open Torch Torch.Tensor Spec Phil Matrix
variable {α : Type} [CommRing α] [StarRing α]

/-- **C92, `lpv.state_space`.** From sample `d` on the output does not depend on the initial state, whatever the signal, just when
`C_t A_{t-1} … A_0 = 0` for all `t` from `d` to the end; for the unroll factors of C07. -/
theorem C92_lpv_forget {B N M P F d : Nat} (A Bm C D : Nat → Nat → Nat → Nat → α) {u : Option Int} (hB : 0 < B) (hM : 0 < M) (hN : 0 < N)
    (hu : FilterUnroll M N u) :
    (∀ (x y y' : Nat → Nat → Nat → α) (z z' : Nat → Nat → α) (f f' : Option (Tensor α)),
      Lpv.stateSpace (t4 B N M M A) (t3 B N F x) (some (t4 B N M F Bm)) (some (t4 B N P M C)) (some (t4 B N P F D)) (some (t2 B M z)) u none =
        .ok (t3 B N P y, f) →
      Lpv.stateSpace (t4 B N M M A) (t3 B N F x) (some (t4 B N M F Bm)) (some (t4 B N P M C)) (some (t4 B N P F D)) (some (t2 B M z')) u none =
        .ok (t3 B N P y', f') →
      ∀ b t p, b < B → d ≤ t → t < N → p < P → y b t p = y' b t p) ↔
    ∀ b t, b < B → d ≤ t → t < N → mat P M (C b t) * transition (fun t => mat M M (A b t)) 0 t = 0 := by
  -- the output splits into a part of the initial state and one of the signal
  have out : ∀ (x : Nat → Nat → Nat → α) (z : Nat → Nat → α) b t p (hp : p < P), ∑ m ∈ Finset.range M, C b t p m * vecRec M (A b) (z b)
        (fun t k => ∑ f ∈ Finset.range F, Bm b t k f * x b t f) t m + ∑ f ∈ Finset.range F, D b t p f * x b t f =
      ((mat P M (C b t) * transition (fun t => mat M M (A b t)) 0 t) *ᵥ vect M (z b)) ⟨p, hp⟩ +
        ((mat P M (C b t) *ᵥ ∑ k ∈ Finset.range t, transition (fun t => mat M M (A b t)) (k + 1) t *ᵥ
          vect M (fun m => ∑ f ∈ Finset.range F, Bm b k m f * x b k f)) ⟨p, hp⟩ + ∑ f ∈ Finset.range F, D b t p f * x b t f) := by
    intro x z b t p hp
    have e := congrFun (vect_sum (M := P) (F := M) (C b t)
      (vecRec M (A b) (z b) (fun t k => ∑ f ∈ Finset.range F, Bm b t k f * x b t f) t)) ⟨p, hp⟩
    rw [vecRec_transition, mulVec_add, mulVec_mulVec, Pi.add_apply] at e
    rw [← add_assoc, ← e]
    rfl
  constructor
  · intro h b t hb hd ht
    ext p m
    have g := h (fun _ _ _ => 0) _ _ (fun _ k => if k = m.val then 1 else 0) (fun _ _ => 0) _ _
      (lpv_state_space_eq (P := P) (F := F) A Bm C D _ _ hB hM hN hu) (lpv_state_space_eq (P := P) (F := F) A Bm C D _ _ hB hM hN hu) b t p hb hd ht p.isLt
    have g := add_right_cancel (((out (fun _ _ _ => 0) (fun _ k => if k = m.val then 1 else 0) b t p p.isLt).symm.trans g).trans
      (out (fun _ _ _ => 0) (fun _ _ => 0) b t p p.isLt))
    have zero : vect M (fun _ => (0 : α)) = 0 := rfl
    have unit : vect M (fun k => if k = m.val then (1 : α) else 0) = Pi.single m 1 := by
      funext k; simp [vect, Pi.single_apply, Fin.ext_iff]
    rw [zero, unit, mulVec_zero, mulVec_single_one] at g
    exact g
  · intro h x y y' z z' f f' e e' b t p hb hd ht hp
    have g := t3_values (Prod.mk.inj (Except.ok.inj (e.symm.trans (lpv_state_space_eq A Bm C D x z hB hM hN hu)))).1 b t p hb ht hp
    have g' := t3_values (Prod.mk.inj (Except.ok.inj (e'.symm.trans (lpv_state_space_eq A Bm C D x z' hB hM hN hu)))).1 b t p hb ht hp
    rw [g, g', out x z b t p hp, out x z' b t p hp, h b t hb hd ht, zero_mulVec, zero_mulVec]

example := C92_lpv_forget (B := 3) (N := 7) (M := 2) (P := 1) (F := 2) (d := 2) (u := some 2) (fun _ t i j => if i = j + 1 then (t : ℤ) + 1 else 0)
  (fun b t i j => b * t - i * j) (fun b t i j => b * i + t * j) (fun _ t i j => t * i - j) (by decide) (by decide) (by decide)
  (by unfold FilterUnroll GoodUnroll FewPrimes; decide +kernel)

end Props
