import Verif.Props.C57
import Verif.Props.C17

/-!
# C92: finite memory

When the output of a state-space model forgets the initial state, and state-space models that are FIR filters.
-/

namespace Props
open Torch Torch.Tensor Spec Phil Matrix
open Phil.Lti (ok_pair)
variable {α : Type} [CommRing α] [StarRing α]

omit [StarRing α] in
theorem t3_values {B N M : Nat} {f g : Nat → Nat → Nat → α} (h : t3 B N M f = t3 B N M g) (b t m : Nat) (hb : b < B) (ht : t < N) (hm : m < M) :
    f b t m = g b t m := by
  have := congrArg (fun T : Tensor α => T.get [b, t, m]) h
  rwa [get_t3 hb ht hm, get_t3 hb ht hm] at this

/-- **C92, `lti.state_space`.** From sample `d` on the output does not depend on the initial state, whatever the signal, just when
`C A^t = 0` for all `t` from `d` to the end. -/
theorem C92_forget {B N M P F d : Nat} (A Bm C D : Nat → Nat → Nat → α) {u : Option Int} (hM : 0 < M) (hN : 0 < N) (hu : ∀ i, u = some i → 1 ≤ i) :
    (∀ (x y y' : Nat → Nat → Nat → α) (z z' : Nat → Nat → α) (f f' : Option (Tensor α)),
      Lti.stateSpace (t3 B M M A) (t3 B N F x) (some (t3 B M F Bm)) (some (t3 B P M C)) (some (t3 B P F D)) (some (t2 B M z)) u none =
        .ok (t3 B N P y, f) →
      Lti.stateSpace (t3 B M M A) (t3 B N F x) (some (t3 B M F Bm)) (some (t3 B P M C)) (some (t3 B P F D)) (some (t2 B M z')) u none =
        .ok (t3 B N P y', f') →
      ∀ b t p, b < B → d ≤ t → t < N → p < P → y b t p = y' b t p) ↔
    ∀ b t, b < B → d ≤ t → t < N → mat P M (C b) * mat M M (A b) ^ t = 0 := by
  constructor
  · intro h b t hb hd ht
    ext p m
    obtain ⟨y, f, e, hy, _⟩ := C57_markov (B := B) (N := N) (P := P) (F := F) A Bm C D (fun _ _ _ => 0) (fun _ k => if k = m.val then 1 else 0) hM hN hu
    obtain ⟨y', f', e', hy', _⟩ := C57_markov (B := B) (N := N) (P := P) (F := F) A Bm C D (fun _ _ _ => 0) (fun _ _ => 0) hM hN hu
    have g := h _ y y' _ _ _ _ e e' b t p hb hd ht p.isLt
    have g1 := congrFun (hy b t) p
    have g2 := congrFun (hy' b t) p
    have zero : ∀ K : Nat, vect K (fun _ => (0 : α)) = 0 := fun _ => rfl
    have unit : vect M (fun k => if k = m.val then (1 : α) else 0) = Pi.single m 1 := by
      funext k; simp [vect, Pi.single_apply, Fin.ext_iff]
    simp only [zero, unit, mulVec_zero, Finset.sum_const_zero, add_zero, mulVec_mulVec] at g1 g2
    rw [mulVec_single_one] at g1
    exact g1.symm.trans (g.trans g2)
  · intro h x y y' z z' f f' e e' b t p hb hd ht hp
    obtain ⟨w, s, k, hw, _⟩ := C57_markov (B := B) (N := N) (P := P) (F := F) A Bm C D x z hM hN hu
    obtain ⟨w', s', k', hw', _⟩ := C57_markov (B := B) (N := N) (P := P) (F := F) A Bm C D x z' hM hN hu
    have g : y b t p = w b t p := t3_values (Prod.mk.inj (Except.ok.inj (e.symm.trans k))).1 b t p hb ht hp
    have g' : y' b t p = w' b t p := t3_values (Prod.mk.inj (Except.ok.inj (e'.symm.trans k'))).1 b t p hb ht hp
    have q : vect P (w b t) = vect P (w' b t) := by
      rw [hw, hw', mulVec_mulVec, mulVec_mulVec, h b t hb hd ht, zero_mulVec, zero_mulVec]
    rw [g, g']
    exact congrFun q ⟨p, hp⟩

example := C92_forget (B := 3) (N := 7) (M := 2) (P := 1) (F := 2) (d := 2) (u := some 2) (fun _ i j => if i = j + 1 then (1 : ℤ) else 0) (fun b i j => b - i * j)
  (fun b i j => b * i + j) (fun _ i j => i - j) (by decide) (by decide) (by rintro i ⟨⟩; decide)

/-- **C92: nilpotent systems are FIR filters.** With one input and one output and `A^d = 0`, `state_space` from rest is `fir` with the
`d + 1` taps `D, C B, C A B, …, C A^(d-1) B`. -/
theorem C92_fir {B N M d : Nat} (A Bm C D x : Nat → Nat → Nat → α) {u : Option Int} (hB : 0 < B) (hM : 0 < M) (hN : 0 < N)
    (hu : ∀ i, u = some i → 1 ≤ i) (h : ∀ b, b < B → mat M M (A b) ^ d = 0) :
    ∃ (y : Nat → Nat → Nat → α) (f : Option (Tensor α)),
      Lti.stateSpace (t3 B M M A) (t3 B N 1 x) (some (t3 B M 1 Bm)) (some (t3 B 1 M C)) (some (t3 B 1 1 D)) (some (t2 B M fun _ _ => 0)) u none =
        .ok (t3 B N 1 y, f) ∧
      Lti.fir (t2 B (d + 1) fun b j => if j = 0 then D b 0 0 else (mat 1 M (C b) * mat M M (A b) ^ (j - 1) * mat M 1 (Bm b)) 0 0)
        (t2 B N fun b t => x b t 0) none false = .ok (t2 B N fun b t => y b t 0, none) := by
  obtain ⟨y, f, e, hy, _⟩ := C57_markov (B := B) (N := N) (P := 1) (F := 1) A Bm C D x (fun _ _ => 0) hM hN hu
  refine ⟨y, _, e, (Lti.fir_direct_none _ _ hB hN).trans (ok_pair (t2_congr rfl rfl fun b t hb _ => ?_) rfl)⟩
  have out := congrFun (hy b t) 0
  have zero : vect M (fun _ => (0 : α)) = 0 := rfl
  rw [zero, mulVec_zero, mulVec_zero, zero_add, Pi.add_apply, Finset.sum_apply] at out
  refine Eq.trans ?_ out.symm
  rw [taps_causal, conv, Finset.sum_range_succ']
  refine congrArg₂ (· + ·) ?_ ?_
  · rw [← Finset.sum_range_reflect]
    refine Finset.sum_congr rfl fun k hk => ?_
    have hk := Finset.mem_range.1 hk
    have one : ∀ X : Matrix (Fin 1) (Fin 1) α, ∀ v, (X *ᵥ v) 0 = X 0 0 * v 0 := fun X v => by simp [mulVec, dotProduct]
    rw [one, zext, show t - (t - 1 - k + 1) = k by omega]
    split
    · simp [vect]
    · rw [← Nat.sub_add_cancel (show d ≤ t - 1 - k by omega), pow_add, h b hb]
      simp
  · simp [zext, mulVec, dotProduct, mat, vect]

example := C92_fir (B := 3) (N := 7) (M := 2) (d := 2) (u := some 2) (fun _ i j => if i = j + 1 then (1 : ℤ) else 0) (fun b i j => b - i * j)
  (fun b i j => b * i + j) (fun _ i j => i - j) (fun b t f => b + t * f) (by decide) (by decide) (by decide) (by rintro i ⟨⟩; decide)
  (fun _ _ => by ext i j; fin_cases i <;> fin_cases j <;> simp [mat, pow_two, Matrix.mul_apply])

end Props
