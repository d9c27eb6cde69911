import Verif.Proof.LpvSsmAny
import Mathlib.Tactic.NormNum.Prime

/-!
# C06: output index selection commutes with the recursion
-/

namespace Props
open Torch Torch.Tensor Spec Phil
variable {α : Type} [CommRing α]

/-- **C06** (time-invariant): with `out_idx = i` in range the result is the selection of component `i` from the full
result, for every unroll factor. -/
theorem C06_lti_commutes {B N M : Nat} {A x : Tensor α} {Av xv : Nat → Nat → Nat → α}
    (hA : MatVals B M M A Av) (hx : Drive B N M x xv) (zi : Nat → Nat → α) (u i : Int)
    (hM : 0 < M) (hN : 0 < N) (hu : 1 ≤ u) (hi : -(M : Int) ≤ i ∧ i < M) :
    Lti.stateSpaceRecursion A (t2 B M zi) x u (some i) =
      (do let h ← Lti.stateSpaceRecursion A (t2 B M zi) x u none; select h 2 i) := by
  rw [Lti.stateSpaceRecursion_layout hA hx zi u none trivial hM hN hu,
    Lti.stateSpaceRecursion_layout hA hx zi u (some i) hi hM hN hu, ok_bind]
  simp only [Lti.OT]
  rw [select_t3_2_idx _ _ _ _ _ hi]

example := C06_lti_commutes (B := 2) (N := 5) (M := 2) (MatVals.batched fun b i k => (b : ℤ) + i - k)
  (Drive.full fun b t k => (b : ℤ) + t * k) (fun b k => b - k) 2 (-1) (by decide) (by decide) (by decide) (by decide)

/-- Selecting component `k` counted from the front. -/
theorem C06_lti_nonnegative {B N M : Nat} {A x : Tensor α} {Av xv : Nat → Nat → Nat → α}
    (hA : MatVals B M M A Av) (hx : Drive B N M x xv) (zi : Nat → Nat → α) (u : Int) (k : Nat)
    (hN : 0 < N) (hu : 1 ≤ u) (hk : k < M) :
    Lti.stateSpaceRecursion A (t2 B M zi) x u (some k) =
      .ok (t2 B N fun b t => vecRec M (fun _ => Av b) (zi b) (xv b) (t + 1) k) := by
  rw [Lti.stateSpaceRecursion_layout hA hx zi u (some k) ⟨by omega, by omega⟩ (by omega) hN hu]
  simp only [Lti.OT, nidx, if_neg (show ¬ (k : Int) < 0 by omega), Int.toNat_natCast]

example := C06_lti_nonnegative (B := 2) (N := 5) (M := 2) (MatVals.batched fun b i k => (b : ℤ) + i - k)
  (Drive.full fun b t k => (b : ℤ) + t * k) (fun b k => b - k) 2 1 (by decide) (by decide) (by decide)

/-- Selecting component `k` counted from the end, `out_idx = -(k+1)`. -/
theorem C06_lti_negative {B N M : Nat} {A x : Tensor α} {Av xv : Nat → Nat → Nat → α}
    (hA : MatVals B M M A Av) (hx : Drive B N M x xv) (zi : Nat → Nat → α) (u : Int) (k : Nat)
    (hN : 0 < N) (hu : 1 ≤ u) (hk : k < M) :
    Lti.stateSpaceRecursion A (t2 B M zi) x u (some (-(k + 1 : Nat))) =
      .ok (t2 B N fun b t => vecRec M (fun _ => Av b) (zi b) (xv b) (t + 1) (M - 1 - k)) := by
  rw [Lti.stateSpaceRecursion_layout hA hx zi u (some (-(k + 1 : Nat))) ⟨by omega, by omega⟩ (by omega) hN hu]
  simp only [Lti.OT, nidx, if_pos (show (-((k + 1 : Nat) : Int)) < 0 by omega)]
  rw [show ((-((k + 1 : Nat) : Int)) + (M : Int)).toNat = M - 1 - k by omega]

/-- An index outside the state is rejected, on the blocked and the unblocked path. -/
theorem C06_lti_out_of_range {B N M : Nat} {A x : Tensor α} {Av xv : Nat → Nat → Nat → α}
    (hA : MatVals B M M A Av) (hx : Drive B N M x xv) (zi : Nat → Nat → α) (u i : Int)
    (hM : 0 < M) (hN : 0 < N) (hi : i < -(M : Int) ∨ (M : Int) ≤ i) :
    Fails (Lti.stateSpaceRecursion A (t2 B M zi) x u (some i)) :=
  Lti.stateSpaceRecursion_bad_index hA hx zi u i (by omega) hM hN

example := C06_lti_out_of_range (B := 2) (N := 5) (M := 2) (MatVals.batched fun b i k => (b : ℤ) + i - k)
  (Drive.full fun b t k => (b : ℤ) + t * k) (fun b k => b - k) 2 2 (by decide) (by decide) (by decide)

/-- **C06** (time-varying): the same, for every unroll factor, including those for which the blocked algorithm computes
wrong states (C07). -/
theorem C06_lpv_commutes {B N M : Nat} {A x : Tensor α} {Av : Nat → Nat → Nat → Nat → α}
    {xv : Nat → Nat → Nat → α} (hA : MatSeq B N M M A Av) (hx : Drive B N M x xv) (zi : Nat → Nat → α) (u i : Int)
    (hB : 0 < B) (hM : 0 < M) (hN : 0 < N) (hu : 1 ≤ u) (hi : -(M : Int) ≤ i ∧ i < M) :
    Lpv.stateSpaceRecursion A (t2 B M zi) x u (some i) =
      (do let h ← Lpv.stateSpaceRecursion A (t2 B M zi) x u none; select h 2 i) := by
  rw [Lpv.stateSpaceRecursion_any hA hx zi u none trivial hB hM hN hu,
    Lpv.stateSpaceRecursion_any hA hx zi u (some i) hi hB hM hN hu, ok_bind]
  simp only [Lti.OT]
  rw [select_t3_2_idx _ _ _ _ _ hi]

/-- An index out of range is rejected, for every unroll factor. -/
theorem C06_lpv_out_of_range {B N M : Nat} {A x : Tensor α} {Av : Nat → Nat → Nat → Nat → α} {xv : Nat → Nat → Nat → α}
    (hA : MatSeq B N M M A Av) (hx : Drive B N M x xv) (zi : Nat → Nat → α) (u i : Int)
    (hM : 0 < M) (hN : 0 < N) (hi : i < -(M : Int) ∨ (M : Int) ≤ i) :
    Fails (Lpv.stateSpaceRecursion A (t2 B M zi) x u (some i)) :=
  Lpv.stateSpaceRecursion_bad_index hA hx zi u i (by omega) hM hN

/-- Non-vacuity: a last-component selection on the blocked path of both versions. -/
example : Lti.stateSpaceRecursion (t2 2 2 fun i j => (i : ℤ) + 2 * j) (t2 3 2 fun b i => (b : ℤ) - i)
    (t2 3 5 fun b t => (b : ℤ) + t) 2 (some (-1)) =
    .ok (t2 3 5 fun b t => vecRec 2 (fun _ i j => (i : ℤ) + 2 * j) (fun i => (b : ℤ) - i)
      (fun t k => if k = 0 then (b : ℤ) + t else 0) (t + 1) 1) :=
  C06_lti_negative (MatVals.shared _) (Drive.scalar _) _ 2 0 (by omega) (by omega) (by omega)

example : at? (Lti.stateSpaceRecursion (t2 2 2 fun i j => (i : ℤ) + 2 * j) (t2 3 2 fun b i => (b : ℤ) - i)
    (t2 3 5 fun b t => (b : ℤ) + t) 2 (some (-1))) [1, 2] = some 16 := by
  decide +kernel

example : at? (Lpv.stateSpaceRecursion (t3 5 2 2 fun t i j => (t : ℤ) + i + 2 * j) (t2 3 2 fun b i => (b : ℤ) - i)
    (t2 3 5 fun b t => (b : ℤ) + t) 3 (some 1)) [1, 4] =
    at? (Lpv.stateSpaceRecursion (t3 5 2 2 fun t i j => (t : ℤ) + i + 2 * j) (t2 3 2 fun b i => (b : ℤ) - i)
    (t2 3 5 fun b t => (b : ℤ) + t) 3 none) [1, 4, 1] := by
  decide +kernel

/-- The commutation at an unroll factor for which the states are wrong (`u - 1 = 4`, `N = 6`). -/
example (A : Nat → Nat → Nat → ℤ) (z x : Nat → Nat → ℤ) :
    Lpv.stateSpaceRecursion (t3 6 2 2 A) (t2 3 2 z) (t2 3 6 x) 5 (some (-2)) =
      (do let h ← Lpv.stateSpaceRecursion (t3 6 2 2 A) (t2 3 2 z) (t2 3 6 x) 5 none; select h 2 (-2)) :=
  C06_lpv_commutes (MatSeq.shared _) (Drive.scalar _) z 5 (-2) (by omega) (by omega) (by omega) (by omega) (by omega)

example (A : Nat → Nat → Nat → ℤ) (z x : Nat → Nat → ℤ) :
    Fails (Lpv.stateSpaceRecursion (t3 6 2 2 A) (t2 3 2 z) (t2 3 6 x) 5 (some (-3))) :=
  C06_lpv_out_of_range (MatSeq.shared _) (Drive.scalar _) z 5 (-3) (by omega) (by omega) (by omega)

end Props
