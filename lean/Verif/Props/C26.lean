import Verif.Proof.DiagShift

/-!
# C26: `diag_shift`

Full claim: `diag_shift(c, offset, discard_end)` moves column `m` of `c` down by `m + offset`, filling with zeros; the
result has `T + M - 1 + offset` rows, or `T` rows with `discard_end`.  This fails for `discard_end` with `M = 1` and
`offset = 0` (see `C26_one_column`); everything else is proved.
-/

namespace Props
open Torch Torch.Tensor Phil Phil.Lpv
variable {α : Type} [CommRing α]

/-- **C26, all rows.** -/
theorem C26_full {B T M : Nat} (c : Nat → Nat → Nat → α) (off : Nat) :
    diagShift (t3 B T M c) off false = .ok (t3 B (T + M + off - 1) M fun b t m =>
      if m + off ≤ t ∧ t < T + m + off then c b (t - m - off) m else 0) :=
  diagShift_t3 c off false

/-- **C26, all rows, no batch axis.** -/
theorem C26_full_unbatched {T M : Nat} (c : Nat → Nat → α) (off : Nat) :
    diagShift (t2 T M c) off false = .ok (t2 (T + M + off - 1) M fun t m =>
      if m + off ≤ t ∧ t < T + m + off then c (t - m - off) m else 0) :=
  diagShift_t2 c off false

/-- **C26 (partial), end discarded**: missing is the case `M = 1`, `offset = 0`. -/
theorem C26_discard_end_partial {B T M : Nat} (c : Nat → Nat → Nat → α) (off : Nat) (hM : 0 < M) (h : 0 < M - 1 + off) :
    diagShift (t3 B T M c) off true = .ok (t3 B T M fun b t m =>
      if m + off ≤ t then c b (t - m - off) m else 0) := by
  rw [diagShift_t3, if_pos rfl, pyStop_discard hM h]
  refine congrArg Except.ok (t3_congr rfl rfl rfl fun b t m _ ht _ => ?_)
  unfold shifted
  by_cases h1 : m + off ≤ t
  · rw [if_pos ⟨h1, by omega⟩, if_pos h1]
  · rw [if_neg (fun h => h1 h.1), if_neg h1]

/-- **C26 (partial), end discarded, no batch axis.** -/
theorem C26_discard_end_unbatched_partial {T M : Nat} (c : Nat → Nat → α) (off : Nat) (hM : 0 < M)
    (h : 0 < M - 1 + off) :
    diagShift (t2 T M c) off true = .ok (t2 T M fun t m => if m + off ≤ t then c (t - m - off) m else 0) := by
  rw [diagShift_t2, if_pos rfl, pyStop_discard hM h]
  refine congrArg Except.ok (t2_congr rfl rfl fun t m ht _ => ?_)
  unfold shifted
  by_cases h1 : m + off ≤ t
  · rw [if_pos ⟨h1, by omega⟩, if_pos h1]
  · rw [if_neg (fun h => h1 h.1), if_neg h1]

example := C26_discard_end_unbatched_partial (T := 6) (M := 3) (fun t m => (t : ℤ) + m) 2 (by decide) (by decide)

/-- **C26 is false for one column without offset**: `y[..., : -0]` is empty, so all `T` rows are lost. -/
theorem C26_one_column {B T : Nat} (c : Nat → Nat → Nat → α) :
    diagShift (t3 B T 1 c) 0 true = .ok (t3 B 0 1 fun _ _ _ => 0) := by
  rw [diagShift_t3, if_pos rfl]
  have h : pyStop (T + 1 + 0 - 1) (some (-(((1 : Nat) : Int) - 1 + ((0 : Nat) : Int)))) = 0 := by
    simp [pyStop, pyBound]
  rw [h]
  exact congrArg Except.ok (t3_congr rfl rfl rfl fun b t m _ ht _ => absurd ht (by omega))

/-- Non-vacuity: three rows, two columns, offset one; the hypotheses hold and nothing of `c` is lost. -/
example : diagShift (t3 1 3 2 fun _ t m => (10 * t + m + 1 : ℤ)) 1 true = .ok (t3 1 3 2 fun _ t m =>
    if m + 1 ≤ t then (10 * ((t - m - 1 : Nat) : ℤ) + m + 1) else 0) :=
  C26_discard_end_partial _ 1 (by decide) (by decide)

example : (diagShift (t3 1 3 2 fun _ t m => (10 * t + m + 1 : ℤ)) 0 false).map
    (fun y => (List.range 4).map fun t => (y.get [0, t, 0], y.get [0, t, 1])) =
    .ok [(1, 0), (11, 2), (21, 12), (0, 22)] := by decide +kernel

end Props
