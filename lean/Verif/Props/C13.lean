import Mathlib.NumberTheory.Zsqrtd.Basic
import Verif.Proof.LtiFiltering

/-!
# C13: transposed direct form II state convention

`zext K b` is the coefficient row extended by zeros (the shorter of `b` and `1, a` counts as zero-padded).
-/

namespace Props
open Torch Torch.Tensor Spec Phil Phil.Lti
variable {α : Type} [CommRing α] [StarRing α]

/-- **C13.** For real data `lfilter(b, a, x, zi, form="tdf2")` is the textbook delay line of length
`M = max P (K-1) ≥ 1` started from `zi`: `y = b_0 x + s_0`, `s_m' = b_{m+1} x + s_{m+1} - a_{m+1} y` with `s_M = 0`; the
returned state is the delay line after the last sample.  (`av i m` is `a_{m+1}`.) -/
theorem C13_tdf2 [TrivialStar α] {B N K P : Nat} {b a X zi : Tensor α} {bv av x z : Nat → Nat → α} {u : Option Int}
    (hb : Rows B K b bv) (ha : Rows B P a av) (hx : Sig N B X x) (hz : InitState B (max P (K - 1)) (some zi) z)
    (hK : 0 < K) (hM : 0 < max P (K - 1)) (hN : 0 < N) (hu : ∀ i, u = some i → 1 ≤ i) :
    ∃ (y : Nat → Nat → α) (s : Nat → Nat → Nat → α), (∀ i m, s i 0 m = z i m) ∧
      (∀ i t, y i t = bv i 0 * x i t + s i t 0) ∧
      (∀ i t m, m < max P (K - 1) → s i (t + 1) m = zext K (bv i) (m + 1) * x i t +
        (if m + 1 < max P (K - 1) then s i t (m + 1) else 0) - zext P (av i) m * y i t) ∧
      lfilter b a X (some zi) .tdf2 u =
        .ok (packed (allFlat X b a (some zi)) B N y,
          some (packed (allFlat X b a (some zi)) B (max P (K - 1)) fun i m => s i N m)) := by
  have h := lfilter_tdf2 hb ha hx hz hK hM hN hu
  refine ⟨_, fun i => tdf2State (max P (K - 1)) (fun k => star (zext K (bv i) k)) (fun k => star (zext P (av i) k)) (z i) (x i),
    fun _ _ => rfl, fun i t => ?_, fun i t m hm => ?_, h⟩
  · rw [tdf2Out, star_trivial, zext_lt _ hK, add_comm]
  · beta_reduce
    rw [tdf2_step _ _ _ _ _ hm, star_trivial, star_trivial]
    ring

/-- For complex data the same holds with all coefficients conjugated (see C12). -/
theorem C13_tdf2_complex {B N K P : Nat} {b a X zi : Tensor α} {bv av x z : Nat → Nat → α} {u : Option Int}
    (hb : Rows B K b bv) (ha : Rows B P a av) (hx : Sig N B X x) (hz : InitState B (max P (K - 1)) (some zi) z)
    (hK : 0 < K) (hM : 0 < max P (K - 1)) (hN : 0 < N) (hu : ∀ i, u = some i → 1 ≤ i) :
    ∃ (y : Nat → Nat → α) (s : Nat → Nat → Nat → α), (∀ i m, s i 0 m = z i m) ∧
      (∀ i t, y i t = star (bv i 0) * x i t + s i t 0) ∧
      (∀ i t m, m < max P (K - 1) → s i (t + 1) m = star (zext K (bv i) (m + 1)) * x i t +
        (if m + 1 < max P (K - 1) then s i t (m + 1) else 0) - star (zext P (av i) m) * y i t) ∧
      lfilter b a X (some zi) .tdf2 u =
        .ok (packed (allFlat X b a (some zi)) B N y,
          some (packed (allFlat X b a (some zi)) B (max P (K - 1)) fun i m => s i N m)) := by
  have h := lfilter_tdf2 hb ha hx hz hK hM hN hu
  refine ⟨_, fun i => tdf2State (max P (K - 1)) (fun k => star (zext K (bv i) k)) (fun k => star (zext P (av i) k)) (z i) (x i),
    fun _ _ => rfl, fun i t => ?_, fun i t m hm => ?_, h⟩
  · rw [tdf2Out, zext_lt _ hK, add_comm]
  · beta_reduce
    rw [tdf2_step _ _ _ _ _ hm]
    ring

example := C13_tdf2_complex (B := 2) (N := 5) (K := 3) (P := 2) (u := some 2) (.batched fun i j => (⟨i, j⟩ : ℤ√(-1)))
  (.shared fun k => (⟨1, k⟩ : ℤ√(-1))) (.batched 2 fun i t => (⟨i, t⟩ : ℤ√(-1))) (.shared fun m => (⟨m, 1⟩ : ℤ√(-1))) (by decide) (by decide)
  (by decide) (by simp)

/-- Non-vacuity: four taps, two poles, flat signal, flat initial state. -/
example : ∃ (y : Nat → Nat → ℤ) (s : Nat → Nat → Nat → ℤ), (∀ i m, s i 0 m = 7 - (m : ℤ)) ∧
    (∀ i t, y i t = 3 * (t : ℤ) + s i t 0) ∧
    (∀ i t m, m < 3 → s i (t + 1) m = zext 4 (fun j => (j : ℤ) + 3) (m + 1) * (t : ℤ) +
      (if m + 1 < 3 then s i t (m + 1) else 0) - zext 2 (fun k => (k : ℤ) + 2) m * y i t) ∧
    lfilter (t1 4 fun j => (j : ℤ) + 3) (t1 2 fun k => (k : ℤ) + 2) (t1 6 fun t => (t : ℤ)) (some (t1 3 fun m => 7 - (m : ℤ)))
      .tdf2 none = .ok (t1 6 (y 0), some (t1 3 fun m => s 0 6 m)) :=
  C13_tdf2 (K := 4) (P := 2) (N := 6) (B := 1) (.shared fun j => (j : ℤ) + 3) (.shared _) (.flat _) (.shared _) (by decide)
    (by decide) (by decide) (by simp)

end Props
