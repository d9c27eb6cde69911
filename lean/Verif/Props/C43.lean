import Verif.Proof.LtiInterp
import Mathlib.Analysis.Real.Sqrt
import Mathlib.Data.Real.Star
import Mathlib.Tactic.Positivity

/-!
# C43: the coefficients of `cspline` interpolate

`Spec.mirror half L c` continues the coefficients beyond the ends as the chosen padding does, and `Spec.splineAt` is the spline at an
integer, `(c[n-1] + 4 c[n] + c[n+1]) / 6`.  The pole `r` is a root of `r² + 4r + 1` in any field of characteristic neither 2 nor 3;
the code uses `√3 - 2`.

The claim holds at every sample but the first one.  There the code starts the causal filter with a sum over the samples it has, instead of
the sum over the whole mirrored signal, which leaves an error of the order of `r ^ L` (`C43_first_sample`, `C43_first_sample_bound`,
`C43_first_sample_not`).
-/

namespace Props
open Torch Torch.Tensor Spec Phil Phil.Interp Finset

theorem C43_pole : (√3 - 2) * (√3 - 2) + 4 * (√3 - 2) + 1 = (0 : ℝ) := by
  have h := Real.mul_self_sqrt (show (0 : ℝ) ≤ 3 by norm_num)
  linear_combination h

section
variable {α : Type} [Field α] [StarRing α]

/-- **C43 at every sample but the first.**  Batch size, length, signal, form, padding and backend are arbitrary.  Missing: the first
sample, where the claim is false. -/
theorem C43_cspline_partial {ext : Option (Op α)} {u : Int} (parallel half : Bool) {B L : Nat} (hL : 2 ≤ L)
    (hrun : SplineRunner ext u parallel L) {r : α} (hr : r * r + 4 * r + 1 = 0) (h2 : (2 : α) ≠ 0) (h3 : (3 : α) ≠ 0)
    (x : Nat → Nat → α) :
    ∃ c : Nat → Nat → α, cspline ext u r (t2 B L x) parallel half = .ok (t2 B L c) ∧
      ∀ b n : Nat, 1 ≤ n → n < L → splineAt (mirror half L (c b)) n = x b n :=
  ⟨_, cspline_eq parallel half (by omega) hrun (pole_sq_ne_one hr h2 h3) x,
    fun b _ h1 hn => spline_inside half hL hr h2 h3 _ (x b) h1 hn⟩

example := C43_cspline_partial (ext := none) (u := 1) true false (B := 3) (L := 7) (by decide) ⟨by decide, fun h => by cases h⟩ C43_pole
  (by norm_num) (by norm_num) (fun i t => (i : ℝ) * t)

/-- **C43 at the first sample**: the error is `r ^ L` times the state of the causal filter `h[t] = r h[t-1] + x[t]` before the last sample
(`scipy_padding=False`), or `r ^ (L+1) / (1+r)` times its last state. -/
theorem C43_first_sample {ext : Option (Op α)} {u : Int} (parallel half : Bool) {B L : Nat} (hL : 2 ≤ L)
    (hrun : SplineRunner ext u parallel L) {r : α} (hr : r * r + 4 * r + 1 = 0) (h2 : (2 : α) ≠ 0) (h3 : (3 : α) ≠ 0)
    (x : Nat → Nat → α) :
    ∃ c : Nat → Nat → α, cspline ext u r (t2 B L x) parallel half = .ok (t2 B L c) ∧
      ∀ b : Nat, splineAt (mirror half L (c b)) 0 = x b 0 -
        (if half then r ^ (L + 1) / (1 + r) * scalarRec (fun _ => r) (∑ k ∈ range L, x b k * r ^ k) (x b) L
          else r ^ L * scalarRec (fun _ => r) (∑ k ∈ range (L - 1), x b (k + 1) * r ^ k) (x b) (L - 1)) := by
  refine ⟨_, cspline_eq parallel half (by omega) hrun (pole_sq_ne_one hr h2 h3) x, fun b => ?_⟩
  rw [spline_first half hL hr h2 h3 (x b)]
  cases half <;> rfl

example := C43_first_sample (ext := none) (u := 1) false true (B := 3) (L := 7) (by decide) ⟨by decide, fun _ => by decide⟩ C43_pole
  (by norm_num) (by norm_num) (fun i t => (i : ℝ) * t)

/-- **C43, the parallel and the cascaded form agree**, whatever runs them. -/
theorem C43_forms_agree {ext ext' : Option (Op α)} {u u' : Int} (half : Bool) {B L : Nat} (hL : 1 ≤ L)
    (hrun : SplineRunner ext u true L) (hrun' : SplineRunner ext' u' false L) {r : α} (hr : 1 - r * r ≠ 0) (x : Nat → Nat → α) :
    cspline ext u r (t2 B L x) true half = cspline ext' u' r (t2 B L x) false half :=
  (cspline_eq true half hL hrun hr x).trans (cspline_eq false half hL hrun' hr x).symm

end

example := C43_forms_agree (ext := none) (ext' := none) (u := 1) (u' := 2) true (B := 3) (L := 7) (by decide) ⟨by decide, fun h => by cases h⟩
  ⟨by decide, fun _ => by decide⟩ (r := (1 / 2 : ℚ)) (by norm_num) (fun i t => (i : ℚ) * t)

/-! ## Over the real numbers, with the pole of the code -/

theorem sqrt3_bounds : (17 / 10 : ℝ) < √3 ∧ √3 < (9 / 5 : ℝ) := by
  constructor
  · exact Real.lt_sqrt_of_sq_lt (by norm_num)
  · exact (Real.sqrt_lt' (by norm_num)).mpr (by norm_num)

theorem first_state_bound {ρ X z : ℝ} {r : ℝ} (hρ : |r| = ρ) (h1 : ρ < 1) (x : Nat → ℝ) (hx : ∀ n, |x n| ≤ X)
    (hz : |z| ≤ X / (1 - ρ)) : ∀ n, |scalarRec (fun _ => r) z x n| ≤ X / (1 - ρ)
  | 0 => hz
  | n + 1 => by
    have ih := first_state_bound hρ h1 x hx hz n
    have hpos : 0 < 1 - ρ := by linarith
    have hn : 0 ≤ ρ := hρ ▸ abs_nonneg r
    calc |r * scalarRec (fun _ => r) z x n + x n| ≤ |r * scalarRec (fun _ => r) z x n| + |x n| := abs_add_le _ _
      _ ≤ ρ * (X / (1 - ρ)) + X := by
          rw [abs_mul, hρ]
          exact add_le_add (mul_le_mul_of_nonneg_left ih hn) (hx n)
      _ = X / (1 - ρ) := by field_simp; ring

theorem first_sum_bound {ρ X : ℝ} {r : ℝ} (hρ : |r| = ρ) (h1 : ρ < 1) (x : Nat → ℝ) (hx : ∀ n, |x n| ≤ X) :
    ∀ n, |∑ k ∈ range n, x k * r ^ k| ≤ X * (1 - ρ ^ n) / (1 - ρ)
  | 0 => by simp
  | n + 1 => by
    have ih := first_sum_bound hρ h1 x hx n
    have hpos : 0 < 1 - ρ := by linarith
    have hn : 0 ≤ ρ := hρ ▸ abs_nonneg r
    rw [sum_range_succ]
    calc _ ≤ |∑ k ∈ range n, x k * r ^ k| + |x n * r ^ n| := abs_add_le _ _
      _ ≤ X * (1 - ρ ^ n) / (1 - ρ) + X * ρ ^ n := by
          rw [abs_mul, abs_pow, hρ]
          exact add_le_add ih (mul_le_mul_of_nonneg_right (hx n) (pow_nonneg hn n))
      _ = _ := by field_simp; ring

/-- **C43, size of the error at the first sample**: for samples of size at most `X` it is at most `2 X (2 - √3) ^ L`, about `2 X 0.27 ^ L`. -/
theorem C43_first_sample_bound {ext : Option (Op ℝ)} {u : Int} (parallel half : Bool) {B L : Nat} (hL : 2 ≤ L)
    (hrun : SplineRunner ext u parallel L) (x : Nat → Nat → ℝ) (X : ℝ) (hx : ∀ b n, |x b n| ≤ X) :
    ∃ c : Nat → Nat → ℝ, cspline ext u (√3 - 2) (t2 B L x) parallel half = .ok (t2 B L c) ∧
      ∀ b : Nat, |splineAt (mirror half L (c b)) 0 - x b 0| ≤ 2 * X * (2 - √3) ^ L := by
  obtain ⟨c, hc, h0⟩ := C43_first_sample (B := B) parallel half hL hrun C43_pole (by norm_num) (by norm_num) x
  refine ⟨c, hc, fun b => ?_⟩
  obtain ⟨lo, hi⟩ := sqrt3_bounds
  have hρ : |√3 - 2| = 2 - √3 := by rw [abs_of_neg (by linarith)]; ring
  have hX : 0 ≤ X := (abs_nonneg _).trans (hx 0 0)
  have h1 : 2 - √3 < 1 := by linarith
  have hp : 0 < 2 - √3 := by linarith
  have hd : 0 < 1 - (2 - √3) := by linarith
  have hX2 : X / (1 - (2 - √3)) ≤ 2 * X := by
    rw [div_le_iff₀ hd]
    nlinarith
  have hle : ∀ n, X * (1 - (2 - √3) ^ n) / (1 - (2 - √3)) ≤ X / (1 - (2 - √3)) := fun n => by
    refine div_le_div_of_nonneg_right ?_ hd.le
    have := pow_pos hp n
    nlinarith
  rw [h0 b]
  cases half with
  | true =>
    rw [if_pos rfl]
    have hs := first_state_bound hρ h1 (x b) (hx b) ((first_sum_bound hρ h1 (x b) (hx b) L).trans (hle L)) L
    rw [show ∀ a e : ℝ, a - e - a = -e from fun a e => by ring, abs_neg, abs_mul, abs_div, abs_pow, hρ,
      abs_of_pos (show 0 < 1 + (√3 - 2) by linarith), show 1 + (√3 - 2) = 1 - (2 - √3) by ring, pow_succ]
    have e : (2 - √3) ^ L * (2 - √3) / (1 - (2 - √3)) ≤ (2 - √3) ^ L := by
      rw [div_le_iff₀ hd]
      refine mul_le_mul_of_nonneg_left ?_ (pow_nonneg hp.le L)
      linarith
    calc _ ≤ (2 - √3) ^ L * (2 * X) := mul_le_mul e (hs.trans hX2) (abs_nonneg _) (pow_nonneg hp.le L)
      _ = _ := by ring
  | false =>
    rw [if_neg (by decide)]
    have hs := first_state_bound hρ h1 (x b) (hx b)
      ((first_sum_bound hρ h1 (fun k => x b (k + 1)) (fun n => hx b (n + 1)) (L - 1)).trans (hle (L - 1))) (L - 1)
    rw [show ∀ a e : ℝ, a - e - a = -e from fun a e => by ring, abs_neg, abs_mul, abs_pow, hρ]
    calc _ ≤ (2 - √3) ^ L * (2 * X) := mul_le_mul_of_nonneg_left (hs.trans hX2) (pow_nonneg hp.le L)
      _ = _ := by ring

example := C43_first_sample_bound (ext := none) (u := 1) true false (B := 3) (L := 7) (by decide) ⟨by decide, fun h => by cases h⟩
  (fun _ t => if t = 0 then 1 else -1) 1 (fun _ t => by by_cases h : t = 0 <;> simp [h])

/-- **C43 is false at the first sample**: for the signal `(1, 0)`, in both forms and with both paddings. -/
theorem C43_first_sample_not {ext : Option (Op ℝ)} {u : Int} (parallel half : Bool) (hrun : SplineRunner ext u parallel 2) :
    ∃ c : Nat → Nat → ℝ, cspline ext u (√3 - 2) (t2 1 2 fun _ n => if n = 0 then 1 else 0) parallel half = .ok (t2 1 2 c) ∧
      splineAt (mirror half 2 (c 0)) 0 ≠ 1 := by
  obtain ⟨c, hc, h0⟩ := C43_first_sample (B := 1) parallel half (le_refl 2) hrun C43_pole (by norm_num) (by norm_num)
    fun _ n => if n = 0 then (1 : ℝ) else 0
  refine ⟨c, hc, ?_⟩
  obtain ⟨lo, hi⟩ := sqrt3_bounds
  rw [h0 0]
  generalize hr : √3 - 2 = r
  have hn : r ≠ 0 := fun h => by linarith
  have hp : 1 + r ≠ 0 := fun h => by linarith
  cases half with
  | true =>
    simp only [if_true, sum_range_succ, range_zero, sum_empty, scalarRec]
    intro h
    have : r ^ 3 / (1 + r) * (r * (r + 1)) = 0 := by simpa using h
    rw [show r ^ 3 / (1 + r) * (r * (r + 1)) = r ^ 4 by field_simp; ring] at this
    exact hn (pow_eq_zero_iff (by norm_num) |>.mp this)
  | false =>
    simp only [if_true, Bool.false_eq_true, if_false, sum_range_succ, range_zero, sum_empty, scalarRec]
    intro h
    have : r ^ 2 = 0 := by simpa using h
    exact hn (pow_eq_zero_iff (by norm_num) |>.mp this)

example := C43_first_sample_not (ext := none) (u := 1) true false ⟨by decide, fun h => by cases h⟩

/-- The hypotheses can be met without the extension: `unroll_factor=1`, three samples. -/
theorem C43_case (x : Nat → Nat → ℝ) : ∃ c : Nat → Nat → ℝ, cspline none 1 (√3 - 2) (t2 2 3 x) true false = .ok (t2 2 3 c) ∧
    (c 1 0 + 4 * c 1 1 + c 1 2) / 6 = x 1 1 ∧ (c 1 1 + 4 * c 1 2 + c 1 1) / 6 = x 1 2 := by
  obtain ⟨c, h, hc⟩ := C43_cspline_partial (B := 2) (L := 3) (ext := none) (u := 1) true false (by omega) ⟨by decide, fun h => (by cases h)⟩
    C43_pole (by norm_num) (by norm_num) x
  exact ⟨c, h, hc 1 1 (by omega) (by omega), hc 1 2 (by omega) (by omega)⟩

end Props
