import Verif.Props.C80
import Verif.Props.C64
import Verif.Model.Example

/-!
# C81: the lowpass filter of the example notebook

`lowpass_biquad_coef` (`examples/estimate_lowpass.ipynb`) for a cutoff frequency `f` between 0 and half the sample rate `sr` and `Q > 0`.
-/

namespace Props
open Torch Torch.Tensor Spec Phil Phil.Example
open Phil.Lti (Form ok_pair lfilter lfilterZi)

/-- A cutoff frequency below half the sample rate, and a positive `Q`. -/
structure GoodCutoff (sr f Q : ℝ) : Prop where
  rate : 0 < sr
  low : 0 < f
  high : 2 * f < sr
  q : 0 < Q

/-- A real polynomial `z² + a_0 z + a_1` with `a_1 < 1` and `|a_0| < 1 + a_1` has its roots inside the unit circle. -/
theorem jury {a : Nat → ℝ} (h1 : a 1 < 1) (h2 : a 0 < 1 + a 1) (h3 : -a 0 < 1 + a 1) : ∀ p ∈ poles 2 fun k => (a k : ℂ), ‖p‖ < 1 := by
  intro p hp
  have hp' := (Polynomial.mem_roots'.1 hp).2
  unfold denPoly at hp'
  simp only [Polynomial.IsRoot, Finset.sum_range_succ, Finset.sum_range_zero, Polynomial.eval_add, Polynomial.eval_mul, Polynomial.eval_pow,
    Polynomial.eval_X, Polynomial.eval_C, zero_add] at hp'
  norm_num at hp'
  have hr := congrArg Complex.re hp'
  have hi := congrArg Complex.im hp'
  simp [pow_two] at hr hi
  rw [← sq_lt_one_iff₀ (norm_nonneg p), Complex.sq_norm, Complex.normSq_apply]
  by_cases hv : p.im = 0
  · rw [hv] at hr ⊢
    by_contra hc
    have hc : 1 ≤ p.re * p.re := by linarith [not_lt.1 hc]
    have hu : 1 ≤ p.re ∨ p.re ≤ -1 := by
      by_contra hn
      push Not at hn
      nlinarith
    rcases hu with hu | hu
    · nlinarith
    · nlinarith
  · have : a 0 = -2 * p.re := by
      have : p.im * (2 * p.re + a 0) = 0 := by linear_combination hi
      rcases mul_eq_zero.1 this with h | h
      · exact absurd h hv
      · linarith
    rw [this] at hr
    linarith

theorem GoodCutoff.w0 {sr f Q : ℝ} (h : GoodCutoff sr f Q) : 0 < w0 sr f ∧ w0 sr f < Real.pi := by
  have := Real.pi_pos
  refine ⟨div_pos (by have := h.low; positivity) h.rate, ?_⟩
  unfold Example.w0
  rw [div_lt_iff₀ h.rate]
  nlinarith [h.high]

theorem GoodCutoff.sin {sr f Q : ℝ} (h : GoodCutoff sr f Q) : 0 < Real.sin (Example.w0 sr f) :=
  Real.sin_pos_of_pos_of_lt_pi h.w0.1 h.w0.2

theorem GoodCutoff.alpha {sr f Q : ℝ} (h : GoodCutoff sr f Q) : 0 < alpha sr f Q := div_pos (half_pos h.sin) h.q

theorem GoodCutoff.cos {sr f Q : ℝ} (h : GoodCutoff sr f Q) : -1 < Real.cos (Example.w0 sr f) ∧ Real.cos (Example.w0 sr f) < 1 := by
  have h1 := h.sin
  have h2 := Real.sin_sq_add_cos_sq (Example.w0 sr f)
  constructor <;> nlinarith

/-- **C81, stability**: both poles lie inside the unit circle. -/
theorem C81_stable {sr f Q : ℝ} (h : GoodCutoff sr f Q) : ∀ p ∈ poles 2 fun k => (lowpassA sr f Q k : ℂ), ‖p‖ < 1 := by
  have h1 := h.alpha
  obtain ⟨h2, h3⟩ := h.cos
  have h4 : 0 < 1 + Example.alpha sr f Q := by linarith
  have e : 1 + (1 - Example.alpha sr f Q) / (1 + Example.alpha sr f Q) = 2 / (1 + Example.alpha sr f Q) := by field_simp; ring
  refine jury ?_ ?_ ?_
  · change (1 - Example.alpha sr f Q) / (1 + Example.alpha sr f Q) < 1
    rw [div_lt_one h4]; linarith
  · change -2 * Real.cos (Example.w0 sr f) / (1 + Example.alpha sr f Q) < 1 + (1 - Example.alpha sr f Q) / (1 + Example.alpha sr f Q)
    rw [e, div_lt_div_iff_of_pos_right h4]; linarith
  · change -(-2 * Real.cos (Example.w0 sr f) / (1 + Example.alpha sr f Q)) < 1 + (1 - Example.alpha sr f Q) / (1 + Example.alpha sr f Q)
    rw [e, ← neg_div, div_lt_div_iff_of_pos_right h4]; linarith

/-- The parameters of the notebook: 16 kHz, cutoff 1 kHz, `Q = 10`. -/
theorem notebook : GoodCutoff 16000 1000 10 := by constructor <;> norm_num

example := C81_stable notebook

/-- `1 + a_0 + a_1` and `b_0 + b_1 + b_2` agree and are positive. -/
theorem GoodCutoff.sum {sr f Q : ℝ} (h : GoodCutoff sr f Q) :
    ∑ j ∈ Finset.range 3, lowpassB sr f Q j = 1 + ∑ k ∈ Finset.range 2, lowpassA sr f Q k ∧
      0 < 1 + ∑ k ∈ Finset.range 2, lowpassA sr f Q k := by
  have h1 := h.alpha
  obtain ⟨h2, h3⟩ := h.cos
  have h4 : 0 < 1 + Example.alpha sr f Q := by linarith
  simp only [Finset.sum_range_succ, Finset.sum_range_zero, lowpassA, lowpassB, zero_add]
  constructor
  · field_simp; ring
  · rw [show 1 + (-2 * Real.cos (Example.w0 sr f) / (1 + Example.alpha sr f Q) + (1 - Example.alpha sr f Q) / (1 + Example.alpha sr f Q)) =
      2 * (1 - Real.cos (Example.w0 sr f)) / (1 + Example.alpha sr f Q) by field_simp; ring]
    exact div_pos (by linarith) h4

/-- **C81, frequency response**: gain 1 at frequency 0, 0 at half the sample rate, and `-i Q` at the cutoff frequency. -/
theorem C81_response {sr f Q : ℝ} (h : GoodCutoff sr f Q) :
    transferAt 3 2 (fun k => (lowpassB sr f Q k : ℂ)) (fun k => (lowpassA sr f Q k : ℂ)) 1 = 1 ∧
    transferAt 3 2 (fun k => (lowpassB sr f Q k : ℂ)) (fun k => (lowpassA sr f Q k : ℂ)) (-1) = 0 ∧
    transferAt 3 2 (fun k => (lowpassB sr f Q k : ℂ)) (fun k => (lowpassA sr f Q k : ℂ)) (Complex.exp (w0 sr f * Complex.I)) =
      -Complex.I * Q := by
  have h4 : (1 + (Example.alpha sr f Q : ℂ)) ≠ 0 := by
    have := h.alpha
    exact_mod_cast (by linarith : (0 : ℝ) < 1 + Example.alpha sr f Q).ne'
  obtain ⟨s1, s2⟩ := h.sum
  refine ⟨?_, ?_, ?_⟩
  · unfold transferAt denAt
    simp only [inv_one, one_pow, mul_one]
    have : (∑ j ∈ Finset.range 3, (lowpassB sr f Q j : ℂ)) = 1 + ∑ k ∈ Finset.range 2, (lowpassA sr f Q k : ℂ) := by exact_mod_cast s1
    rw [this]
    exact div_self (by exact_mod_cast s2.ne')
  · unfold transferAt
    rw [div_eq_zero_iff]
    left
    simp only [Finset.sum_range_succ, Finset.sum_range_zero, lowpassB]
    norm_num
    field_simp
    ring
  · have hq : (Q : ℂ) ≠ 0 := by exact_mod_cast h.q.ne'
    have hs : (Real.sin (Example.w0 sr f) : ℂ) ≠ 0 := by exact_mod_cast h.sin.ne'
    set s : ℂ := (Real.sin (Example.w0 sr f) : ℂ) with hsd
    set c : ℂ := (Real.cos (Example.w0 sr f) : ℂ) with hcd
    have hsc : s ^ 2 + c ^ 2 = 1 := by rw [hsd, hcd]; exact_mod_cast Real.sin_sq_add_cos_sq (Example.w0 sr f)
    have hw : Complex.exp (w0 sr f * Complex.I) = c + s * Complex.I := by
      rw [Complex.exp_mul_I, hsd, hcd, Complex.ofReal_sin, Complex.ofReal_cos]
    have hi : (Complex.exp (w0 sr f * Complex.I))⁻¹ = c - s * Complex.I := by
      rw [hw]
      refine inv_eq_of_mul_eq_one_right ?_
      linear_combination hsc - s ^ 2 * Complex.I_sq
    have ha : (Example.alpha sr f Q : ℂ) = s / 2 / Q := by rw [Example.alpha, hsd]; push_cast; rfl
    have hz : (c - s * Complex.I) * (c + s * Complex.I) = 1 := by linear_combination hsc - s ^ 2 * Complex.I_sq
    have hz0 : c - s * Complex.I ≠ 0 := left_ne_zero_of_mul_eq_one hz
    have eb0 : (lowpassB sr f Q 0 : ℂ) = (1 - c) / 2 / (1 + Example.alpha sr f Q) := by rw [lowpassB, hcd]; push_cast; rfl
    have eb1 : (lowpassB sr f Q 1 : ℂ) = (1 - c) / (1 + Example.alpha sr f Q) := by rw [lowpassB, hcd]; push_cast; rfl
    have eb2 : (lowpassB sr f Q 2 : ℂ) = (1 - c) / 2 / (1 + Example.alpha sr f Q) := by
      rw [lowpassB, hcd]
      · push_cast; rfl
      all_goals simp
    have ea0 : (lowpassA sr f Q 0 : ℂ) = -2 * c / (1 + Example.alpha sr f Q) := by rw [lowpassA, hcd]; push_cast; rfl
    have ea1 : (lowpassA sr f Q 1 : ℂ) = (1 - Example.alpha sr f Q) / (1 + Example.alpha sr f Q) := by
      rw [lowpassA]
      · push_cast; rfl
      all_goals simp
    have hd : denAt 2 (fun k => (lowpassA sr f Q k : ℂ)) (Complex.exp (w0 sr f * Complex.I)) =
        s ^ 2 * Complex.I / Q * (c - s * Complex.I) / (1 + Example.alpha sr f Q) := by
      unfold denAt
      simp only [Finset.sum_range_succ, Finset.sum_range_zero]
      rw [hi, ea0, ea1]
      rw [eq_div_iff h4]
      field_simp
      rw [ha]
      field_simp
      linear_combination (-(2 * (Q : ℂ)) - s) * hz * 1
    have hn : ∑ j ∈ Finset.range 3, (lowpassB sr f Q j : ℂ) * (Complex.exp (w0 sr f * Complex.I))⁻¹ ^ j =
        s ^ 2 * (c - s * Complex.I) / (1 + Example.alpha sr f Q) := by
      simp only [Finset.sum_range_succ, Finset.sum_range_zero]
      rw [hi, eb0, eb1, eb2]
      rw [eq_div_iff h4]
      field_simp
      linear_combination (-(1 - c)) * hz - 2 * (c - s * Complex.I) * hsc
    unfold transferAt
    rw [hd, hn]
    field_simp
    rw [Complex.I_sq]
    ring

example := C81_response notebook

/-- **C81, cutoff**: a cosine of the cutoff frequency leaves the filter, after a while, `Q` times as large and a quarter of a period late. -/
theorem C81_cutoff {sr f Q φ ε : ℝ} {B : Nat} (h : GoodCutoff sr f Q) (hB : 0 < B) (hε : 0 < ε) :
    ∃ T : Nat, ∀ (N : Nat) (form : Form) (u : Option Int), 0 < N → form ≠ .other → (∀ i, u = some i → 1 ≤ i) →
      ∃ y : Nat → Nat → ℝ, lfilter (lowpassBiquadCoef sr f Q).1 (lowpassBiquadCoef sr f Q).2
          (t2 B N fun _ t => Real.cos (2 * Real.pi * f / sr * t + φ)) none form u = .ok (t2 B N y, none) ∧
        ∀ i t, i < B → T ≤ t → |y i t - Q * Real.sin (2 * Real.pi * f / sr * t + φ)| < ε := by
  obtain ⟨T, hT⟩ := C64_cosine (ω := w0 sr f) (φ := φ) (B := B) (K := 3) (P := 2) (.shared (lowpassB sr f Q)) (.shared (lowpassA sr f Q)) hB
    (by decide) (by decide) (fun _ _ => C81_stable h) hε
  refine ⟨T, fun N form u hN hf hu => ?_⟩
  obtain ⟨y, e, hy⟩ := hT N form u hN hf hu
  refine ⟨y, e, fun i t hi ht => ?_⟩
  have k := hy i t hi ht
  rw [(C81_response h).2.2, show -Complex.I * (Q : ℂ) = (Q : ℂ) * -Complex.I by ring, Complex.arg_real_mul _ h.q, Complex.arg_neg_I] at k
  rw [show ‖(Q : ℂ) * -Complex.I‖ = Q by simp [abs_of_pos h.q], ← sub_eq_add_neg, Real.cos_sub_pi_div_two] at k
  exact k

example := C81_cutoff (φ := 0) (ε := 1 / 100) (B := 2) notebook (by decide) (by norm_num)

/-- `zi * x[:, :1]`. -/
theorem scaled_rows {B M : Nat} {zi : Tensor ℝ} {z : Nat → Nat → ℝ} (hz : Rows B M zi z) (x0 : Nat → ℝ) :
    ∃ z', mul zi (t2 B 1 fun i _ => x0 i) = .ok z' ∧ Rows B M z' fun i m => z i m * x0 i := by
  cases hz with
  | shared g => exact ⟨_, zipWith_m_n1 _ _ _ _ _, .batched _⟩
  | batched g => exact ⟨_, zipWith_nm_n1 _ _ _ _ _, .batched _⟩

/-- **C81, the filtered signal**: the notebook's computation returns the first sample plus the response `y` from rest to the difference
between the signal and its first sample. -/
theorem C81_run {sr f Q : ℝ} (h : GoodCutoff sr f Q) {B N : Nat} (hN : 0 < N) (x : Nat → Nat → ℝ) {u : Option Int}
    (hu : ∀ i, u = some i → 1 ≤ i) :
    ∃ y : Nat → Int → ℝ, (∀ i n, n < 0 → y i n = 0) ∧
      (∀ i (n : Nat), y i n = taps 3 (lowpassB sr f Q) (causal fun t => x i t - x i 0) n - taps 2 (lowpassA sr f Q) (y i) (n - 1)) ∧
      run sr f Q (t2 B N x) u = .ok (t2 B N fun i t => x i 0 + y i t) := by
  obtain ⟨zi, z, e, hz, k⟩ := C80_steady_start (B := B) (K := 3) (P := 2) (.shared (lowpassB sr f Q)) (.shared (lowpassA sr f Q))
    (by decide) (by decide) (fun _ => h.sum.2.ne')
  obtain ⟨z', e', hz'⟩ := scaled_rows hz fun i => x i 0
  obtain ⟨y, zf, hy0, hy, e2⟩ := k N (fun i => x i 0) x (t2 B N x) z' u hN hu (.batched _ _) hz'
  refine ⟨y, hy0, hy, ?_⟩
  have es : slice (t2 B N x) 1 none (some 1) = .ok (t2 B 1 fun i _ => x i 0) := by
    have := Lti.slice_packed_first (B := B) (L := N) false x hN
    rw [packed_false, packed_false] at this
    exact this
  have e1 : ∑ j ∈ Finset.range 3, lowpassB sr f Q j = 1 + ∑ k ∈ Finset.range 2, lowpassA sr f Q k := h.sum.1
  rw [e1, div_self h.sum.2.ne'] at e2
  simp only [mul_one] at e2
  have ef : allFlat (t2 B N x) (t1 3 (lowpassB sr f Q)) (t1 2 (lowpassA sr f Q)) (some z') = false := by simp [allFlat]
  rw [ef, packed_false] at e2
  unfold run
  refine bind_step e (bind_step es (bind_step e' (bind_step e2 ?_)))
  rfl

example := C81_run notebook (B := 1) (N := 32000) (by decide) (fun _ t => (t : ℝ)) (u := none) (by simp)

/-- **C81, constants** pass unchanged from the first sample on. -/
theorem C81_constant {sr f Q : ℝ} (h : GoodCutoff sr f Q) {B N : Nat} (hN : 0 < N) (c : Nat → ℝ) {u : Option Int}
    (hu : ∀ i, u = some i → 1 ≤ i) : run sr f Q (t2 B N fun i _ => c i) u = .ok (t2 B N fun i _ => c i) := by
  obtain ⟨y, hy0, hy, e⟩ := C81_run h (B := B) hN (fun i _ => c i) hu
  rw [e]
  refine congrArg Except.ok (t2_congr (α := ℝ) rfl rfl fun i t _ _ => ?_)
  have hc : ∀ n : Int, causal (fun _ => c i - c i) n = 0 := fun n => by unfold causal; split <;> simp
  have : ∀ n : Nat, ∀ m : Int, m ≤ n → y i m = 0 := by
    intro n
    induction n with
    | zero =>
      intro m hm
      rcases lt_or_eq_of_le hm with h' | h'
      · exact hy0 i m (by exact_mod_cast h')
      · rw [h', hy]
        simp only [taps, hc, mul_zero, Finset.sum_const_zero, zero_sub, neg_eq_zero]
        exact Finset.sum_eq_zero fun k _ => by rw [hy0 i _ (by push_cast; omega), mul_zero]
    | succ n ih =>
      intro m hm
      rcases lt_or_eq_of_le hm with h' | h'
      · exact ih m (by push_cast at h'; omega)
      · rw [h', hy]
        simp only [taps, hc, mul_zero, Finset.sum_const_zero, zero_sub, neg_eq_zero]
        exact Finset.sum_eq_zero fun k _ => by rw [ih _ (by push_cast; omega), mul_zero]
  rw [this t t le_rfl, add_zero]

example := C81_constant notebook (B := 1) (N := 5) (by decide) (fun _ => 3) (u := none) (by simp)

/-- The mean of the squared differences (`torch.nn.functional.mse_loss`, not part of the library). -/
noncomputable def meanSquare (B N : Nat) (y y' : Nat → Nat → ℝ) : ℝ :=
  (∑ i ∈ Finset.range B, ∑ t ∈ Finset.range N, (y i t - y' i t) ^ 2) / (B * N)

theorem meanSquare_eq_zero {B N : Nat} (hB : 0 < B) (hN : 0 < N) {y y' : Nat → Nat → ℝ} :
    meanSquare B N y y' = 0 ↔ ∀ i t, i < B → t < N → y i t = y' i t := by
  have h1 : (B : ℝ) * N ≠ 0 := by positivity
  unfold meanSquare
  rw [div_eq_zero_iff, or_iff_left h1, Finset.sum_eq_zero_iff_of_nonneg fun i _ => Finset.sum_nonneg fun t _ => sq_nonneg _]
  constructor
  · intro h i t hi ht
    have := (Finset.sum_eq_zero_iff_of_nonneg fun t _ => sq_nonneg _).1 (h i (Finset.mem_range.2 hi)) t (Finset.mem_range.2 ht)
    exact sub_eq_zero.1 (pow_eq_zero_iff (by decide) |>.1 this)
  · intro h i hi
    exact Finset.sum_eq_zero fun t ht => by rw [h i t (Finset.mem_range.1 hi) (Finset.mem_range.1 ht), sub_self]; norm_num

/-- The coefficients determine the cutoff frequency and `Q`. -/
theorem GoodCutoff.coef {sr f Q f' Q' : ℝ} (h : GoodCutoff sr f Q) (h' : GoodCutoff sr f' Q')
    (e0 : lowpassA sr f Q 0 = lowpassA sr f' Q' 0) (e1 : lowpassA sr f Q 1 = lowpassA sr f' Q' 1) : f = f' ∧ Q = Q' := by
  have ha := h.alpha
  have ha' := h'.alpha
  have h4 : 0 < 1 + Example.alpha sr f Q := by linarith
  have h4' : 0 < 1 + Example.alpha sr f' Q' := by linarith
  have ea : Example.alpha sr f Q = Example.alpha sr f' Q' := by
    simp only [lowpassA] at e1
    rw [div_eq_div_iff h4.ne' h4'.ne'] at e1
    linarith
  have ec : Real.cos (Example.w0 sr f) = Real.cos (Example.w0 sr f') := by
    simp only [lowpassA] at e0
    rw [← ea, div_left_inj' h4.ne'] at e0
    linarith
  have ew : Example.w0 sr f = Example.w0 sr f' :=
    Real.injOn_cos ⟨h.w0.1.le, h.w0.2.le⟩ ⟨h'.w0.1.le, h'.w0.2.le⟩ ec
  have ef : f = f' := by
    unfold Example.w0 at ew
    rw [div_left_inj' h.rate.ne'] at ew
    exact mul_left_cancel₀ (by positivity) ew
  refine ⟨ef, ?_⟩
  subst ef
  unfold Example.alpha at ea
  have := h.sin
  have h1 := h.q
  have h2 := h'.q
  rw [div_eq_div_iff h1.ne' h2.ne'] at ea
  exact (mul_left_cancel₀ (by positivity) ea).symm

theorem lowpassB_pos {sr f Q : ℝ} (h : GoodCutoff sr f Q) : 0 < lowpassB sr f Q 0 := by
  have h1 := h.alpha
  have h2 := h.cos.2
  exact div_pos (half_pos (by linarith)) (by linarith)

theorem lowpassB_one (sr f Q : ℝ) : lowpassB sr f Q 1 = 2 * lowpassB sr f Q 0 := by
  simp only [lowpassB]
  rw [div_right_comm]
  ring

theorem lowpassB_two (sr f Q : ℝ) : lowpassB sr f Q 2 = lowpassB sr f Q 0 := rfl

/-- **C81, the loss determines the parameters**: if some item of the signal leaves its first value and goes on for two more samples, the
notebook's loss is zero for the true cutoff frequency and `Q` only. -/
theorem C81_identifies {sr f Q f' Q' : ℝ} (h : GoodCutoff sr f Q) (h' : GoodCutoff sr f' Q') {B N i k : Nat} {x : Nat → Nat → ℝ}
    {u : Option Int} (hu : ∀ i, u = some i → 1 ≤ i) (hi : i < B) (hk : k + 2 < N) (hx : x i k ≠ x i 0) :
    ∃ y y', run sr f Q (t2 B N x) u = .ok (t2 B N y) ∧ run sr f' Q' (t2 B N x) u = .ok (t2 B N y') ∧
      (meanSquare B N y y' = 0 ↔ f = f' ∧ Q = Q') := by
  obtain ⟨y, hy0, hy, e⟩ := C81_run h (B := B) (N := N) (by omega) x hu
  obtain ⟨y', hy0', hy', e'⟩ := C81_run h' (B := B) (N := N) (by omega) x hu
  refine ⟨_, _, e, e', ?_⟩
  rw [meanSquare_eq_zero (by omega) (by omega)]
  simp only [add_right_inj]
  constructor
  · intro hyy
    -- the first sample that differs from the first one
    classical
    have hex : ∃ k, x i k ≠ x i 0 := ⟨k, hx⟩
    obtain ⟨m, hm, hmin⟩ : ∃ m, x i m ≠ x i 0 ∧ ∀ j < m, x i j = x i 0 :=
      ⟨Nat.find hex, Nat.find_spec hex, fun j hj => not_not.1 (Nat.find_min hex hj)⟩
    have hmk : m ≤ k := by
      by_contra hc
      exact hx (hmin k (by omega))
    set d : Int → ℝ := causal fun t => x i t - x i 0 with hd
    have hd0 : ∀ n : Int, n < m → d n = 0 := by
      intro n hn
      rw [hd]
      unfold causal
      split
      · rfl
      · exact sub_eq_zero.2 (hmin n.toNat (by omega))
    have hdm : d m ≠ 0 := by
      rw [hd, causal_nat]
      exact sub_ne_zero.2 hm
    have quiet : ∀ (b a : Nat → ℝ) (w : Int → ℝ), (∀ n, n < 0 → w n = 0) → (∀ n : Nat, w n = taps 3 b d n - taps 2 a w (n - 1)) →
        (∀ n : Int, n < m → w n = 0) ∧ w m = b 0 * d m ∧
          w (m + 1) = b 0 * d (m + 1) + b 1 * d m - a 0 * w m ∧
          w (m + 2) = b 0 * d (m + 2) + b 1 * d (m + 1) + b 2 * d m - a 0 * w (m + 1) - a 1 * w m := by
      intro b a w hw0 hw
      have hz : ∀ n : Nat, ∀ j : Int, j < n → j < m → w j = 0 := by
        intro n
        induction n with
        | zero => exact fun j hj _ => hw0 j (by exact_mod_cast hj)
        | succ n ih =>
          intro j hj hjm
          rcases lt_or_ge j 0 with hneg | hpos
          · exact hw0 j hneg
          · obtain ⟨j, rfl⟩ := Int.eq_ofNat_of_zero_le hpos
            rw [hw]
            simp only [taps, Finset.sum_range_succ, Finset.sum_range_zero]
            rw [hd0 _ (by push_cast; omega), hd0 _ (by push_cast; omega), hd0 _ (by push_cast; omega),
              ih _ (by push_cast at *; omega) (by push_cast; omega), ih _ (by push_cast at *; omega) (by push_cast; omega)]
            ring
      have hz' : ∀ j : Int, j < m → w j = 0 := fun j hj => hz m j hj hj
      refine ⟨hz', ?_, ?_, ?_⟩
      · rw [hw]
        simp only [taps, Finset.sum_range_succ, Finset.sum_range_zero]
        rw [hd0 (m - ((1 : Nat) : Int)) (by push_cast; omega), hd0 (m - ((2 : Nat) : Int)) (by push_cast; omega),
          hz' (m - 1 - ((0 : Nat) : Int)) (by push_cast; omega), hz' (m - 1 - ((1 : Nat) : Int)) (by push_cast; omega)]
        push_cast
        rw [sub_zero]
        ring
      · have := hw (m + 1)
        simp only [taps, Finset.sum_range_succ, Finset.sum_range_zero] at this
        push_cast at this
        rw [hd0 ((m : Int) + 1 - 2) (by omega), hz' ((m : Int) + 1 - 1 - 1) (by omega)] at this
        rw [this]
        simp only [sub_zero, add_sub_cancel_right]
        ring
      · have := hw (m + 2)
        simp only [taps, Finset.sum_range_succ, Finset.sum_range_zero] at this
        push_cast at this
        rw [this, show (m : Int) + 2 - 1 - 1 = m by ring, show (m : Int) + 2 - 1 - 0 = m + 1 by ring, show (m : Int) + 2 - 1 = m + 1 by ring,
          show (m : Int) + 2 - 2 = m by ring, show (m : Int) + 2 - 0 = m + 2 by ring]
        ring
    obtain ⟨-, q0, q1, q2⟩ := quiet _ _ _ (hy0 i) (hy i)
    obtain ⟨-, q0', q1', q2'⟩ := quiet _ _ _ (hy0' i) (hy' i)
    have s0 := hyy i m hi (by omega)
    have s1 := hyy i (m + 1) hi (by omega)
    have s2 := hyy i (m + 2) hi (by omega)
    push_cast at s1 s2
    have b0 : lowpassB sr f Q 0 = lowpassB sr f' Q' 0 := by
      rw [q0, q0'] at s0
      exact mul_right_cancel₀ hdm s0
    have hym : y i m ≠ 0 := by rw [q0]; exact mul_ne_zero (lowpassB_pos h).ne' hdm
    have a0 : lowpassA sr f Q 0 = lowpassA sr f' Q' 0 := by
      rw [q1, q1', lowpassB_one, lowpassB_one, b0, ← s0] at s1
      exact mul_right_cancel₀ hym (sub_right_injective s1)
    have a1 : lowpassA sr f Q 1 = lowpassA sr f' Q' 1 := by
      rw [q2, q2', lowpassB_one, lowpassB_one, lowpassB_two, lowpassB_two, b0, a0, ← s0, ← s1] at s2
      exact mul_right_cancel₀ hym (sub_right_injective s2)
    exact h.coef h' a0 a1
  · rintro ⟨rfl, rfl⟩ i t _ ht
    refine congrFun (diffEq_unique (v := taps 3 (lowpassB sr f Q) (causal fun t => x i t - x i 0)) (P := 2) (a := lowpassA sr f Q)
      (fun n hn => (hy0 i n hn).trans (hy0' i n hn).symm) (fun n hn => ?_) (fun n hn => ?_)) t
    · obtain ⟨n, rfl⟩ := Int.eq_ofNat_of_zero_le hn
      exact hy i n
    · obtain ⟨n, rfl⟩ := Int.eq_ofNat_of_zero_le hn
      exact hy' i n

example := C81_identifies notebook (show GoodCutoff 16000 2000 1 by constructor <;> norm_num) (B := 1) (N := 32000) (i := 0) (k := 1)
  (x := fun _ t => (t : ℝ)) (u := none) (by simp) (by decide) (by decide) (by norm_num)

/-- **C81, a cutoff at half the sample rate** is outside the range: the filter has a pole at `-1`. -/
theorem C81_not_nyquist (f Q : ℝ) (hf : 0 < f) : (-1 : ℂ) ∈ poles 2 fun k => (lowpassA (2 * f) f Q k : ℂ) := by
  have hw : w0 (2 * f) f = Real.pi := by unfold Example.w0; field_simp
  have ha : alpha (2 * f) f Q = 0 := by unfold Example.alpha; rw [hw]; simp
  unfold poles
  refine Polynomial.mem_roots'.2 ⟨(denPoly_natDegree _ _).2.ne_zero, ?_⟩
  unfold denPoly
  simp only [Polynomial.IsRoot, Finset.sum_range_succ, Finset.sum_range_zero, Polynomial.eval_add, Polynomial.eval_mul, Polynomial.eval_pow,
    Polynomial.eval_X, Polynomial.eval_C, zero_add, lowpassA, hw, ha, Real.cos_pi]
  norm_num

example := C81_not_nyquist 8000 10 (by norm_num)

/-- **C81, a cutoff of 0** is outside the range: `lfilter_zi` divides by `1 + a_0 + a_1 = 0` and the computation raises. -/
theorem C81_not_zero (sr Q : ℝ) (x : Tensor ℝ) (u : Option Int) : ∃ m, run sr 0 Q x u = .error m := by
  have hw : w0 sr 0 = 0 := by unfold Example.w0; simp
  have ha : alpha sr 0 Q = 0 := by unfold Example.alpha; rw [hw]; simp
  have hs : 1 + ∑ k ∈ Finset.range 2, lowpassA sr 0 Q k = 0 := by
    simp only [Finset.sum_range_succ, Finset.sum_range_zero, lowpassA, hw, ha, Real.cos_zero]
    norm_num
  have hn := mt (C16_tdf2_returns_iff (B := 1) (K := 3) (P := 2) (.shared (lowpassB sr 0 Q)) (.shared (lowpassA sr 0 Q)) (by decide) (by decide)
    (by decide)).1 fun hc => hc 0 (by decide) hs
  cases e : lfilterZi (t1 2 (lowpassA sr 0 Q)) (some (t1 3 (lowpassB sr 0 Q))) true with
  | ok z => exact absurd ⟨z, e⟩ hn
  | error m => exact ⟨m, by unfold run lowpassBiquadCoef; simp only [e]; rfl⟩

end Props
