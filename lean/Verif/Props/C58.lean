import Verif.Proof.StabilityState
import Verif.Proof.Frequency
import Verif.Proof.LpvFiltering
import Verif.Props.C02
import Verif.Props.C05
import Verif.Props.C12
import Verif.Props.C56

/-!
# C58: stability

Bounds on outputs and states that do not depend on the length of the signal.

* `lfilter` with all its poles inside the unit circle multiplies the bound of the signal by at most
  `Σ|b_j| · Π 1/(1 - |p|)`, over the poles `p` (`C58_lfilter_forms`, `C58_lfilter_real`).  It forgets its initial
  state at any rate above the largest pole (`C58_lfilter_forgets`, `C58_lfilter_forgets_real`).
* Conversely, a filter with a bounded response to impulses has no pole outside the unit circle that its numerator does not
  cancel (`C58_unstable`, `C58_unstable_real`).
* If the numerator cancels no pole on or outside the unit circle, bounded signals give bounded outputs if and only if all poles are
  inside the unit circle (`C58_bibo_forms`, `C58_bibo_real`).
* The state recursion with eigenvalues inside the unit circle is bounded and forgets its initial state exponentially
  (`C58_recursion`), and an eigenvalue elsewhere is seen in the states (`C58_recursion_eigenvalue`).
* First-order recurrences, constant or time-varying, FIR and comb filters have explicit bounds.

Exact arithmetic in ℝ or ℂ; rounding is not modelled.
-/

namespace Props
open Torch Torch.Tensor Spec Phil
open Phil.Lti (Form ok_pair lfilter)

/-- The pole of `1/(1 - c/z)` is `c`. -/
theorem poles_one (c : ℂ) : poles 1 (fun _ => -c) = {c} := by
  unfold poles denPoly
  rw [Finset.sum_range_one, pow_one, pow_zero, mul_one, Polynomial.C_neg, ← sub_eq_add_neg, Polynomial.roots_X_sub_C]

/-- The pole of `1/(1 - 1/(2z))` lies inside the unit circle. -/
theorem half_stable : ∀ p ∈ poles 1 (fun _ => -(1 / 2 : ℂ)), ‖p‖ < 1 := by
  intro p hp
  rw [poles_one, Multiset.mem_singleton] at hp
  rw [hp]; norm_num

/-- The eigenvalue of the matrix `[[1/2]]`. -/
theorem half_eigenvalue (l : ℂ) : (mat 1 1 fun _ _ => (1 / 2 : ℂ)).charpoly.IsRoot l ↔ l = 1 / 2 := by
  rw [Polynomial.IsRoot, Matrix.eval_charpoly, Matrix.det_fin_one]
  simp only [Matrix.sub_apply, Matrix.scalar_apply, Matrix.diagonal_apply_eq, mat, Matrix.of_apply]
  exact sub_eq_zero

/-- **C58, `lti.linear_recurrence`.** -/
theorem C58_linear_recurrence {𝕜 : Type} [RCLike 𝕜] {B N : Nat} {a init : Tensor 𝕜} {av iv : Nat → 𝕜} {x : Nat → Nat → 𝕜}
    {u : Int} {r X : ℝ} (ha : BatchVals B a av) (hi : BatchVals B init iv) (hN : 0 < N) (hu : 1 ≤ u) (hr : r < 1)
    (hb : ∀ i, ‖av i‖ ≤ r) (hx : ∀ i t, ‖x i t‖ ≤ X) :
    ∃ y : Nat → Nat → 𝕜, Lti.linearRecurrence a init (t2 B N x) u = .ok (t2 B N y) ∧
      ∀ i t, ‖y i t‖ ≤ r ^ (t + 1) * ‖iv i‖ + (1 - r)⁻¹ * X :=
  ⟨_, C01_linear_recurrence x u ha hi hN hu, fun i t => scalarRec_bound hr (fun _ => hb i) (hx i) (t + 1)⟩

example := C58_linear_recurrence (B := 3) (N := 7) (x := fun i t => (-1 : ℂ) ^ (i + t)) (u := 2) (r := 1 / 2) (X := 1)
  (.full fun i => (-1) ^ i * (1 / 2)) (.full fun i => (i : ℂ)) (by decide) (by decide) (by norm_num) (fun i => by norm_num) (fun i t => by norm_num)

/-- **C58, `lpv.linear_recurrence`.** -/
theorem C58_lpv_linear_recurrence {𝕜 : Type} [RCLike 𝕜] {B N : Nat} {a init : Tensor 𝕜} {av : Nat → Nat → 𝕜} {iv : Nat → 𝕜}
    {x : Nat → Nat → 𝕜} {u : Int} {r X : ℝ} (ha : TimeVals B N a av) (hi : BatchVals B init iv) (hN : 0 < N) (hu : 1 ≤ u)
    (hr : r < 1) (hb : ∀ i t, ‖av i t‖ ≤ r) (hx : ∀ i t, ‖x i t‖ ≤ X) :
    ∃ y : Nat → Nat → 𝕜, Lpv.linearRecurrence a init (t2 B N x) u = .ok (t2 B N y) ∧
      ∀ i t, ‖y i t‖ ≤ r ^ (t + 1) * ‖iv i‖ + (1 - r)⁻¹ * X :=
  ⟨_, C02_linear_recurrence x u ha hi hN hu, fun i t => scalarRec_bound hr (hb i) (hx i) (t + 1)⟩

example := C58_lpv_linear_recurrence (B := 3) (N := 7) (x := fun i t => (-1 : ℂ) ^ (i + t)) (u := 2) (r := 1 / 2) (X := 1)
  (.full fun i t => (-1) ^ (i * t) * (1 / 2)) (.full fun i => (i : ℂ)) (by decide) (by decide) (by norm_num) (fun i t => by norm_num)
  (fun i t => by norm_num)

/-- **C58, `lpv.linear_recurrence`** forgets the initial value. -/
theorem C58_lpv_forgets {𝕜 : Type} [RCLike 𝕜] {B N : Nat} {a init init' : Tensor 𝕜} {av : Nat → Nat → 𝕜} {iv iv' : Nat → 𝕜}
    {x : Nat → Nat → 𝕜} {u u' : Int} {r : ℝ} (ha : TimeVals B N a av) (hi : BatchVals B init iv) (hi' : BatchVals B init' iv')
    (hN : 0 < N) (hu : 1 ≤ u) (hu' : 1 ≤ u') (hb : ∀ i t, ‖av i t‖ ≤ r) :
    ∃ y y' : Nat → Nat → 𝕜, Lpv.linearRecurrence a init (t2 B N x) u = .ok (t2 B N y) ∧
      Lpv.linearRecurrence a init' (t2 B N x) u' = .ok (t2 B N y') ∧
      ∀ i t, ‖y i t - y' i t‖ ≤ r ^ (t + 1) * ‖iv i - iv' i‖ :=
  ⟨_, _, C02_linear_recurrence x u ha hi hN hu, C02_linear_recurrence x u' ha hi' hN hu',
    fun i t => scalarRec_forget (hb i) (t + 1)⟩

example := C58_lpv_forgets (B := 3) (N := 7) (x := fun i t => (i : ℂ) + t) (u := 2) (u' := 1) (r := 1 / 2)
  (.full fun i t => (-1) ^ (i * t) * (1 / 2)) (.full fun i => (i : ℂ)) (.scalar 5) (by decide) (by decide) (by decide) (fun i t => by norm_num)

/-- **C58, `lti.comb_filter`** without state. -/
theorem C58_comb_filter {𝕜 : Type} [RCLike 𝕜] {B N D : Nat} {a : Tensor 𝕜} {av : Nat → 𝕜} {x : Nat → Nat → 𝕜} {u : Int}
    {r X : ℝ} (ha : PerItem B a av) (hD : 1 ≤ D) (hN : 0 < N) (hu : 1 ≤ u) (hr : r < 1) (hb : ∀ i, ‖av i‖ ≤ r)
    (hx : ∀ i t, ‖x i t‖ ≤ X) :
    ∃ y : Nat → Nat → 𝕜, Lti.combFilter true a D (t2 B N x) none u = .ok (t2 B N y, none) ∧
      ∀ i t, ‖y i t‖ ≤ (1 - r)⁻¹ * X := by
  obtain ⟨y, h0, h, e⟩ := C19_without_state_partial x ha hD hN hu
  refine ⟨_, e, fun i t => comb_bound hD hr (hb i) (hx i) (fun n hn => ?_) (h i) t⟩
  rw [show n = -1 - ((-1 - n).toNat : Nat) by omega]
  exact h0 i _

example := C58_comb_filter (B := 3) (N := 7) (D := 3) (x := fun i t => (-1 : ℂ) ^ (i + t)) (u := 2) (r := 1 / 2) (X := 1)
  (.full fun i => (-1) ^ i * (1 / 2)) (by decide) (by decide) (by decide) (by norm_num) (fun i => by norm_num) (fun i t => by norm_num)

/-- **C58, `lti.comb_filter` with initial state.** -/
theorem C58_comb_filter_state {𝕜 : Type} [RCLike 𝕜] {B N D : Nat} {a zi : Tensor 𝕜} {av : Nat → 𝕜} {x z : Nat → Nat → 𝕜} {u : Int}
    {r X Z : ℝ} (ha : PerItem B a av) (hzi : Past B D (some zi) z) (hD : 2 ≤ D) (hN : 0 < N) (hu : 1 ≤ u) (hr : r < 1)
    (hb : ∀ i, ‖av i‖ ≤ r) (hx : ∀ i t, ‖x i t‖ ≤ X) (hz : ∀ i m, m < D → ‖z i m‖ ≤ Z) :
    ∃ (y : Nat → Nat → 𝕜) (zf : Tensor 𝕜), Lti.combFilter true a D (t2 B N x) (some zi) u = .ok (t2 B N y, some zf) ∧
      ∀ i t, ‖y i t‖ ≤ max Z ((1 - r)⁻¹ * X) := by
  refine ⟨_, _, Lti.combFilter_eq x ha hzi hD hN hu, fun i t => comb_bound_past (by omega) hr (hb i) (hx i) (fun m hm => ?_)
    (fun n => combSig_rec (by omega) _ _ _ _) t⟩
  rw [combSig_past]
  exact hz i m hm

/-- **C58, `lti.fir`** without state, both forms. -/
theorem C58_fir {𝕜 : Type} [RCLike 𝕜] {B M N : Nat} {b x : Nat → Nat → 𝕜} {tr : Bool} {X : ℝ} (hB : 0 < B) (hN : 0 < N)
    (htr : tr = true → 0 < M) (hx : ∀ i t, ‖x i t‖ ≤ X) :
    ∃ y : Nat → Nat → 𝕜, Lti.fir (t2 B (M + 1) b) (t2 B N x) none tr = .ok (t2 B N y, none) ∧
      ∀ i t, ‖y i t‖ ≤ (∑ j ∈ Finset.range (M + 1), ‖b i j‖) * X := by
  have hc : ∀ i n, ‖causal (x i) n‖ ≤ X := by
    intro i n
    unfold causal
    split
    · rw [norm_zero]; exact (norm_nonneg _).trans (hx 0 0)
    · exact hx i _
  cases tr with
  | false => exact ⟨_, Lti.fir_direct_none b x hB hN, fun i t => taps_bound fun j _ => hc i _⟩
  | true =>
    refine ⟨_, Lti.fir_transpose_none b x hB hN (htr rfl), fun i t => ?_⟩
    have k := taps_bound (K := M + 1) (b := fun k => star (b i k)) (v := causal (x i)) (n := t) fun j _ => hc i _
    simpa only [norm_star] using k

example := C58_fir (B := 3) (M := 2) (N := 7) (b := fun i t => (i : ℂ) + t) (x := fun i t => (-1 : ℂ) ^ (i + t)) (tr := true) (X := 1)
  (by decide) (by decide) (by decide) (fun i t => by norm_num)

/-- **C58, `lti.fir` with state**, direct form: the past counts as part of the signal. -/
theorem C58_fir_state {𝕜 : Type} [RCLike 𝕜] {B M N : Nat} {b x z : Nat → Nat → 𝕜} {X : ℝ} (hB : 0 < B) (hM : 0 < M) (hN : 0 < N)
    (hx : ∀ i t, ‖x i t‖ ≤ X) (hz : ∀ i m, m < M → ‖z i m‖ ≤ X) :
    ∃ (y : Nat → Nat → 𝕜) (zf : Tensor 𝕜), Lti.fir (t2 B (M + 1) b) (t2 B N x) (some (t2 B M z)) false = .ok (t2 B N y, some zf) ∧
      ∀ i t, ‖y i t‖ ≤ (∑ j ∈ Finset.range (M + 1), ‖b i j‖) * X := by
  refine ⟨_, _, Lti.fir_direct_some b x z hB hM hN, fun i t => taps_bound fun j hj => ?_⟩
  unfold withPast
  split
  · exact hz i _ (by omega)
  · exact hx i _

example := C58_fir_state (B := 3) (M := 2) (N := 7) (b := fun i t => (i : ℂ) + t) (x := fun i t => (-1 : ℂ) ^ (i + t))
  (z := fun i t => (-1 : ℂ) ^ (i * t)) (X := 1) (by decide) (by decide) (by decide) (fun i t => by norm_num) (fun i t _ => by norm_num)

/-- **C58, `lpv.fir`** without state, direct form: filters that change in each sample. -/
theorem C58_lpv_fir {𝕜 : Type} [RCLike 𝕜] {B M N : Nat} {b : Nat → Nat → Nat → 𝕜} {x : Nat → Nat → 𝕜} {S X : ℝ} (hN : 0 < N)
    (hb : ∀ i t, ∑ j ∈ Finset.range (M + 1), ‖b i t j‖ ≤ S) (hx : ∀ i t, ‖x i t‖ ≤ X) :
    ∃ y : Nat → Nat → 𝕜, Lpv.fir (t3 B N (M + 1) b) (t2 B N x) none false = .ok (t2 B N y, none) ∧ ∀ i t, ‖y i t‖ ≤ S * X := by
  have hX : 0 ≤ X := (norm_nonneg _).trans (hx 0 0)
  refine ⟨_, Lpv.fir_direct_none b x hN, fun i t => ?_⟩
  refine (taps_bound fun j _ => ?_).trans (mul_le_mul_of_nonneg_right (hb i t) hX)
  unfold causal
  split
  · rw [norm_zero]; exact hX
  · exact hx i _

/-- **C58, `lti.lfilter`**, complex numbers: all poles inside the unit circle. -/
theorem C58_lfilter {B N K P : Nat} {b a : Tensor ℂ} {bv av x : Nat → Nat → ℂ} {u : Option Int} {X : ℝ}
    (hb : Rows B K b bv) (ha : Rows B P a av) (hB : 0 < B) (hK : 0 < K) (hM : 0 < max P (K - 1)) (hN : 0 < N)
    (hu : ∀ i, u = some i → 1 ≤ i) (hp : ∀ i, ∀ p ∈ poles P (av i), ‖p‖ < 1) (hx : ∀ i t, ‖x i t‖ ≤ X) :
    ∃ y : Nat → Nat → ℂ, lfilter b a (t2 B N x) none .df2 u = .ok (t2 B N y, none) ∧
      ∀ i t, ‖y i t‖ ≤ ((poles P (av i)).map fun p => (1 - ‖p‖)⁻¹).prod * ((∑ j ∈ Finset.range K, ‖bv i j‖) * X) := by
  obtain ⟨y, h, e⟩ := lfilter_series2 hb ha x (Or.inl rfl) hB hK hM hN hu
  exact ⟨y, e, fun i t => series_bound (hp i) (hx i) (h i) t⟩

example := C58_lfilter (B := 3) (N := 7) (K := 3) (P := 1) (x := fun i t => (-1 : ℂ) ^ (i + t)) (u := some 2) (X := 1)
  (.batched fun i t => (i : ℂ) + t) (.shared fun _ => -(1 / 2 : ℂ)) (by decide) (by decide) (by decide) (by decide) (by simp)
  (fun _ => half_stable) (fun i t => by norm_num)

theorem faithful_real {form : Form} (h : form ≠ .other) : Faithful ℝ form := by
  cases form with
  | df2 => exact Or.inl rfl
  | other => exact absurd rfl h
  | _ => exact Or.inr ⟨by simp, fun c => star_trivial c⟩

/-- **C58, `lti.lfilter`**, real numbers, every form: all (complex) poles inside the unit circle. -/
theorem C58_lfilter_real {B N K P : Nat} {b a : Tensor ℝ} {bv av x : Nat → Nat → ℝ} {form : Form} {u : Option Int} {X : ℝ}
    (hb : Rows B K b bv) (ha : Rows B P a av) (hf : form ≠ .other) (hB : 0 < B) (hK : 0 < K) (hM : 0 < max P (K - 1))
    (hN : 0 < N) (hu : ∀ i, u = some i → 1 ≤ i) (hp : ∀ i, ∀ p ∈ poles P (fun k => (av i k : ℂ)), ‖p‖ < 1)
    (hx : ∀ i t, |x i t| ≤ X) :
    ∃ y : Nat → Nat → ℝ, lfilter b a (t2 B N x) none form u = .ok (t2 B N y, none) ∧
      ∀ i t, |y i t| ≤
        ((poles P fun k => (av i k : ℂ)).map fun p => (1 - ‖p‖)⁻¹).prod * ((∑ j ∈ Finset.range K, |bv i j|) * X) := by
  obtain ⟨y, h, e⟩ := lfilter_series2 hb ha x (faithful_real hf) hB hK hM hN hu
  refine ⟨y, e, fun i t => ?_⟩
  have k := series_bound (hp i) (x := fun n => (x i n : ℂ)) (X := X) (fun n => by rw [Complex.norm_real]; exact hx i n)
    (series_ofReal (h i)) t
  simpa only [Complex.norm_real, Real.norm_eq_abs] using k

/-- The response of `b/a` to an impulse, from the responses of any length. -/
theorem impulse_response {α : Type} [CommRing α] [StarRing α] {B K P : Nat} {b a : Tensor α} {bv av : Nat → Nat → α}
    {form : Form} {u : Option Int} (hb : Rows B K b bv) (ha : Rows B P a av) (hf : Faithful α form) (hB : 0 < B) (hK : 0 < K)
    (hM : 0 < max P (K - 1)) (hu : ∀ i, u = some i → 1 ≤ i) :
    ∃ h : Nat → Nat → α, (∀ i, PowerSeries.mk (denom P (av i)) * PowerSeries.mk (h i) = PowerSeries.mk (zext K (bv i))) ∧
      ∀ N, 0 < N → lfilter b a (t2 B N fun _ => impulse) none form u = .ok (t2 B N h, none) := by
  obtain ⟨h, hh, -⟩ := lfilter_series2 hb ha (fun _ => impulse) hf hB hK hM Nat.one_pos hu
  refine ⟨h, fun i => by rw [hh i, mk_impulse, mul_one], fun N hN => ?_⟩
  obtain ⟨h', hh', e⟩ := lfilter_series2 hb ha (fun _ => impulse) hf hB hK hM hN hu
  rw [e, show h' = h from funext fun i => series_unique ((hh' i).trans (hh i).symm)]

/-- **C58.** If the responses to impulses of all lengths have a common bound `H`, every pole outside the unit circle is
cancelled by a zero of the numerator. -/
theorem C58_unstable {B K P : Nat} {b a : Tensor ℂ} {bv av : Nat → Nat → ℂ} {u : Option Int} {H : ℝ}
    (hb : Rows B K b bv) (ha : Rows B P a av) (hB : 0 < B) (hK : 0 < K) (hM : 0 < max P (K - 1))
    (hu : ∀ i, u = some i → 1 ≤ i)
    (hH : ∀ N (y : Nat → Nat → ℂ), 0 < N → lfilter b a (t2 B N fun _ => impulse) none .df2 u = .ok (t2 B N y, none) →
      ∀ i t, i < B → t < N → ‖y i t‖ ≤ H) :
    ∀ i, i < B → ∀ p ∈ poles P (av i), 1 < ‖p‖ → ∑ j ∈ Finset.range K, bv i j * p⁻¹ ^ j = 0 := by
  obtain ⟨h, hh, e⟩ := impulse_response hb ha (Or.inl rfl) hB hK hM hu
  exact fun i hi p hp h1 =>
    bounded_poles (fun n => hH (n + 1) h n.succ_pos (e _ n.succ_pos) i n hi n.lt_succ_self) (hh i) hp h1

/-- `1/(1 - 2/z)` has no bounded response to an impulse. -/
example (H : ℝ) : ¬ ∀ N (y : Nat → Nat → ℂ), 0 < N → lfilter (t1 1 fun _ => 1) (t1 1 fun _ => -2)
    (t2 1 N fun _ => impulse) none .df2 none = .ok (t2 1 N y, none) → ∀ i t, i < 1 → t < N → ‖y i t‖ ≤ H := by
  intro h
  have k := C58_unstable (B := 1) (K := 1) (P := 1) (u := none) (.shared fun _ => (1 : ℂ)) (.shared fun _ => (-2 : ℂ))
    (by decide) (by decide) (by decide) (by simp) h 0 (by decide) 2 (by rw [poles_one]; simp) (by norm_num)
  simp at k

/-- **C58**, the same with real numbers, every form. -/
theorem C58_unstable_real {B K P : Nat} {b a : Tensor ℝ} {bv av : Nat → Nat → ℝ} {form : Form} {u : Option Int} {H : ℝ}
    (hb : Rows B K b bv) (ha : Rows B P a av) (hf : form ≠ .other) (hB : 0 < B) (hK : 0 < K) (hM : 0 < max P (K - 1))
    (hu : ∀ i, u = some i → 1 ≤ i)
    (hH : ∀ N (y : Nat → Nat → ℝ), 0 < N → lfilter b a (t2 B N fun _ => impulse) none form u = .ok (t2 B N y, none) →
      ∀ i t, i < B → t < N → |y i t| ≤ H) :
    ∀ i, i < B → ∀ p ∈ poles P (fun k => (av i k : ℂ)), 1 < ‖p‖ →
      ∑ j ∈ Finset.range K, (bv i j : ℂ) * p⁻¹ ^ j = 0 := by
  obtain ⟨h, hh, e⟩ := impulse_response hb ha (faithful_real hf) hB hK hM hu
  intro i hi p hp h1
  have hs := series_ofReal (x := impulse) ((hh i).trans (by rw [mk_impulse, mul_one]))
  rw [show (fun n => ((impulse n : ℝ) : ℂ)) = impulse by funext n; unfold impulse; split <;> simp, mk_impulse, mul_one] at hs
  refine bounded_poles (H := H) (h := fun n => (h i n : ℂ)) (fun n => ?_) hs hp h1
  rw [Complex.norm_real]
  exact hH (n + 1) h n.succ_pos (e _ n.succ_pos) i n hi n.lt_succ_self

/-- The response of `b/a` to a signal, from the outputs of any length. -/
theorem response {α : Type} [CommRing α] [StarRing α] {B K P : Nat} {b a : Tensor α} {bv av : Nat → Nat → α}
    {form : Form} {u : Option Int} (hb : Rows B K b bv) (ha : Rows B P a av) (hf : Faithful α form) (hB : 0 < B) (hK : 0 < K)
    (hM : 0 < max P (K - 1)) (hu : ∀ i, u = some i → 1 ≤ i) (x : Nat → Nat → α) :
    ∃ y : Nat → Nat → α, (∀ i, PowerSeries.mk (denom P (av i)) * PowerSeries.mk (y i) =
        PowerSeries.mk (zext K (bv i)) * PowerSeries.mk (x i)) ∧
      ∀ N, 0 < N → lfilter b a (t2 B N x) none form u = .ok (t2 B N y, none) := by
  obtain ⟨h, hh, -⟩ := lfilter_series2 hb ha x hf hB hK hM Nat.one_pos hu
  refine ⟨h, hh, fun N hN => ?_⟩
  obtain ⟨h', hh', e⟩ := lfilter_series2 hb ha x hf hB hK hM hN hu
  rw [e, show h' = h from funext fun i => series_unique ((hh' i).trans (hh i).symm)]

/-- A bound on outputs of every length is a bound on the response. -/
theorem response_bound {α : Type} [CommRing α] {B : Nat} {r : Nat → Res (Tensor α × Option (Tensor α))} {y : Nat → Nat → α}
    {P : α → Prop} (e : ∀ N, 0 < N → r N = .ok (t2 B N y, none))
    (h : ∀ N, 0 < N → ∃ y', r N = .ok (t2 B N y', none) ∧ ∀ i t, i < B → t < N → P (y' i t)) {i : Nat} (hi : i < B) (n : Nat) :
    P (y i n) := by
  obtain ⟨y', e', h'⟩ := h (n + 1) n.succ_pos
  have k := congrArg (fun r : Tensor α × Option (Tensor α) => r.1.get [i, n]) (Except.ok.inj (e'.symm.trans (e _ n.succ_pos)))
  simp only [get_t2 hi n.lt_succ_self] at k
  rw [← k]
  exact h' i n hi n.lt_succ_self

/-- **C58, bounded input and bounded output**, complex numbers: a filter whose numerator cancels no pole on or outside the unit circle
maps every bounded signal to a bounded output if and only if all poles are inside the unit circle. -/
theorem C58_bibo {B K P : Nat} {b a : Tensor ℂ} {bv av : Nat → Nat → ℂ} {u : Option Int} (hb : Rows B K b bv) (ha : Rows B P a av)
    (hB : 0 < B) (hK : 0 < K) (hM : 0 < max P (K - 1)) (hu : ∀ i, u = some i → 1 ≤ i)
    (hc : ∀ i, i < B → ∀ p ∈ poles P (av i), 1 ≤ ‖p‖ → ∑ j ∈ Finset.range K, bv i j * p⁻¹ ^ j ≠ 0) :
    (∀ (x : Nat → Nat → ℂ) (X : ℝ), (∀ i t, ‖x i t‖ ≤ X) → ∃ H : ℝ, ∀ N, 0 < N → ∃ y : Nat → Nat → ℂ,
        lfilter b a (t2 B N x) none .df2 u = .ok (t2 B N y, none) ∧ ∀ i t, i < B → t < N → ‖y i t‖ ≤ H) ↔
      ∀ i, i < B → ∀ p ∈ poles P (av i), ‖p‖ < 1 := by
  constructor
  · intro h i hi p hp
    by_contra h1
    refine hc i hi p hp (not_lt.1 h1) ?_
    rcases (not_lt.1 h1).eq_or_lt with h1 | h1
    · obtain ⟨H, hH⟩ := h (fun _ n => p ^ n) 1 fun _ n => by rw [norm_pow, ← h1, one_pow]
      obtain ⟨y, hy, e⟩ := response hb ha (Or.inl rfl) hB hK hM hu fun _ n => p ^ n
      exact circle_pole (response_bound (P := fun c => ‖c‖ ≤ H) e hH hi) (hy i) hp h1.symm
    · obtain ⟨H, hH⟩ := h (fun _ => impulse) 1 fun _ n => by unfold impulse; split <;> simp
      obtain ⟨y, hy, e⟩ := response hb ha (Or.inl rfl) hB hK hM hu fun _ => impulse
      exact bounded_poles (response_bound (P := fun c => ‖c‖ ≤ H) e hH hi) (by rw [hy i, mk_impulse, mul_one]) hp h1
  · intro h x X hx
    obtain ⟨y, hy, e⟩ := response hb ha (Or.inl rfl) hB hK hM hu x
    have hX : 0 ≤ X := (norm_nonneg _).trans (hx 0 0)
    obtain ⟨G, hG⟩ : ∃ G : Nat → ℝ, ∀ i, i < B → ∀ t, ‖y i t‖ ≤ G i :=
      ⟨_, fun i hi t => series_bound (h i hi) (hx i) (hy i) t⟩
    refine ⟨∑ i ∈ Finset.range B, G i, fun N hN => ⟨y, e N hN, fun i t hi _ => (hG i hi t).trans ?_⟩⟩
    exact Finset.single_le_sum (f := G) (fun j hj => (norm_nonneg _).trans (hG j (Finset.mem_range.1 hj) 0))
      (Finset.mem_range.2 hi)

example := C58_bibo (B := 3) (K := 1) (P := 1) (u := some 2) (.shared fun _ => (1 : ℂ)) (.shared fun _ => -(1 / 2 : ℂ))
  (by decide) (by decide) (by decide) (by simp) (fun _ _ p hp h1 => absurd (half_stable p hp) (not_lt.2 h1))

/-- **C58**, the same with real numbers, every form. -/
theorem C58_bibo_real {B K P : Nat} {b a : Tensor ℝ} {bv av : Nat → Nat → ℝ} {form : Form} {u : Option Int} (hb : Rows B K b bv)
    (ha : Rows B P a av) (hf : form ≠ .other) (hB : 0 < B) (hK : 0 < K) (hM : 0 < max P (K - 1)) (hu : ∀ i, u = some i → 1 ≤ i)
    (hc : ∀ i, i < B → ∀ p ∈ poles P (fun k => (av i k : ℂ)), 1 ≤ ‖p‖ → ∑ j ∈ Finset.range K, (bv i j : ℂ) * p⁻¹ ^ j ≠ 0) :
    (∀ (x : Nat → Nat → ℝ) (X : ℝ), (∀ i t, |x i t| ≤ X) → ∃ H : ℝ, ∀ N, 0 < N → ∃ y : Nat → Nat → ℝ,
        lfilter b a (t2 B N x) none form u = .ok (t2 B N y, none) ∧ ∀ i t, i < B → t < N → |y i t| ≤ H) ↔
      ∀ i, i < B → ∀ p ∈ poles P (fun k => (av i k : ℂ)), ‖p‖ < 1 := by
  constructor
  · intro h i hi p hp
    by_contra h1
    refine hc i hi p hp (not_lt.1 h1) ?_
    -- any bounded complex signal gives a bounded output
    have hz : ∀ (w : Nat → ℂ) (X : ℝ), (∀ n, ‖w n‖ ≤ X) → ∃ (y : Nat → ℂ) (H : ℝ), (∀ n, ‖y n‖ ≤ H) ∧
        PowerSeries.mk (denom P fun k => (av i k : ℂ)) * PowerSeries.mk y =
          PowerSeries.mk (zext K fun k => (bv i k : ℂ)) * PowerSeries.mk w := by
      intro w X hw
      obtain ⟨H₁, hH₁⟩ := h (fun _ n => (w n).re) X fun _ n => (Complex.abs_re_le_norm _).trans (hw n)
      obtain ⟨H₂, hH₂⟩ := h (fun _ n => (w n).im) X fun _ n => (Complex.abs_im_le_norm _).trans (hw n)
      obtain ⟨y₁, hy₁, e₁⟩ := response hb ha (faithful_real hf) hB hK hM hu fun _ n => (w n).re
      obtain ⟨y₂, hy₂, e₂⟩ := response hb ha (faithful_real hf) hB hK hM hu fun _ n => (w n).im
      refine ⟨fun n => (y₁ i n : ℂ) + Complex.I * (y₂ i n : ℂ), H₁ + H₂, fun n => ?_, ?_⟩
      · have k₁ := response_bound (P := fun c => |c| ≤ H₁) e₁ hH₁ hi n
        have k₂ := response_bound (P := fun c => |c| ≤ H₂) e₂ hH₂ hi n
        refine (norm_add_le _ _).trans (add_le_add ?_ ?_)
        · rw [Complex.norm_real]; exact k₁
        · rw [norm_mul, Complex.norm_I, one_mul, Complex.norm_real]; exact k₂
      · have s₁ := series_ofReal (hy₁ i)
        have s₂ := series_ofReal (hy₂ i)
        have hsum : ∀ f g : Nat → ℂ, (PowerSeries.mk fun n => f n + Complex.I * g n) =
            PowerSeries.mk f + PowerSeries.C Complex.I * PowerSeries.mk g := by
          intro f g; ext n; simp
        rw [show w = fun n => ((w n).re : ℂ) + Complex.I * ((w n).im : ℂ) by
          funext n; rw [mul_comm]; exact (Complex.re_add_im _).symm, hsum, hsum, mul_add, mul_add, s₁, mul_left_comm, s₂]
        ring
    rcases (not_lt.1 h1).eq_or_lt with h1 | h1
    · obtain ⟨y, H, hH, hy⟩ := hz (fun n => p ^ n) 1 fun n => by rw [norm_pow, ← h1, one_pow]
      exact circle_pole hH hy hp h1.symm
    · obtain ⟨y, H, hH, hy⟩ := hz impulse 1 fun n => by unfold impulse; split <;> simp
      exact bounded_poles hH (by rw [hy, mk_impulse, mul_one]) hp h1
  · intro h x X hx
    obtain ⟨y, hy, e⟩ := response hb ha (faithful_real hf) hB hK hM hu x
    obtain ⟨G, hG⟩ : ∃ G : Nat → ℝ, ∀ i, i < B → ∀ t, |y i t| ≤ G i := by
      refine ⟨fun i => ((poles P fun k => (av i k : ℂ)).map fun p => (1 - ‖p‖)⁻¹).prod *
        ((∑ j ∈ Finset.range K, ‖(bv i j : ℂ)‖) * X), fun i hi t => ?_⟩
      have k := series_bound (h i hi) (x := fun n => (x i n : ℂ)) (X := X) (fun n => by rw [Complex.norm_real]; exact hx i n)
        (series_ofReal (hy i)) t
      rw [Complex.norm_real] at k
      exact k
    refine ⟨∑ i ∈ Finset.range B, G i, fun N hN => ⟨y, e N hN, fun i t hi _ => (hG i hi t).trans ?_⟩⟩
    exact Finset.single_le_sum (f := G) (fun j hj => (abs_nonneg _).trans (hG j (Finset.mem_range.1 hj) 0))
      (Finset.mem_range.2 hi)

/-- What the forms do to complex coefficients (C12). -/
theorem form_conj {form : Form} (hf : form ≠ .other) : ∃ f g : ℂ → ℂ, (f = id ∨ f = star) ∧ (g = id ∨ g = star) ∧
    (form = .df2 ∧ f = id ∧ g = id ∨ form = .df1 ∧ f = star ∧ g = id ∨ form = .tdf1 ∧ f = id ∧ g = star ∨
      form = .tdf2 ∧ f = star ∧ g = star) := by
  cases form with
  | df2 => exact ⟨id, id, by simp⟩
  | df1 => exact ⟨star, id, by simp⟩
  | tdf1 => exact ⟨id, star, by simp⟩
  | tdf2 => exact ⟨star, star, by simp⟩
  | other => exact absurd rfl hf

theorem norm_conj {g : ℂ → ℂ} (hg : g = id ∨ g = star) (c : ℂ) : ‖g c‖ = ‖c‖ := by
  rcases hg with rfl | rfl
  · rfl
  · exact norm_star c

/-- **C58, `lti.lfilter`**, complex numbers, every form, although some of them conjugate the coefficients. -/
theorem C58_lfilter_forms {B N K P : Nat} {b a : Tensor ℂ} {bv av x : Nat → Nat → ℂ} {form : Form} {u : Option Int} {X : ℝ}
    (hb : Rows B K b bv) (ha : Rows B P a av) (hf : form ≠ .other) (hB : 0 < B) (hK : 0 < K) (hM : 0 < max P (K - 1))
    (hN : 0 < N) (hu : ∀ i, u = some i → 1 ≤ i) (hp : ∀ i, ∀ p ∈ poles P (av i), ‖p‖ < 1) (hx : ∀ i t, ‖x i t‖ ≤ X) :
    ∃ y : Nat → Nat → ℂ, lfilter b a (t2 B N x) none form u = .ok (t2 B N y, none) ∧
      ∀ i t, ‖y i t‖ ≤ ((poles P (av i)).map fun p => (1 - ‖p‖)⁻¹).prod * ((∑ j ∈ Finset.range K, ‖bv i j‖) * X) := by
  obtain ⟨f, g, h1, h2, h⟩ := form_conj hf
  rw [C12_reduces x hb ha f g h hB hK hM hN hu hu]
  obtain ⟨y, e, hy⟩ := C58_lfilter (x := x) (X := X) (.batched fun i j => f (bv i j)) (.batched fun i k => g (av i k)) hB hK hM
    hN hu (fun i p h => by
      rw [poles_conj _ _ h2, Multiset.mem_map] at h
      obtain ⟨q, hq, rfl⟩ := h
      rw [norm_conj h2]
      exact hp i q hq) hx
  refine ⟨y, e, fun i t => (hy i t).trans (le_of_eq ?_)⟩
  rw [poles_conj _ _ h2, Multiset.map_map]
  simp only [Function.comp_def, norm_conj h1, norm_conj h2]

/-- **C58.** `C58_unstable` in every form: what has to cancel is the pole of the transfer function that the form computes, with
conjugated numerator (`f`) in `df1` and `tdf2` and conjugated denominator (`g`) in `tdf1` and `tdf2`. -/
theorem C58_unstable_forms {B K P : Nat} {b a : Tensor ℂ} {bv av : Nat → Nat → ℂ} {form : Form} {u : Option Int} {H : ℝ}
    (hb : Rows B K b bv) (ha : Rows B P a av) (f g : ℂ → ℂ)
    (hf : form = .df2 ∧ f = id ∧ g = id ∨ form = .df1 ∧ f = star ∧ g = id ∨ form = .tdf1 ∧ f = id ∧ g = star ∨
      form = .tdf2 ∧ f = star ∧ g = star)
    (hB : 0 < B) (hK : 0 < K) (hM : 0 < max P (K - 1)) (hu : ∀ i, u = some i → 1 ≤ i)
    (hH : ∀ N (y : Nat → Nat → ℂ), 0 < N → lfilter b a (t2 B N fun _ => impulse) none form u = .ok (t2 B N y, none) →
      ∀ i t, i < B → t < N → ‖y i t‖ ≤ H) :
    ∀ i, i < B → ∀ p ∈ poles P (av i), 1 < ‖p‖ → ∑ j ∈ Finset.range K, f (bv i j) * (g p)⁻¹ ^ j = 0 := by
  have h2 : g = id ∨ g = star := by tauto
  intro i hi p hp h1
  refine C58_unstable (u := u) (H := H) (.batched fun i j => f (bv i j)) (.batched fun i k => g (av i k)) hB hK hM hu
    (fun N y hN e => hH N y hN (by rw [C12_reduces _ hb ha f g hf hB hK hM hN hu hu, e])) i hi (g p) ?_ (by rwa [norm_conj h2])
  rw [poles_conj _ _ h2]
  exact Multiset.mem_map_of_mem g hp

/-- The same in form tdf1. -/
example (H : ℝ) : ¬ ∀ N (y : Nat → Nat → ℂ), 0 < N → lfilter (t1 1 fun _ => 1) (t1 1 fun _ => -2)
    (t2 1 N fun _ => impulse) none .tdf1 none = .ok (t2 1 N y, none) → ∀ i t, i < 1 → t < N → ‖y i t‖ ≤ H := by
  intro h
  have k := C58_unstable_forms (B := 1) (K := 1) (P := 1) (u := none) (.shared fun _ => (1 : ℂ)) (.shared fun _ => (-2 : ℂ)) id star
    (by simp) (by decide) (by decide) (by decide) (by simp) h 0 (by decide) 2 (by rw [poles_one]; simp) (by norm_num)
  simp at k

/-- **C58, bounded input and bounded output**, complex numbers, every form: no cancellation is asked of the transfer function
that the form computes, with conjugated numerator (`f`) in `df1` and `tdf2` and conjugated denominator (`g`) in `tdf1` and
`tdf2`. -/
theorem C58_bibo_forms {B K P : Nat} {b a : Tensor ℂ} {bv av : Nat → Nat → ℂ} {form : Form} {u : Option Int}
    (hb : Rows B K b bv) (ha : Rows B P a av) (f g : ℂ → ℂ)
    (hf : form = .df2 ∧ f = id ∧ g = id ∨ form = .df1 ∧ f = star ∧ g = id ∨ form = .tdf1 ∧ f = id ∧ g = star ∨
      form = .tdf2 ∧ f = star ∧ g = star)
    (hB : 0 < B) (hK : 0 < K) (hM : 0 < max P (K - 1)) (hu : ∀ i, u = some i → 1 ≤ i)
    (hc : ∀ i, i < B → ∀ p ∈ poles P (av i), 1 ≤ ‖p‖ → ∑ j ∈ Finset.range K, f (bv i j) * (g p)⁻¹ ^ j ≠ 0) :
    (∀ (x : Nat → Nat → ℂ) (X : ℝ), (∀ i t, ‖x i t‖ ≤ X) → ∃ H : ℝ, ∀ N, 0 < N → ∃ y : Nat → Nat → ℂ,
        lfilter b a (t2 B N x) none form u = .ok (t2 B N y, none) ∧ ∀ i t, i < B → t < N → ‖y i t‖ ≤ H) ↔
      ∀ i, i < B → ∀ p ∈ poles P (av i), ‖p‖ < 1 := by
  have h2 : g = id ∨ g = star := by tauto
  have k := C58_bibo (u := u) (.batched fun i j => f (bv i j)) (.batched fun i k => g (av i k)) hB hK hM hu fun i hi p h h1 => by
    rw [poles_conj _ _ h2, Multiset.mem_map] at h
    obtain ⟨q, hq, rfl⟩ := h
    exact hc i hi q hq (by rwa [norm_conj h2] at h1)
  have e : (∀ i, i < B → ∀ p ∈ poles P (fun k => g (av i k)), ‖p‖ < 1) ↔ ∀ i, i < B → ∀ p ∈ poles P (av i), ‖p‖ < 1 := by
    refine forall₂_congr fun i _ => ?_
    rw [poles_conj _ _ h2]
    simp only [Multiset.mem_map, forall_exists_index, and_imp, forall_apply_eq_imp_iff₂, norm_conj h2]
  rw [← e, ← k]
  refine forall₃_congr fun x X _ => exists_congr fun H => forall₂_congr fun N hN => ?_
  rw [C12_reduces x hb ha f g hf hB hK hM hN hu hu]

example := C58_bibo_forms (B := 3) (K := 1) (P := 1) (form := .tdf2) (u := some 2) (.shared fun _ => (1 : ℂ)) (.shared fun _ => -(1 / 2 : ℂ))
  star star (by simp) (by decide) (by decide) (by decide) (by simp) (fun _ _ p hp h1 => absurd (half_stable p hp) (not_lt.2 h1))

/-- **C58, `lti.state_space_recursion`**: eigenvalues inside the unit circle.  The constants depend on the matrices only. -/
theorem C58_recursion {B M : Nat} {A : Tensor ℂ} {Av : Nat → Nat → Nat → ℂ} (hA : MatVals B M M A Av) (hM : 0 < M)
    (h : ∀ i l, (mat M M (Av i)).charpoly.IsRoot l → ‖l‖ < 1) :
    ∃ G r : Nat → ℝ, (∀ i, 0 ≤ G i ∧ 0 ≤ r i ∧ r i < 1) ∧
      ∀ (N : Nat) (x : Tensor ℂ) (xv : Nat → Nat → Nat → ℂ) (z : Nat → Nat → ℂ) (u : Int) (Z V : ℝ), Drive B N M x xv →
        0 < N → 1 ≤ u → 0 ≤ Z → 0 ≤ V → (∀ i m, m < M → ‖z i m‖ ≤ Z) → (∀ i t m, m < M → ‖xv i t m‖ ≤ V) →
        ∃ s : Nat → Nat → Nat → ℂ, Lti.stateSpaceRecursion A (t2 B M z) x u none = .ok (t3 B N M s) ∧
          ∀ i t m, m < M → ‖s i t m‖ ≤ G i * (r i ^ (t + 1) * Z + (1 - r i)⁻¹ * V) := by
  choose G r hG hr hr1 hb using fun i => vecRec_decay (Av i) (h i)
  refine ⟨G, r, fun i => ⟨hG i, hr i, hr1 i⟩, fun N x xv z u Z V hx hN hu hZ hV hz hv => ?_⟩
  exact ⟨fun b t => vecRec M (fun _ => Av b) (z b) (xv b) (t + 1),
    Lti.stateSpaceRecursion_layout hA hx z u none trivial hM hN hu,
    fun i t m hm => hb i (z i) (xv i) Z V (hz i) (hv i) hZ hV (t + 1) m hm⟩

example := C58_recursion (B := 3) (M := 1) (.shared fun _ _ => (1 / 2 : ℂ)) (by decide)
  (fun _ l h => by rw [(half_eigenvalue l).1 h]; norm_num)

/-- **C58, `lti.state_space_recursion`**, real numbers: complex eigenvalues inside the unit circle. -/
theorem C58_recursion_real {B M : Nat} {A : Tensor ℝ} {Av : Nat → Nat → Nat → ℝ} (hA : MatVals B M M A Av) (hM : 0 < M)
    (h : ∀ i l, (mat M M fun j k => (Av i j k : ℂ)).charpoly.IsRoot l → ‖l‖ < 1) :
    ∃ G r : Nat → ℝ, (∀ i, 0 ≤ G i ∧ 0 ≤ r i ∧ r i < 1) ∧
      ∀ (N : Nat) (x : Tensor ℝ) (xv : Nat → Nat → Nat → ℝ) (z : Nat → Nat → ℝ) (u : Int) (Z V : ℝ), Drive B N M x xv →
        0 < N → 1 ≤ u → 0 ≤ Z → 0 ≤ V → (∀ i m, m < M → |z i m| ≤ Z) → (∀ i t m, m < M → |xv i t m| ≤ V) →
        ∃ s : Nat → Nat → Nat → ℝ, Lti.stateSpaceRecursion A (t2 B M z) x u none = .ok (t3 B N M s) ∧
          ∀ i t m, m < M → |s i t m| ≤ G i * (r i ^ (t + 1) * Z + (1 - r i)⁻¹ * V) := by
  choose G r hG hr hr1 hb using fun i => vecRec_decay (fun j k => (Av i j k : ℂ)) (h i)
  refine ⟨G, r, fun i => ⟨hG i, hr i, hr1 i⟩, fun N x xv z u Z V hx hN hu hZ hV hz hv => ?_⟩
  refine ⟨fun b t => vecRec M (fun _ => Av b) (z b) (xv b) (t + 1),
    Lti.stateSpaceRecursion_layout hA hx z u none trivial hM hN hu, fun i t m hm => ?_⟩
  have k := hb i (fun m => (z i m : ℂ)) (fun t m => (xv i t m : ℂ)) Z V
    (fun m hm => by rw [Complex.norm_real]; exact hz i m hm) (fun t m hm => by rw [Complex.norm_real]; exact hv i t m hm) hZ hV
    (t + 1) m hm
  rwa [← vecRec_ofReal, Complex.norm_real] at k

example := C58_recursion_real (B := 3) (M := 1) (.shared fun _ _ => (1 / 2 : ℝ)) (by decide)
  (fun _ l h => by rw [(half_eigenvalue l).1 (by simpa using h)]; norm_num)

/-- **C58.** Every eigenvalue is seen in the states: for some initial state other than zero, and no input, the states are
multiplied by the eigenvalue in each step. -/
theorem C58_recursion_eigenvalue {B M : Nat} {A : Tensor ℂ} {Av : Nat → Nat → Nat → ℂ} (hA : MatVals B M M A Av) (hM : 0 < M)
    (l : Nat → ℂ) (h : ∀ i, (mat M M (Av i)).charpoly.IsRoot (l i)) :
    ∃ z : Nat → Nat → ℂ, (∀ i, ∃ m, m < M ∧ z i m ≠ 0) ∧ ∀ (N : Nat) (u : Int), 0 < N → 1 ≤ u →
      Lti.stateSpaceRecursion A (t2 B M z) (t3 B N M fun _ _ _ => 0) u none =
        .ok (t3 B N M fun i t m => l i ^ (t + 1) * z i m) := by
  choose z hz he using fun i => vecRec_eigen (Av i) (h i)
  refine ⟨z, hz, fun N u hN hu => ?_⟩
  rw [Lti.stateSpaceRecursion_layout hA (.full fun _ _ _ => 0) z u none trivial hM hN hu]
  exact congrArg Except.ok (t3_congr rfl rfl rfl fun i t m _ _ hm => he i (t + 1) m hm)

example := C58_recursion_eigenvalue (B := 3) (M := 1) (.shared fun _ _ => (1 / 2 : ℂ)) (by decide) (fun _ => 1 / 2)
  (fun _ => (half_eigenvalue _).2 rfl)

/-- **C58, `lti.lfilter`, initial state.**  Complex numbers, `df2`: two initial states make outputs that differ by at most `G r^t`, for
any `r` above the largest pole. -/
theorem C58_lfilter_forgets {B K P : Nat} {b a zi zi' : Tensor ℂ} {bv av z z' : Nat → Nat → ℂ} {x : Nat → Nat → ℂ} {r : ℝ}
    (hb : Rows B K b bv) (ha : Rows B P a av) (hz : InitState B (max P (K - 1)) (some zi) z)
    (hz' : InitState B (max P (K - 1)) (some zi') z') (hK : 0 < K) (hM : 0 < max P (K - 1)) (hr : 0 < r)
    (hp : ∀ i, i < B → ∀ p ∈ poles P (av i), ‖p‖ < r) :
    ∃ G : Nat → ℝ, ∀ (N : Nat) (u : Option Int), 0 < N → (∀ i, u = some i → 1 ≤ i) →
      ∃ (y y' : Nat → Nat → ℂ) (zf zf' : Tensor ℂ), lfilter b a (t2 B N x) (some zi) .df2 u = .ok (t2 B N y, some zf) ∧
        lfilter b a (t2 B N x) (some zi') .df2 u = .ok (t2 B N y', some zf') ∧ ∀ i t, i < B → ‖y i t - y' i t‖ ≤ G i * r ^ t := by
  have hG : ∀ i, ∃ G : ℝ, ∀ t : Nat, i < B → ‖taps K (bv i) (dfSignal (max P (K - 1)) (zext P (av i)) (z i) (x i)) t -
      taps K (bv i) (dfSignal (max P (K - 1)) (zext P (av i)) (z' i) (x i)) t‖ ≤ G * r ^ t := by
    intro i
    by_cases hi : i < B
    · obtain ⟨G, h⟩ := taps_decay (K := K) (b := bv i) (v := fun n => dfSignal (max P (K - 1)) (zext P (av i)) (z i) (x i) n -
        dfSignal (max P (K - 1)) (zext P (av i)) (z' i) (x i) n) hr (hp i hi) fun n => by
          rw [taps_sub, df_signal hM, df_signal hM, sum_zext (by omega), sum_zext (by omega), taps, taps]
          ring
      exact ⟨G, fun t _ => by rw [← taps_sub]; exact h t⟩
    · exact ⟨0, fun t h => absurd h hi⟩
  choose G hG using hG
  refine ⟨G, fun N u hN hu => ?_⟩
  have e := Lti.lfilter_df2 hb ha (.batched B x) hz hK hM hN hu
  have e' := Lti.lfilter_df2 hb ha (.batched B x) hz' hK hM hN hu
  rw [show allFlat (t2 B N x) b a (some zi) = false by unfold allFlat; rw [rank_t2]; simp] at e
  rw [show allFlat (t2 B N x) b a (some zi') = false by unfold allFlat; rw [rank_t2]; simp] at e'
  simp only [packed, Bool.false_eq_true, if_false] at e e'
  exact ⟨_, _, _, _, e, e', hG⟩

example := C58_lfilter_forgets (B := 3) (K := 2) (P := 1) (x := fun i t => (i : ℂ) + t) (r := 1) (.batched fun i t => (i : ℂ) + t)
  (.shared fun _ => -(1 / 2 : ℂ)) (.full fun i t => (i : ℂ) - t) (.shared fun t => (t : ℂ)) (by decide) (by decide) (by norm_num)
  (fun _ _ => half_stable)

/-- **C58, `lti.lfilter`, initial state**, real numbers, `df2` and `tdf2`. -/
theorem C58_lfilter_forgets_real {B K P : Nat} {b a zi zi' : Tensor ℝ} {bv av z z' : Nat → Nat → ℝ} {x : Nat → Nat → ℝ} {r : ℝ}
    {form : Form} (hb : Rows B K b bv) (ha : Rows B P a av) (hz : InitState B (max P (K - 1)) (some zi) z)
    (hz' : InitState B (max P (K - 1)) (some zi') z') (hf : form = .df2 ∨ form = .tdf2) (hK : 0 < K) (hM : 0 < max P (K - 1))
    (hr : 0 < r) (hp : ∀ i, i < B → ∀ p ∈ poles P (fun k => (av i k : ℂ)), ‖p‖ < r) :
    ∃ G : Nat → ℝ, ∀ (N : Nat) (u : Option Int), 0 < N → (∀ i, u = some i → 1 ≤ i) →
      ∃ (y y' : Nat → Nat → ℝ) (zf zf' : Tensor ℝ), lfilter b a (t2 B N x) (some zi) form u = .ok (t2 B N y, some zf) ∧
        lfilter b a (t2 B N x) (some zi') form u = .ok (t2 B N y', some zf') ∧ ∀ i t, i < B → |y i t - y' i t| ≤ G i * r ^ t := by
  rcases hf with rfl | rfl
  · have hc : ∀ (L : Nat) (g : Nat → ℝ) (v : Int → ℝ) (n : Int), ((taps L g v n : ℝ) : ℂ) = taps L (fun j => (g j : ℂ)) (fun n => (v n : ℂ)) n := by
      intro L g v n; unfold taps; push_cast; rfl
    have hG : ∀ i, ∃ G : ℝ, ∀ t : Nat, i < B → |taps K (bv i) (dfSignal (max P (K - 1)) (zext P (av i)) (z i) (x i)) t -
        taps K (bv i) (dfSignal (max P (K - 1)) (zext P (av i)) (z' i) (x i)) t| ≤ G * r ^ t := by
      intro i
      by_cases hi : i < B
      · obtain ⟨G, h⟩ := taps_decay (K := K) (b := fun j => (bv i j : ℂ))
          (v := fun n => ((dfSignal (max P (K - 1)) (zext P (av i)) (z i) (x i) n : ℝ) : ℂ) -
          ((dfSignal (max P (K - 1)) (zext P (av i)) (z' i) (x i) n : ℝ) : ℂ)) hr (hp i hi) fun n => by
            rw [taps_sub, ← hc, ← hc, df_signal hM, df_signal hM, sum_zext (by omega), sum_zext (by omega), taps, taps]
            push_cast
            ring
        refine ⟨G, fun t _ => ?_⟩
        have k := h t
        rwa [taps_sub, ← hc, ← hc, ← Complex.ofReal_sub, Complex.norm_real] at k
      · exact ⟨0, fun t h => absurd h hi⟩
    choose G hG using hG
    refine ⟨G, fun N u hN hu => ?_⟩
    have e := Lti.lfilter_df2 hb ha (.batched B x) hz hK hM hN hu
    have e' := Lti.lfilter_df2 hb ha (.batched B x) hz' hK hM hN hu
    rw [show allFlat (t2 B N x) b a (some zi) = false by unfold allFlat; rw [rank_t2]; simp] at e
    rw [show allFlat (t2 B N x) b a (some zi') = false by unfold allFlat; rw [rank_t2]; simp] at e'
    simp only [packed, Bool.false_eq_true, if_false] at e e'
    exact ⟨_, _, _, _, e, e', hG⟩
  · have hG : ∀ i, ∃ G : ℝ, ∀ t : Nat, i < B → |tdf2Out (max P (K - 1)) (zext K (bv i)) (zext P (av i)) (z i) (x i) t -
        tdf2Out (max P (K - 1)) (zext K (bv i)) (zext P (av i)) (z' i) (x i) t| ≤ G * r ^ t := by
      intro i
      by_cases hi : i < B
      · obtain ⟨G, h⟩ := delayLine_decay (M := max P (K - 1))
          (d := fun t => ((tdf2Out (max P (K - 1)) (zext K (bv i)) (zext P (av i)) (z i) (x i) t -
            tdf2Out (max P (K - 1)) (zext K (bv i)) (zext P (av i)) (z' i) (x i) t : ℝ) : ℂ))
          (e := fun t m => ((tdf2State (max P (K - 1)) (zext K (bv i)) (zext P (av i)) (z i) (x i) t m -
            tdf2State (max P (K - 1)) (zext K (bv i)) (zext P (av i)) (z' i) (x i) t m : ℝ) : ℂ)) hr (hp i hi) hM (by omega)
          (fun t => by unfold tdf2Out; push_cast; ring) (fun t m hm => by
            rw [tdf2_step _ _ _ _ _ hm, tdf2_step _ _ _ _ _ hm,
              show zext P (fun k => (av i k : ℂ)) m = ((zext P (av i) m : ℝ) : ℂ) by unfold zext; split <;> simp]
            split <;> push_cast <;> ring)
        refine ⟨G, fun t _ => ?_⟩
        have k := h t
        rwa [Complex.norm_real] at k
      · exact ⟨0, fun t h => absurd h hi⟩
    choose G hG using hG
    refine ⟨G, fun N u hN hu => ?_⟩
    have e := Lti.lfilter_tdf2 hb ha (.batched B x) hz hK hM hN hu
    have e' := Lti.lfilter_tdf2 hb ha (.batched B x) hz' hK hM hN hu
    rw [show allFlat (t2 B N x) b a (some zi) = false by unfold allFlat; rw [rank_t2]; simp] at e
    rw [show allFlat (t2 B N x) b a (some zi') = false by unfold allFlat; rw [rank_t2]; simp] at e'
    simp only [packed, Bool.false_eq_true, if_false, star_trivial] at e e'
    exact ⟨_, _, _, _, e, e', hG⟩

/-! ## Instances -/

/-- `y_n = x_n + y_{n-1}/2`: signals of at most 1 give outputs of at most 2, at any length, form and unroll factor. -/
example (N : Nat) (x : Nat → Nat → ℝ) (form : Form) (u : Int) (hf : form ≠ .other) (hN : 0 < N) (hu : 1 ≤ u)
    (hx : ∀ i t, |x i t| ≤ 1) :
    ∃ y : Nat → Nat → ℝ, lfilter (t1 1 fun _ => 1) (t1 1 fun _ => -(1 / 2)) (t2 3 N x) none form (some u) =
      .ok (t2 3 N y, none) ∧ ∀ i t, |y i t| ≤ 2 := by
  have hp : poles 1 (fun _ => ((-(1 / 2) : ℝ) : ℂ)) = {1 / 2} := by
    rw [← poles_one]; congr 1; funext _; push_cast; rfl
  obtain ⟨y, e, h⟩ := C58_lfilter_real (B := 3) (K := 1) (P := 1) (x := x) (u := some u) (X := 1) (.shared fun _ => (1 : ℝ))
    (.shared fun _ => (-(1 / 2) : ℝ)) hf (by decide) (by decide) (by decide) hN (fun i hi => by cases hi; exact hu)
    (fun i p h => by rw [hp, Multiset.mem_singleton] at h; rw [h]; norm_num) hx
  refine ⟨y, e, fun i t => (h i t).trans (le_of_eq ?_)⟩
  rw [hp, Multiset.map_singleton, Multiset.prod_singleton]
  norm_num

/-- `y_n = x_n + 2 y_{n-1}` has no bounded response. -/
example (H : ℝ) : ¬ ∀ N (y : Nat → Nat → ℝ), 0 < N → lfilter (t1 1 fun _ => 1) (t1 1 fun _ => -2)
    (t2 1 N fun _ => impulse) none .df1 none = .ok (t2 1 N y, none) → ∀ i t, i < 1 → t < N → |y i t| ≤ H := by
  intro h
  have hp : poles 1 (fun _ => ((-2 : ℝ) : ℂ)) = {2} := by
    rw [← poles_one]; congr 1; funext _; push_cast; rfl
  have k := C58_unstable_real (B := 1) (K := 1) (P := 1) (u := none) (.shared fun _ => (1 : ℝ)) (.shared fun _ => (-2 : ℝ))
    (by simp) (by decide) (by decide) (by decide) (by simp) h 0 (by decide) 2 (by rw [hp]; simp) (by norm_num)
  simp at k

/-- The accumulator `y_n = x_n + y_{n-1}`, with its pole on the unit circle, has a bounded response to impulses but not to every bounded
signal. -/
example : ¬ ∀ (x : Nat → Nat → ℝ) (X : ℝ), (∀ i t, |x i t| ≤ X) → ∃ H : ℝ, ∀ N, 0 < N → ∃ y : Nat → Nat → ℝ,
    lfilter (t1 1 fun _ => 1) (t1 1 fun _ => -1) (t2 1 N x) none .tdf2 none = .ok (t2 1 N y, none) ∧
      ∀ i t, i < 1 → t < N → |y i t| ≤ H := by
  have hp : poles 1 (fun _ => ((-1 : ℝ) : ℂ)) = {1} := by
    rw [← poles_one]; congr 1; funext _; push_cast; rfl
  rw [C58_bibo_real (B := 1) (K := 1) (P := 1) (form := .tdf2) (u := none) (.shared fun _ => (1 : ℝ)) (.shared fun _ => (-1 : ℝ))
    (by simp) (by decide) (by decide) (by decide) (by simp) (fun i _ p _ _ => by simp)]
  intro h
  have := h 0 (by decide) 1 (by rw [hp]; simp)
  norm_num at this

/-- A diagonal system with eigenvalue 1/2 meets the hypotheses of `C58_recursion`. -/
example : ∀ (_ : Nat) (l : ℂ), (mat 1 1 fun _ _ => (1 / 2 : ℂ)).charpoly.IsRoot l → ‖l‖ < 1 := by
  intro _ l h
  rw [Polynomial.IsRoot, Matrix.eval_charpoly, Matrix.det_fin_one] at h
  simp only [Matrix.sub_apply, Matrix.scalar_apply, Matrix.diagonal_apply_eq, mat, Matrix.of_apply] at h
  rw [sub_eq_zero.1 h]
  norm_num

/-- `y_n = x_n + y_{n-1}/2` forgets its initial state at any rate above 1/2. -/
example (x : Nat → Nat → ℝ) (z z' : Nat → ℝ) : ∃ G : Nat → ℝ, ∀ (N : Nat) (u : Option Int), 0 < N → (∀ i, u = some i → 1 ≤ i) →
    ∃ (y y' : Nat → Nat → ℝ) (zf zf' : Tensor ℝ),
      lfilter (t1 1 fun _ => 1) (t1 1 fun _ => -(1 / 2)) (t2 3 N x) (some (t1 1 z)) .tdf2 u = .ok (t2 3 N y, some zf) ∧
      lfilter (t1 1 fun _ => 1) (t1 1 fun _ => -(1 / 2)) (t2 3 N x) (some (t1 1 z')) .tdf2 u = .ok (t2 3 N y', some zf') ∧
      ∀ i t, i < 3 → |y i t - y' i t| ≤ G i * (2 / 3) ^ t := by
  have hp : poles 1 (fun _ => ((-(1 / 2) : ℝ) : ℂ)) = {1 / 2} := by
    rw [← poles_one]; congr 1; funext _; push_cast; rfl
  exact C58_lfilter_forgets_real (B := 3) (K := 1) (P := 1) (.shared fun _ => (1 : ℝ)) (.shared fun _ => (-(1 / 2) : ℝ))
    (.shared z) (.shared z') (Or.inr rfl) (by decide) (by decide) (by norm_num)
    (fun i _ p h => by rw [hp, Multiset.mem_singleton] at h; rw [h]; norm_num)

/-- A comb filter with delay 3 and coefficient 1/2, from a past of at most 5: signals of at most 1 give outputs of at most 5. -/
example (N : Nat) (x z : Nat → Nat → ℝ) (hN : 0 < N) (hx : ∀ i t, ‖x i t‖ ≤ 1) (hz : ∀ i m, m < 3 → ‖z i m‖ ≤ 5) :
    ∃ (y : Nat → Nat → ℝ) (zf : Tensor ℝ), Lti.combFilter true (t1 2 fun _ => 1 / 2) 3 (t2 2 N x) (some (t2 2 3 z)) 1 =
      .ok (t2 2 N y, some zf) ∧ ∀ i t, ‖y i t‖ ≤ 5 := by
  obtain ⟨y, zf, e, h⟩ := C58_comb_filter_state (r := 1 / 2) (D := 3) (u := 1) (PerItem.full fun _ => (1 / 2 : ℝ)) (Past.batched z) (by decide) hN (by decide)
    (by norm_num) (fun _ => by norm_num) hx hz
  refine ⟨y, zf, e, fun i t => (h i t).trans (le_of_eq ?_)⟩
  norm_num

/-- Averages over two samples with weights that move with time do not exceed the signal. -/
example (x : Nat → Nat → ℝ) (hx : ∀ i t, ‖x i t‖ ≤ 1) :
    ∃ y : Nat → Nat → ℝ, Lpv.fir (t3 2 9 2 fun _ t j => if j = 0 then 1 / ((t : ℝ) + 1) else 1 - 1 / ((t : ℝ) + 1)) (t2 2 9 x) none false =
      .ok (t2 2 9 y, none) ∧ ∀ i t, ‖y i t‖ ≤ 1 * 1 := by
  refine C58_lpv_fir (M := 1) (by decide) (fun i t => ?_) hx
  have h1 : 0 ≤ 1 / ((t : ℝ) + 1) := by positivity
  have h2 : 1 / ((t : ℝ) + 1) ≤ 1 := by rw [div_le_one (by positivity)]; linarith [(Nat.cast_nonneg t : (0 : ℝ) ≤ t)]
  rw [Finset.sum_range_succ, Finset.sum_range_one, if_pos rfl, if_neg (by decide), Real.norm_of_nonneg h1,
    Real.norm_of_nonneg (by linarith)]
  linarith

/-- A complex filter in a form that conjugates both coefficients: `(i + 2/z) / (1 + i/(2z))` multiplies signals by at most `2 · 3`. -/
example (N : Nat) (x : Nat → Nat → ℂ) (hN : 0 < N) (hx : ∀ i t, ‖x i t‖ ≤ 1) :
    ∃ y : Nat → Nat → ℂ, lfilter (t1 2 fun j => if j = 0 then Complex.I else 2) (t1 1 fun _ => -(-(Complex.I / 2))) (t2 3 N x) none .tdf2 none =
      .ok (t2 3 N y, none) ∧ ∀ i t, ‖y i t‖ ≤ 6 := by
  obtain ⟨y, e, h⟩ := C58_lfilter_forms (B := 3) (K := 2) (P := 1) (form := .tdf2) (u := none) (.shared fun j => if j = 0 then Complex.I else 2)
    (.shared fun _ => -(-(Complex.I / 2))) (by simp) (by decide) (by decide) (by decide) hN (by simp)
    (fun _ p h => by rw [poles_one, Multiset.mem_singleton] at h; rw [h]; norm_num) hx
  refine ⟨y, e, fun i t => (h i t).trans (le_of_eq ?_)⟩
  rw [poles_one, Multiset.map_singleton, Multiset.prod_singleton]
  simp [Finset.sum_range_succ]
  norm_num

end Props
