import Verif.Proof.AllPass
import Verif.Props.C64

/-!
# C65: all-pass filters

A filter whose numerator is the conjugated denominator read backwards (`Spec.AllPass`):

* its poles in the closed unit disc, it never puts out more energy than it took in, at any length (`C65_passive`,
  `C65_passive_real`);
* its poles inside the unit circle, it gives back all the energy of a signal that dies out (`C65_lossless`, `C65_lossless_real`);
* its response has modulus 1 on the unit circle (`C65_gain`).
-/

namespace Props
open Torch Torch.Tensor Spec Phil Phil.Lti

/-- The numerator of the all-pass filter `(-1/2 + 1/z)/(1 - 1/(2z))`. -/
noncomputable def half_allpass (j : Nat) : ℂ := if j = 0 then -(1 / 2) else 1

theorem half_allpass_case : AllPass 1 half_allpass fun _ => -(1 / 2 : ℂ) := by
  intro j hj
  rcases Nat.le_one_iff_eq_zero_or_eq_one.1 hj with rfl | rfl <;> simp [denom, half_allpass, Complex.conj_ofNat]

/-- **C65, passivity**, complex numbers. -/
theorem C65_passive {B N P : Nat} {b a : Tensor ℂ} {bv av x : Nat → Nat → ℂ} {u : Option Int} (hb : Rows B (P + 1) b bv)
    (ha : Rows B P a av) (hB : 0 < B) (hP : 0 < P) (hN : 0 < N) (hu : ∀ i, u = some i → 1 ≤ i)
    (hap : ∀ i, i < B → AllPass P (bv i) (av i)) (hp : ∀ i, i < B → ∀ p ∈ poles P (av i), ‖p‖ ≤ 1) :
    ∃ y : Nat → Nat → ℂ, lfilter b a (t2 B N x) none .df2 u = .ok (t2 B N y, none) ∧
      ∀ i n, i < B → energy (y i) n ≤ energy (x i) n := by
  obtain ⟨y, h, e⟩ := lfilter_series2 hb ha x (Or.inl rfl) hB (by omega) (by omega) hN hu
  refine ⟨y, e, fun i n hi => ?_⟩
  have h1 := h i
  rw [denom_poles, allPass_poles (hap i hi)] at h1
  have k := allPass_energy (hp i hi) h1 n
  simpa only [PowerSeries.coeff_mk] using k

example := C65_passive (B := 3) (N := 7) (P := 1) (x := fun i t => (i : ℂ) + t) (u := some 2) (.shared half_allpass)
  (.shared fun _ => -(1 / 2 : ℂ)) (by decide) (by decide) (by decide) (by simp) (fun _ _ => half_allpass_case)
  (fun _ _ p h => (half_stable p h).le)

/-- **C65, passivity**, real numbers, every form. -/
theorem C65_passive_real {B N P : Nat} {b a : Tensor ℝ} {bv av x : Nat → Nat → ℝ} {form : Form} {u : Option Int}
    (hb : Rows B (P + 1) b bv) (ha : Rows B P a av) (hf : form ≠ .other) (hB : 0 < B) (hP : 0 < P) (hN : 0 < N)
    (hu : ∀ i, u = some i → 1 ≤ i) (hap : ∀ i, i < B → ∀ j, j ≤ P → bv i j = denom P (av i) (P - j))
    (hp : ∀ i, i < B → ∀ p ∈ poles P (fun k => (av i k : ℂ)), ‖p‖ ≤ 1) :
    ∃ y : Nat → Nat → ℝ, lfilter b a (t2 B N x) none form u = .ok (t2 B N y, none) ∧
      ∀ i n, i < B → ∑ t ∈ Finset.range n, y i t ^ 2 ≤ ∑ t ∈ Finset.range n, x i t ^ 2 := by
  obtain ⟨y, h, e⟩ := lfilter_series2 hb ha x (faithful_real hf) hB (by omega) (by omega) hN hu
  refine ⟨y, e, fun i n hi => ?_⟩
  have h1 := series_ofReal (h i)
  rw [denom_poles, allPass_poles (allPass_ofReal (hap i hi))] at h1
  have k := allPass_energy (hp i hi) h1 n
  simpa only [PowerSeries.coeff_mk, energy_ofReal] using k

/-- **C65, losslessness**, complex numbers: one batch of outputs `y`, of which every call returns the first `N` samples. -/
theorem C65_lossless {B P : Nat} {b a : Tensor ℂ} {bv av x : Nat → Nat → ℂ} (hb : Rows B (P + 1) b bv)
    (ha : Rows B P a av) (hB : 0 < B) (hP : 0 < P)
    (hap : ∀ i, i < B → AllPass P (bv i) (av i)) (hp : ∀ i, i < B → ∀ p ∈ poles P (av i), ‖p‖ < 1)
    (hx : ∀ i, i < B → Filter.Tendsto (x i) Filter.atTop (nhds 0)) :
    ∃ y : Nat → Nat → ℂ, (∀ (N : Nat) (u : Option Int), 0 < N → (∀ i, u = some i → 1 ≤ i) →
        lfilter b a (t2 B N x) none .df2 u = .ok (t2 B N y, none)) ∧
      ∀ i, i < B → Filter.Tendsto (fun n => energy (x i) n - energy (y i) n) Filter.atTop (nhds 0) := by
  obtain ⟨y, h, -⟩ := lfilter_series2 (N := 1) (u := none) (form := .df2) hb ha x (Or.inl rfl) hB (by omega) (by omega) one_pos
    (by simp)
  refine ⟨y, fun N u hN hu => ?_, fun i hi => ?_⟩
  · obtain ⟨y', h', e⟩ := lfilter_series2 hb ha x (Or.inl rfl) hB (by omega) (by omega) hN hu
    rw [e, show y' = y from funext fun i => series_unique ((h' i).trans (h i).symm)]
  · have h1 := h i
    rw [denom_poles, allPass_poles (hap i hi)] at h1
    have k := allPass_conserves (hp i hi) h1 (by simpa only [PowerSeries.coeff_mk] using hx i hi)
    simpa only [PowerSeries.coeff_mk] using k

/-- **C65, losslessness**, real numbers, every form. -/
theorem C65_lossless_real {B P : Nat} {b a : Tensor ℝ} {bv av x : Nat → Nat → ℝ} (hb : Rows B (P + 1) b bv)
    (ha : Rows B P a av) (hB : 0 < B) (hP : 0 < P) (hap : ∀ i, i < B → ∀ j, j ≤ P → bv i j = denom P (av i) (P - j))
    (hp : ∀ i, i < B → ∀ p ∈ poles P (fun k => (av i k : ℂ)), ‖p‖ < 1)
    (hx : ∀ i, i < B → Filter.Tendsto (x i) Filter.atTop (nhds 0)) :
    ∃ y : Nat → Nat → ℝ, (∀ (N : Nat) (form : Form) (u : Option Int), 0 < N → form ≠ .other → (∀ i, u = some i → 1 ≤ i) →
        lfilter b a (t2 B N x) none form u = .ok (t2 B N y, none)) ∧
      ∀ i, i < B → Filter.Tendsto (fun n => ∑ t ∈ Finset.range n, x i t ^ 2 - ∑ t ∈ Finset.range n, y i t ^ 2)
        Filter.atTop (nhds 0) := by
  obtain ⟨y, h, -⟩ := lfilter_series2 (N := 1) (u := none) (form := .df2) hb ha x (Or.inl rfl) hB (by omega) (by omega) one_pos
    (by simp)
  refine ⟨y, fun N form u hN hf hu => ?_, fun i hi => ?_⟩
  · obtain ⟨y', h', e⟩ := lfilter_series2 hb ha x (faithful_real hf) hB (by omega) (by omega) hN hu
    rw [e, show y' = y from funext fun i => series_unique ((h' i).trans (h i).symm)]
  · have h1 := series_ofReal (h i)
    rw [denom_poles, allPass_poles (allPass_ofReal (hap i hi))] at h1
    have k := allPass_conserves (hp i hi) h1 (by
      simp only [PowerSeries.coeff_mk]
      exact (Complex.continuous_ofReal.tendsto' 0 0 Complex.ofReal_zero).comp (hx i hi))
    simpa only [PowerSeries.coeff_mk, energy_ofReal] using k

example (x : Nat → Nat → ℝ) (hx : ∀ i, i < 3 → Filter.Tendsto (x i) Filter.atTop (nhds 0)) :=
  C65_lossless_real (B := 3) (P := 1) (x := x) (.shared fun j => if j = 0 then (-(1 / 2) : ℝ) else 1) (.shared fun _ => (-(1 / 2) : ℝ))
    (by decide) (by decide) (fun _ _ j hj => by rcases Nat.le_one_iff_eq_zero_or_eq_one.1 hj with rfl | rfl <;> simp [denom])
    (fun _ _ p h => half_stable p (by simpa using h)) hx

/-- **C65, gain.** From any initial state a stable all-pass filter answers `c w^t`, `|w| = 1`, by a multiple of modulus 1, up to a
transient. -/
theorem C65_gain {B P : Nat} {b a zi : Tensor ℂ} {bv av z : Nat → Nat → ℂ} {w : ℂ} (hb : Rows B (P + 1) b bv)
    (ha : Rows B P a av) (hz : InitState B (max P (P + 1 - 1)) (some zi) z) (hP : 0 < P) (hw : ‖w‖ = 1)
    (hap : ∀ i, i < B → AllPass P (bv i) (av i)) (hp : ∀ i, i < B → ∀ p ∈ poles P (av i), ‖p‖ < 1) :
    ∃ g : Nat → ℂ, (∀ i, i < B → ‖g i‖ = 1) ∧ ∀ (c : ℂ) (ε : ℝ), 0 < ε →
      ∃ T : Nat, ∀ (N : Nat) (u : Option Int), 0 < N → (∀ i, u = some i → 1 ≤ i) → ∃ (y : Nat → Nat → ℂ) (zf : Tensor ℂ),
        lfilter b a (t2 B N fun _ t => c * w ^ t) (some zi) .df2 u = .ok (t2 B N y, some zf) ∧
        ∀ i t, i < B → T ≤ t → ‖y i t - g i * (c * w ^ t)‖ < ε :=
  ⟨fun i => transferAt (P + 1) P (bv i) (av i) w,
    fun i hi => allPass_gain (hap i hi) hw (denAt_stable hw.ge (hp i hi)),
    fun _ _ hε => C64_response hb ha hz (by omega) (by omega) hw.ge hp hε⟩

example := C65_gain (B := 3) (P := 1) (w := Complex.I) (.shared half_allpass) (.shared fun _ => -(1 / 2 : ℂ)) (.full fun i t => (i : ℂ) - t)
  (by decide) (by simp) (fun _ _ => half_allpass_case) (fun _ _ => half_stable)

/-! ## Instances -/

/-- `(-1/2 + 1/z) / (1 - 1/(2z))` never puts out more energy than it took in. -/
example (N : Nat) (x : Nat → Nat → ℝ) (form : Form) (hf : form ≠ .other) (hN : 0 < N) :
    ∃ y : Nat → Nat → ℝ, lfilter (t1 2 fun j => if j = 0 then -(1 / 2) else 1) (t1 1 fun _ => -(1 / 2)) (t2 2 N x) none form none =
      .ok (t2 2 N y, none) ∧ ∀ i n, i < 2 → ∑ t ∈ Finset.range n, y i t ^ 2 ≤ ∑ t ∈ Finset.range n, x i t ^ 2 := by
  have hp : poles 1 (fun _ => ((-(1 / 2) : ℝ) : ℂ)) = {1 / 2} := by
    rw [← poles_one]; congr 1; funext _; push_cast; rfl
  refine C65_passive_real (B := 2) (P := 1) (.shared fun j => if j = 0 then (-(1 / 2) : ℝ) else 1) (.shared fun _ => (-(1 / 2) : ℝ))
    hf (by decide) (by decide) hN (by simp) (fun i _ j hj => ?_)
    (fun i _ p h => by rw [hp, Multiset.mem_singleton] at h; rw [h]; norm_num)
  rcases Nat.le_one_iff_eq_zero_or_eq_one.1 hj with rfl | rfl <;> simp [denom]

/-- The energy of the impulse response of the complex all-pass filter `(i/2 + 1/z) / (1 - i/(2z))` tends to the energy of the impulse. -/
example : ∃ y : Nat → Nat → ℂ, (∀ N, 0 < N → lfilter (t1 2 fun j => if j = 0 then Complex.I / 2 else 1) (t1 1 fun _ => -(Complex.I / 2))
      (t2 1 N fun _ => impulse) none .df2 none = .ok (t2 1 N y, none)) ∧
    Filter.Tendsto (fun n => energy impulse n - energy (y 0) n) Filter.atTop (nhds 0) := by
  obtain ⟨y, h1, h2⟩ := C65_lossless (B := 1) (P := 1) (x := fun _ => impulse) (.shared fun j => if j = 0 then Complex.I / 2 else 1)
    (.shared fun _ => -(Complex.I / 2)) (by decide) (by decide) (fun i _ j hj => by
      rcases Nat.le_one_iff_eq_zero_or_eq_one.1 hj with rfl | rfl
      · simp [denom, neg_div, Complex.conj_ofNat]
      · simp [denom]) (fun i _ p h => by
      rw [poles_one, Multiset.mem_singleton] at h; rw [h]; norm_num) (fun i _ => by
      refine tendsto_const_nhds.congr' ?_
      filter_upwards [Filter.eventually_gt_atTop 0] with n hn
      rw [impulse, if_neg (by omega)])
  exact ⟨y, fun N hN => h1 N none hN (by simp), h2 0 (by decide)⟩

end Props
