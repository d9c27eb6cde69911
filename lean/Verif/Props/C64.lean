import Verif.Proof.FiltfiltResponse
import Verif.Props.C58
import Verif.Props.C14
import Verif.Proof.Stream

/-!
# C64: frequency response

`H(w)` is the transfer function `b(z)/a(z)` at `z = w` (`Spec.transferAt`).

* The initial state `c w^{-1-m} / a(w)` makes `lfilter` (`df2`) answer `x_t = c w^t` by exactly `H(w) c w^t`, at every sample, and leaves
  the state of the same shape, `N` steps later (`C64_steady`).  The filter may be unstable.
* From any other state the distance to `H(w) c w^t` is at most `G r^t` for any `r` above the largest pole (`C64_transient`,
  `C64_rest`), so that a filter with its poles inside the unit circle approaches `H(w) c w^t` (`C64_response`).
* A real filter from rest, in any of the four forms, answers `cos(ω t + φ)` by `|H| cos(ω t + φ + arg H)` up to a transient that dies out
  (`C64_cosine`).
* `state_space` answers `c w^t` by `(C (w - A)⁻¹ B + D) c w^t`, exactly from the stationary state (`C64_state_space`) and in the
  limit from any state if the eigenvalues of `A` are inside the unit circle (`C64_state_space_response`); `comb_filter` answers
  it by `c w^t / (1 + a w^{-D})` (`C64_comb_filter`).
* Filters with the same response at infinitely many points are the same filter (`C64_determines`).
-/

namespace Props
open Torch Torch.Tensor Spec Phil Phil.Lti

/-- **C64, stationary response.** -/
theorem C64_steady {B N K P : Nat} {b a zi : Tensor ℂ} {bv av : Nat → Nat → ℂ} {w c : ℂ} {u : Option Int}
    (hb : Rows B K b bv) (ha : Rows B P a av)
    (hz : InitState B (max P (K - 1)) (some zi) fun i m => c / denAt P (av i) w * w⁻¹ ^ (m + 1))
    (hK : 0 < K) (hM : 0 < max P (K - 1)) (hN : 0 < N) (hu : ∀ i, u = some i → 1 ≤ i) (hw : w ≠ 0)
    (h0 : ∀ i, i < B → denAt P (av i) w ≠ 0) :
    lfilter b a (t2 B N fun _ t => c * w ^ t) (some zi) .df2 u =
      .ok (t2 B N fun i t => transferAt K P (bv i) (av i) w * (c * w ^ t),
        some (t2 B (max P (K - 1)) fun i m => w ^ N * (c / denAt P (av i) w * w⁻¹ ^ (m + 1)))) := by
  obtain ⟨v, h1, h2, e⟩ := C14_df2 hb ha (.batched B fun _ t => c * w ^ t) hz hK hM hN hu
  rw [show allFlat (t2 B N fun _ t => c * w ^ t) b a (some zi) = false by unfold allFlat; rw [rank_t2]; simp] at e
  simp only [packed, Bool.false_eq_true, if_false] at e
  have h3 : ∀ i (m : Nat), v i (-1 - m) = c / denAt P (av i) w * w ^ (-1 - m : Int) := by
    intro i m
    rw [h1]
    refine congrArg _ ?_
    rw [show (-1 - m : Int) = -((m + 1 : Nat) : Int) by push_cast; ring, zpow_neg, zpow_natCast, inv_pow]
  have h4 : ∀ i (n : Nat), i < B → v i n = c / denAt P (av i) w * w ^ (n : Int) := by
    intro i n hi
    induction n using Nat.strong_induction_on with
    | _ n ih =>
      rw [h2, steady_eq hw (h0 i hi), zpow_natCast, taps]
      refine congrArg₂ (· - ·) rfl (Finset.sum_congr rfl fun k _ => congrArg _ ?_)
      rw [show ((n : Int) - 1 - k) = (n : Int) - (k + 1) by ring]
      by_cases hk : k + 1 ≤ n
      · rw [show (n : Int) - (k + 1) = ((n - (k + 1) : Nat) : Int) by omega]
        exact ih _ (by omega)
      · rw [show (n : Int) - (k + 1) = -1 - ((k - n : Nat) : Int) by omega]
        exact h3 i _
  have h5 : ∀ i (n : Int), i < B → v i n = c / denAt P (av i) w * w ^ n := by
    intro i n hi
    rcases Int.lt_or_le n 0 with hn | hn
    · obtain ⟨m, rfl⟩ : ∃ m : Nat, n = -1 - m := ⟨(-1 - n).toNat, by omega⟩
      exact h3 i m
    · obtain ⟨m, rfl⟩ : ∃ m : Nat, n = m := ⟨n.toNat, by omega⟩
      exact h4 i m hi
  refine e.trans (ok_pair (t2_congr rfl rfl fun i t hi _ => ?_) (congrArg some (t2_congr rfl rfl fun i m hi _ => ?_)))
  · have := steady_taps hw K (bv i) (c / denAt P (av i) w) t
    simp only [taps] at this
    simp only [fun n => h5 i n hi]
    rw [this, transferAt, zpow_natCast]
    ring
  · rw [h5 i _ hi, show (N : Int) - 1 - m = N - ((m + 1 : Nat) : Int) by push_cast; ring, zpow_sub₀ hw, zpow_natCast, zpow_natCast, inv_pow]
    ring

/-- **C64, transient.** From any initial state, any batch item, any unroll factor and any length. -/
theorem C64_transient {B K P : Nat} {b a zi : Tensor ℂ} {bv av z : Nat → Nat → ℂ} {w c : ℂ} {r : ℝ}
    (hb : Rows B K b bv) (ha : Rows B P a av) (hz : InitState B (max P (K - 1)) (some zi) z) (hK : 0 < K)
    (hM : 0 < max P (K - 1)) (hw : w ≠ 0) (h0 : ∀ i, i < B → denAt P (av i) w ≠ 0) (hr : 0 < r)
    (hp : ∀ i, i < B → ∀ p ∈ poles P (av i), ‖p‖ < r) :
    ∃ G : Nat → ℝ, ∀ (N : Nat) (u : Option Int), 0 < N → (∀ i, u = some i → 1 ≤ i) → ∃ (y : Nat → Nat → ℂ) (zf : Tensor ℂ),
      lfilter b a (t2 B N fun _ t => c * w ^ t) (some zi) .df2 u = .ok (t2 B N y, some zf) ∧
      ∀ i t, i < B → ‖y i t - transferAt K P (bv i) (av i) w * (c * w ^ t)‖ ≤ G i * r ^ t := by
  have hG : ∀ i, ∃ G : ℝ, ∀ t : Nat, i < B → ‖taps K (bv i) (dfSignal (max P (K - 1)) (zext P (av i)) (z i) fun t => c * w ^ t) t -
      transferAt K P (bv i) (av i) w * (c * w ^ t)‖ ≤ G * r ^ t := by
    intro i
    by_cases hi : i < B
    · obtain ⟨G, h⟩ := response_decay (K := K) (b := bv i) (c := c)
        (v := dfSignal (max P (K - 1)) (zext P (av i)) (z i) fun t => c * w ^ t) hr (hp i hi) hw (h0 i hi) fun n => by
          rw [df_signal hM, sum_zext (by omega)]
          rfl
      exact ⟨G, fun t _ => h t⟩
    · exact ⟨0, fun t h => absurd h hi⟩
  choose G hG using hG
  refine ⟨G, fun N u hN hu => ?_⟩
  have e := lfilter_df2 hb ha (.batched B fun _ t => c * w ^ t) hz hK hM hN hu
  rw [show allFlat (t2 B N fun _ t => c * w ^ t) b a (some zi) = false by unfold allFlat; rw [rank_t2]; simp] at e
  simp only [packed, Bool.false_eq_true, if_false] at e
  exact ⟨_, _, e, hG⟩

example := C64_transient (B := 3) (K := 2) (P := 1) (w := Complex.I) (c := 3) (r := 1) (.batched fun i t => (i : ℂ) + t)
  (.shared fun _ => -(1 / 2 : ℂ)) (.full fun i t => (i : ℂ) - t) (by decide) (by decide) (by simp)
  (fun _ _ => denAt_ne_zero (by simp) fun h => absurd (half_stable _ h) (by simp)) (by norm_num) (fun _ _ => half_stable)

/-- **C64, transient from rest**, any form that computes the difference equation. -/
theorem C64_rest {B K P : Nat} {b a : Tensor ℂ} {bv av : Nat → Nat → ℂ} {w c : ℂ} {r : ℝ}
    (hb : Rows B K b bv) (ha : Rows B P a av) (hB : 0 < B) (hK : 0 < K)
    (hM : 0 < max P (K - 1)) (hw : w ≠ 0) (h0 : ∀ i, i < B → denAt P (av i) w ≠ 0) (hr : 0 < r)
    (hp : ∀ i, i < B → ∀ p ∈ poles P (av i), ‖p‖ < r) :
    ∃ G : Nat → ℝ, ∀ (N : Nat) (u : Option Int), 0 < N → (∀ i, u = some i → 1 ≤ i) → ∃ y : Nat → Nat → ℂ,
      lfilter b a (t2 B N fun _ t => c * w ^ t) none .df2 u = .ok (t2 B N y, none) ∧
      ∀ i t, i < B → ‖y i t - transferAt K P (bv i) (av i) w * (c * w ^ t)‖ ≤ G i * r ^ t := by
  have hy : ∀ i, ∃ y : Nat → ℂ, PowerSeries.mk (denom P (av i)) * PowerSeries.mk y =
      PowerSeries.mk (zext K (bv i)) * PowerSeries.mk fun t => c * w ^ t := by
    intro i
    obtain ⟨y, h, -⟩ := lfilter_series2 (N := 1) (u := none) (form := .df2) hb ha (fun _ t => c * w ^ t) (Or.inl rfl) hB hK hM one_pos (by simp)
    exact ⟨_, h i⟩
  choose y hy using hy
  have hG : ∀ i, ∃ G : ℝ, ∀ t : Nat, i < B → ‖y i t - transferAt K P (bv i) (av i) w * (c * w ^ t)‖ ≤ G * r ^ t := by
    intro i
    by_cases hi : i < B
    · obtain ⟨G, h⟩ := series_response hr (hp i hi) hw (h0 i hi) (hy i)
      exact ⟨G, fun t _ => h t⟩
    · exact ⟨0, fun t h => absurd h hi⟩
  choose G hG using hG
  refine ⟨G, fun N u hN hu => ⟨y, ?_, hG⟩⟩
  obtain ⟨y', h, e⟩ := lfilter_series2 hb ha (fun _ t => c * w ^ t) (Or.inl rfl) hB hK hM hN hu
  rw [e, show y' = y from funext fun i => series_unique ((h i).trans (hy i).symm)]

example := C64_rest (B := 3) (K := 2) (P := 1) (w := Complex.I) (c := 3) (r := 1) (.batched fun i t => (i : ℂ) + t)
  (.shared fun _ => -(1 / 2 : ℂ)) (by decide) (by decide) (by decide) (by simp)
  (fun _ _ => denAt_ne_zero (by simp) fun h => absurd (half_stable _ h) (by simp)) (by norm_num) (fun _ _ => half_stable)

/-- A bound `G r^t` with `r < 1` gets below any `ε`. -/
theorem decay_eventually {r : ℝ} (h0 : 0 < r) (h1 : r < 1) (B : Nat) (G : Nat → ℝ) {ε : ℝ} (hε : 0 < ε) :
    ∃ T : Nat, ∀ i t, i < B → T ≤ t → G i * r ^ t < ε := by
  have h : ∀ i, ∃ T : Nat, ∀ t, T ≤ t → G i * r ^ t < ε := by
    intro i
    have := ((tendsto_pow_atTop_nhds_zero_of_lt_one h0.le h1).const_mul (G i)).eventually (gt_mem_nhds (by rwa [mul_zero]))
    exact Filter.eventually_atTop.1 this
  choose T hT using h
  refine ⟨∑ i ∈ Finset.range B, T i, fun i t hi ht => hT i t ?_⟩
  exact (Finset.single_le_sum (f := T) (fun _ _ => Nat.zero_le _) (Finset.mem_range.2 hi)).trans ht

/-- One rate for all batch items. -/
theorem common_rate {B P : Nat} {av : Nat → Nat → ℂ} (hp : ∀ i, i < B → ∀ p ∈ poles P (av i), ‖p‖ < 1) :
    ∃ r : ℝ, 0 < r ∧ r < 1 ∧ ∀ i, i < B → ∀ p ∈ poles P (av i), ‖p‖ < r := by
  obtain ⟨r, h0, h1, h⟩ := exists_rate (s := ∑ i ∈ Finset.range B, poles P (av i)) fun p hm => by
    obtain ⟨i, hi, hm⟩ := Multiset.mem_sum.1 hm
    exact hp i (Finset.mem_range.1 hi) p hm
  exact ⟨r, h0, h1, fun i hi p hm => h p (Multiset.mem_sum.2 ⟨i, Finset.mem_range.2 hi, hm⟩)⟩

/-- The denominator of a stable filter does not vanish on or outside the unit circle. -/
theorem denAt_stable {P : Nat} {a : Nat → ℂ} {w : ℂ} (hw : 1 ≤ ‖w‖) (hp : ∀ p ∈ poles P a, ‖p‖ < 1) : denAt P a w ≠ 0 :=
  denAt_ne_zero (by rintro rfl; norm_num at hw) fun h => absurd (hp w h) (not_lt.2 hw)

/-- **C64, response.** Poles inside the unit circle: from any initial state the output comes arbitrarily close to `H(w) c w^t` and
stays there. -/
theorem C64_response {B K P : Nat} {b a zi : Tensor ℂ} {bv av z : Nat → Nat → ℂ} {w c : ℂ} {ε : ℝ}
    (hb : Rows B K b bv) (ha : Rows B P a av) (hz : InitState B (max P (K - 1)) (some zi) z) (hK : 0 < K)
    (hM : 0 < max P (K - 1)) (hw : 1 ≤ ‖w‖) (hp : ∀ i, i < B → ∀ p ∈ poles P (av i), ‖p‖ < 1) (hε : 0 < ε) :
    ∃ T : Nat, ∀ (N : Nat) (u : Option Int), 0 < N → (∀ i, u = some i → 1 ≤ i) → ∃ (y : Nat → Nat → ℂ) (zf : Tensor ℂ),
      lfilter b a (t2 B N fun _ t => c * w ^ t) (some zi) .df2 u = .ok (t2 B N y, some zf) ∧
      ∀ i t, i < B → T ≤ t → ‖y i t - transferAt K P (bv i) (av i) w * (c * w ^ t)‖ < ε := by
  obtain ⟨r, hr0, hr1, hr⟩ := common_rate hp
  have hw0 : w ≠ 0 := by rintro rfl; norm_num at hw
  obtain ⟨G, hG⟩ := C64_transient (c := c) hb ha hz hK hM hw0 (fun i hi => denAt_stable hw (hp i hi)) hr0 hr
  obtain ⟨T, hT⟩ := decay_eventually hr0 hr1 B G hε
  refine ⟨T, fun N u hN hu => ?_⟩
  obtain ⟨y, zf, e, h⟩ := hG N u hN hu
  exact ⟨y, zf, e, fun i t hi ht => (h i t hi).trans_lt (hT i t hi ht)⟩

example := C64_response (B := 3) (K := 2) (P := 1) (w := Complex.I) (c := 3) (ε := 1 / 1000) (.batched fun i t => (i : ℂ) + t)
  (.shared fun _ => -(1 / 2 : ℂ)) (.full fun i t => (i : ℂ) - t) (by decide) (by decide) (by simp) (fun _ _ => half_stable) (by norm_num)

/-- **C64, sinusoids.** A real filter with its poles inside the unit circle, from rest, in any form, answers `cos(ω t + φ)` by
`|H| cos(ω t + φ + arg H)`, `H = H(e^{iω})`, up to a transient that gets below any `ε`. -/
theorem C64_cosine {B K P : Nat} {b a : Tensor ℝ} {bv av : Nat → Nat → ℝ} {ω φ : ℝ} {ε : ℝ}
    (hb : Rows B K b bv) (ha : Rows B P a av) (hB : 0 < B) (hK : 0 < K) (hM : 0 < max P (K - 1))
    (hp : ∀ i, i < B → ∀ p ∈ poles P (fun k => (av i k : ℂ)), ‖p‖ < 1) (hε : 0 < ε) :
    ∃ T : Nat, ∀ (N : Nat) (form : Form) (u : Option Int), 0 < N → form ≠ .other → (∀ i, u = some i → 1 ≤ i) →
      ∃ y : Nat → Nat → ℝ, lfilter b a (t2 B N fun _ t => Real.cos (ω * t + φ)) none form u = .ok (t2 B N y, none) ∧
        ∀ i t, i < B → T ≤ t →
          |y i t - ‖transferAt K P (fun j => (bv i j : ℂ)) (fun k => (av i k : ℂ)) (Complex.exp (ω * Complex.I))‖ *
            Real.cos (ω * t + φ +
              (transferAt K P (fun j => (bv i j : ℂ)) (fun k => (av i k : ℂ)) (Complex.exp (ω * Complex.I))).arg)| < ε := by
  obtain ⟨r, hr0, hr1, hr⟩ := common_rate hp
  set w : ℂ := Complex.exp (ω * Complex.I) with hwd
  have hwn : ‖w‖ = 1 := Complex.norm_exp_ofReal_mul_I ω
  have hw0 : w ≠ 0 := Complex.exp_ne_zero _
  have hcw : ∀ t : Nat, Complex.exp (φ * Complex.I) * w ^ t = Complex.exp (((ω * t + φ : ℝ) : ℂ) * Complex.I) := by
    intro t
    rw [hwd, ← Complex.exp_nat_mul, ← Complex.exp_add]
    congr 1
    push_cast
    ring
  have hx : ∀ t : Nat, (Complex.exp (φ * Complex.I) * w ^ t).re = Real.cos (ω * t + φ) := fun t => by
    rw [hcw, Complex.exp_ofReal_mul_I_re]
  have hy : ∀ i, ∃ y : Nat → ℂ, PowerSeries.mk (denom P fun k => (av i k : ℂ)) * PowerSeries.mk y =
      PowerSeries.mk (zext K fun j => (bv i j : ℂ)) * PowerSeries.mk fun t => Complex.exp (φ * Complex.I) * w ^ t := by
    intro i
    obtain ⟨f, hf⟩ := (denom_isUnit P fun k => (av i k : ℂ)).exists_right_inv
    refine ⟨fun n => PowerSeries.coeff n (f * (PowerSeries.mk (zext K fun j => (bv i j : ℂ)) *
      PowerSeries.mk fun t => Complex.exp (φ * Complex.I) * w ^ t)), ?_⟩
    rw [show ∀ F : PowerSeries ℂ, (PowerSeries.mk fun n => PowerSeries.coeff n F) = F from
      fun F => PowerSeries.ext fun n => PowerSeries.coeff_mk _ _, ← mul_assoc, hf, one_mul]
  choose y hy using hy
  have hG : ∀ i, ∃ G : ℝ, ∀ t : Nat, i < B → ‖y i t -
      transferAt K P (fun j => (bv i j : ℂ)) (fun k => (av i k : ℂ)) w * (Complex.exp (φ * Complex.I) * w ^ t)‖ ≤ G * r ^ t := by
    intro i
    by_cases hi : i < B
    · obtain ⟨G, h⟩ := series_response hr0 (hr i hi) hw0 (denAt_stable hwn.ge (hp i hi)) (hy i)
      exact ⟨G, fun t _ => h t⟩
    · exact ⟨0, fun t h => absurd h hi⟩
  choose G hG using hG
  obtain ⟨T, hT⟩ := decay_eventually hr0 hr1 B G hε
  refine ⟨T, fun N form u hN hf hu => ?_⟩
  obtain ⟨y', h, e⟩ := lfilter_series2 hb ha (fun _ t => Real.cos (ω * t + φ)) (faithful_real hf) hB hK hM hN hu
  refine ⟨y', e, fun i t hi ht => lt_of_le_of_lt ?_ (hT i t hi ht)⟩
  have k := series_re (hy i)
  simp only [hx] at k
  rw [series_unique ((h i).trans k.symm)]
  refine le_trans ?_ (hG i t hi)
  generalize transferAt K P (fun j => (bv i j : ℂ)) (fun k => (av i k : ℂ)) w = H
  have e2 : ‖H‖ * Real.cos (ω * t + φ + H.arg) = (H * (Complex.exp (φ * Complex.I) * w ^ t)).re := by
    rw [hcw]
    conv_rhs => rw [← Complex.norm_mul_exp_arg_mul_I H]
    rw [mul_assoc, ← Complex.exp_add, Complex.re_ofReal_mul, ← add_mul, ← Complex.ofReal_add, Complex.exp_ofReal_mul_I_re,
      add_comm H.arg]
  rw [e2, ← Complex.sub_re]
  exact Complex.abs_re_le_norm _

/-- **C64.** The frequency response determines the filter: when the responses of two filters agree at infinitely many points, the
outputs agree on every signal, whatever the orders and unroll factors. -/
theorem C64_determines {B K P K' P' : Nat} {b a b' a' : Tensor ℂ} {bv av bv' av' : Nat → Nat → ℂ} {u u' : Option Int}
    {S : Nat → Set ℂ} (hb : Rows B K b bv) (ha : Rows B P a av) (hb' : Rows B K' b' bv') (ha' : Rows B P' a' av') (hB : 0 < B)
    (hK : 0 < K) (hK' : 0 < K') (hM : 0 < max P (K - 1)) (hM' : 0 < max P' (K' - 1)) (hu : ∀ i, u = some i → 1 ≤ i)
    (hu' : ∀ i, u' = some i → 1 ≤ i) (hS : ∀ i, i < B → (S i).Infinite)
    (h : ∀ i, i < B → ∀ w ∈ S i, w ≠ 0 ∧ denAt P (av i) w ≠ 0 ∧ denAt P' (av' i) w ≠ 0 ∧
      transferAt K P (bv i) (av i) w = transferAt K' P' (bv' i) (av' i) w) (N : Nat) (x : Nat → Nat → ℂ) (hN : 0 < N) :
    lfilter b a (t2 B N x) none .df2 u = lfilter b' a' (t2 B N x) none .df2 u' :=
  (C56_transfer_iff hb ha hb' ha' (Or.inl rfl) (Or.inl rfl) hB hK hK' hM hM' hu hu').2
    (fun i hi => sameTransfer_of_infinite (hS i hi) (h i hi)) N x hN

theorem state_space_full {α : Type} [CommRing α] [StarRing α] {B N M P F : Nat} (A Bm C D x : Nat → Nat → Nat → α) (z : Nat → Nat → α)
    {u : Option Int} (hM : 0 < M) (hN : 0 < N) (hu : ∀ i, u = some i → 1 ≤ i) :
    Lti.stateSpace (t3 B M M A) (t3 B N F x) (some (t3 B M F Bm)) (some (t3 B P M C)) (some (t3 B P F D)) (some (t2 B M z)) u none =
      .ok (t3 B N P fun b t p => ∑ m ∈ Finset.range M, C b p m *
          vecRec M (fun _ => A b) (z b) (fun t k => ∑ f ∈ Finset.range F, Bm b k f * x b t f) t m +
          ∑ f ∈ Finset.range F, D b p f * x b t f,
        some (t2 B M fun b m => vecRec M (fun _ => A b) (z b) (fun t k => ∑ f ∈ Finset.range F, Bm b k f * x b t f) N m)) :=
  Lti.stateSpace_eq (.batched A) (.batchMat F Bm x) (.batchMat P C) (.batchMat P F D x) (.full z) hM hN hu

/-- **C64, `lti.state_space`**: started in the state `s` with `w s = A s + B c`, the model answers `c w^t` by exactly
`(C s + D c) w^t`, and stops in the state `w^N s`. -/
theorem C64_state_space {α : Type} [CommRing α] [StarRing α] {B N M P F : Nat} (A Bm C D : Nat → Nat → Nat → α) (c s : Nat → Nat → α) {w : α}
    {u : Option Int} (hM : 0 < M) (hN : 0 < N) (hu : ∀ i, u = some i → 1 ≤ i)
    (h : ∀ b, b < B → ∀ m, m < M →
      w * s b m = ∑ k ∈ Finset.range M, A b m k * s b k + ∑ f ∈ Finset.range F, Bm b m f * c b f) :
    Lti.stateSpace (t3 B M M A) (t3 B N F fun b t f => c b f * w ^ t) (some (t3 B M F Bm)) (some (t3 B P M C))
        (some (t3 B P F D)) (some (t2 B M s)) u none =
      .ok (t3 B N P fun b t p => (∑ m ∈ Finset.range M, C b p m * s b m + ∑ f ∈ Finset.range F, D b p f * c b f) * w ^ t,
        some (t2 B M fun b m => w ^ N * s b m)) := by
  rw [state_space_full A Bm C D _ s hM hN hu]
  have hv : ∀ b, (fun t k => ∑ f ∈ Finset.range F, Bm b k f * (c b f * w ^ t)) =
      fun t k => (∑ f ∈ Finset.range F, Bm b k f * c b f) * w ^ t := fun b => by
    funext t k; rw [Finset.sum_mul]; exact Finset.sum_congr rfl fun f _ => (mul_assoc _ _ _).symm
  have hs : ∀ b, b < B → ∀ t m, m < M →
      vecRec M (fun _ => A b) (s b) (fun t k => ∑ f ∈ Finset.range F, Bm b k f * (c b f * w ^ t)) t m = w ^ t * s b m :=
    fun b hb t m hm => by
      rw [hv, vecRec_steady (h b hb) t m hm, vecRec_rest (fun m _ => sub_self _) t m hm, add_zero]
  refine ok_pair (t3_congr rfl rfl rfl fun b t p hb _ _ => ?_)
    (congrArg some (t2_congr rfl rfl fun b m hb hm => hs b hb N m hm))
  rw [Finset.sum_congr rfl fun m hm => congrArg (C b p m * ·) (hs b hb t m (Finset.mem_range.1 hm)), add_mul, Finset.sum_mul,
    Finset.sum_mul]
  exact congrArg₂ (· + ·) (Finset.sum_congr rfl fun m _ => by ring) (Finset.sum_congr rfl fun f _ => by ring)

/-- **C64, `lti.state_space`, response.** Eigenvalues inside the unit circle and `|w| ≥ 1`: from any initial state the output comes
arbitrarily close to `(C (w - A)⁻¹ B + D) c w^t` and stays there. -/
theorem C64_state_space_response {B M P F : Nat} (A Bm C D : Nat → Nat → Nat → ℂ) (c z : Nat → Nat → ℂ) {w : ℂ} {ε : ℝ}
    (hM : 0 < M) (hw : 1 ≤ ‖w‖) (hA : ∀ b, b < B → ∀ l, (mat M M (A b)).charpoly.IsRoot l → ‖l‖ < 1) (hε : 0 < ε) :
    ∃ T : Nat, ∀ (N : Nat) (u : Option Int), 0 < N → (∀ i, u = some i → 1 ≤ i) →
      ∃ (y : Nat → Nat → Nat → ℂ) (zf : Tensor ℂ),
        Lti.stateSpace (t3 B M M A) (t3 B N F fun b t f => c b f * w ^ t) (some (t3 B M F Bm)) (some (t3 B P M C))
            (some (t3 B P F D)) (some (t2 B M z)) u none = .ok (t3 B N P y, some zf) ∧
        ∀ b t, b < B → T ≤ t → ∀ p : Fin P, ‖y b t p -
          ((mat P M (C b) * (Matrix.scalar (Fin M) w - mat M M (A b))⁻¹ * mat M F (Bm b) + mat P F (D b)).mulVec (vect F (c b))) p *
            w ^ t‖ < ε := by
  choose! G r hG hr hr1 hb using fun b hb => vecRec_decay (A b) (hA b hb)
  have hs : ∀ b, ∃ s : Nat → ℂ, vect M s = (Matrix.scalar (Fin M) w - mat M M (A b))⁻¹.mulVec ((mat M F (Bm b)).mulVec (vect F (c b))) :=
    fun b => ⟨fun m => if h : m < M then
        (Matrix.scalar (Fin M) w - mat M M (A b))⁻¹.mulVec ((mat M F (Bm b)).mulVec (vect F (c b))) ⟨m, h⟩ else 0,
      funext fun m => by unfold vect; exact dif_pos m.2⟩
  choose s hs using hs
  have h : ∀ b, b < B → ∀ m, m < M →
      w * s b m = ∑ k ∈ Finset.range M, A b m k * s b k + ∑ f ∈ Finset.range F, Bm b m f * c b f := by
    intro b hb m hm
    have hd : IsUnit (Matrix.scalar (Fin M) w - mat M M (A b)).det := by
      rw [← Matrix.eval_charpoly, isUnit_iff_ne_zero]
      exact fun h0 => absurd (hA b hb w h0) (not_lt.2 hw)
    have e := congrArg (Matrix.scalar (Fin M) w - mat M M (A b)).mulVec (hs b)
    rw [Matrix.mulVec_mulVec, Matrix.mul_nonsing_inv _ hd, Matrix.one_mulVec, Matrix.sub_mulVec, ← vect_sum, ← vect_sum,
      sub_eq_iff_eq_add] at e
    have e' := congrFun e ⟨m, hm⟩
    rw [Matrix.scalar_apply, Matrix.mulVec_diagonal] at e'
    rw [add_comm]
    exact e'
  have hZ : ∀ b, ∃ Z : ℝ, 0 ≤ Z ∧ ∀ m, m < M → ‖z b m - s b m‖ ≤ Z := fun b =>
    ⟨∑ m ∈ Finset.range M, ‖z b m - s b m‖, Finset.sum_nonneg fun _ _ => norm_nonneg _, fun m hm =>
      Finset.single_le_sum (f := fun m => ‖z b m - s b m‖) (fun _ _ => norm_nonneg _) (Finset.mem_range.2 hm)⟩
  choose Z hZ0 hZ using hZ
  have hT : ∀ b, ∃ T : Nat, ∀ t, b < B → T ≤ t → (∑ p ∈ Finset.range P, ∑ m ∈ Finset.range M, ‖C b p m‖) * (G b * Z b) * r b ^ t < ε := by
    intro b
    by_cases hbB : b < B
    · have := ((tendsto_pow_atTop_nhds_zero_of_lt_one (hr b hbB) (hr1 b hbB)).const_mul
        ((∑ p ∈ Finset.range P, ∑ m ∈ Finset.range M, ‖C b p m‖) * (G b * Z b))).eventually (gt_mem_nhds (by rwa [mul_zero]))
      obtain ⟨T, h⟩ := Filter.eventually_atTop.1 this
      exact ⟨T, fun t _ ht => h t ht⟩
    · exact ⟨0, fun _ h => absurd h hbB⟩
  choose T hT using hT
  refine ⟨∑ b ∈ Finset.range B, T b, fun N u hN hu => ⟨_, _,
    state_space_full A Bm C D _ z hM hN hu, fun b t hbB ht p => ?_⟩⟩
  have hv : (fun t k => ∑ f ∈ Finset.range F, Bm b k f * (c b f * w ^ t)) =
      fun t k => (∑ f ∈ Finset.range F, Bm b k f * c b f) * w ^ t := by
    funext t k; rw [Finset.sum_mul]; exact Finset.sum_congr rfl fun f _ => (mul_assoc _ _ _).symm
  have hH : ((mat P M (C b) * (Matrix.scalar (Fin M) w - mat M M (A b))⁻¹ * mat M F (Bm b) + mat P F (D b)).mulVec (vect F (c b))) p =
      ∑ m ∈ Finset.range M, C b p m * s b m + ∑ f ∈ Finset.range F, D b p f * c b f := by
    rw [Matrix.add_mulVec, ← Matrix.mulVec_mulVec, ← Matrix.mulVec_mulVec, ← hs b, ← vect_sum, ← vect_sum]
    rfl
  refine lt_of_le_of_lt ?_ (hT b t hbB ((Finset.single_le_sum (f := T) (fun _ _ => Nat.zero_le _) (Finset.mem_range.2 hbB)).trans ht))
  rw [hH]
  rw [hv, Finset.sum_congr rfl fun m hm => congrArg (C b p m * ·) (vecRec_steady (z := z b) (h b hbB) t m (Finset.mem_range.1 hm))]
  have e : (∑ m ∈ Finset.range M, C b p m * (w ^ t * s b m + vecRec M (fun _ => A b) (fun m => z b m - s b m) (fun _ _ => 0) t m) +
      ∑ f ∈ Finset.range F, D b p f * (c b f * w ^ t)) -
      (∑ m ∈ Finset.range M, C b p m * s b m + ∑ f ∈ Finset.range F, D b p f * c b f) * w ^ t =
      ∑ m ∈ Finset.range M, C b p m * vecRec M (fun _ => A b) (fun m => z b m - s b m) (fun _ _ => 0) t m := by
    simp only [mul_add, Finset.sum_add_distrib, add_mul, Finset.sum_mul]
    rw [Finset.sum_congr rfl fun m _ => show C b p m * (w ^ t * s b m) = C b p m * s b m * w ^ t by ring,
      Finset.sum_congr rfl fun f _ => show D b p f * (c b f * w ^ t) = D b p f * c b f * w ^ t by ring]
    ring
  rw [e]
  refine (norm_sum_le _ _).trans ?_
  have hbd : ∀ m ∈ Finset.range M, ‖C b p m * vecRec M (fun _ => A b) (fun m => z b m - s b m) (fun _ _ => 0) t m‖ ≤
      ‖C b p m‖ * (G b * Z b * r b ^ t) := by
    intro m hm
    rw [norm_mul]
    refine mul_le_mul_of_nonneg_left ((hb b hbB _ (fun _ _ => 0) (Z b) 0 (hZ b) (fun _ _ _ => by simp) (hZ0 b) le_rfl t m
      (Finset.mem_range.1 hm)).trans (le_of_eq (by ring))) (norm_nonneg _)
  refine (Finset.sum_le_sum hbd).trans ?_
  rw [← Finset.sum_mul, mul_assoc (∑ p ∈ Finset.range P, ∑ m ∈ Finset.range M, ‖C b p m‖)]
  refine mul_le_mul_of_nonneg_right ?_ (mul_nonneg (mul_nonneg (hG b hbB) (hZ0 b)) (pow_nonneg (hr b hbB) t))
  exact Finset.single_le_sum (f := fun p => ∑ m ∈ Finset.range M, ‖C b p m‖) (fun _ _ => Finset.sum_nonneg fun _ _ => norm_nonneg _)
    (Finset.mem_range.2 p.2)

/-- **C64, `lti.comb_filter`**: started in the past `g c w^{-1-m}`, where `g (1 + a w^{-D}) = 1`, a comb filter answers `c w^t`
by `g c w^t`. -/
theorem C64_comb_filter {B N D : Nat} {a zi : Tensor ℂ} {av g : Nat → ℂ} {w c : ℂ} {u : Int} (ha : PerItem B a av)
    (hz : Past B D (some zi) fun i m => g i * c * w⁻¹ ^ (m + 1)) (hD : 2 ≤ D) (hN : D ≤ N) (hu : 1 ≤ u) (hw : w ≠ 0)
    (hg : ∀ i, i < B → g i * (1 + av i * w⁻¹ ^ D) = 1) :
    Lti.combFilter true a D (t2 B N fun _ t => c * w ^ t) (some zi) u =
      .ok (t2 B N fun i t => g i * (c * w ^ t), some (t2 B D fun i m => w ^ N * (g i * c * w⁻¹ ^ (m + 1)))) := by
  obtain ⟨y, h1, h2, e⟩ := C19_with_state_partial (fun _ t => c * w ^ t) ha hz hD hN hu
  have h3 : ∀ i, i < B → ∀ n : Nat, y i ((n : Int) - D) = g i * c * w ^ ((n : Int) - D) := by
    intro i hi n
    induction n using Nat.strong_induction_on with
    | _ n ih =>
      by_cases hn : (n : Int) - D < 0
      · rw [show (n : Int) - D = -1 - ((D - 1 - n : Nat) : Int) by omega, h1,
          show (-1 - ((D - 1 - n : Nat) : Int)) = -((D - 1 - n + 1 : Nat) : Int) by push_cast; ring, zpow_neg, zpow_natCast, inv_pow]
      · rw [show (n : Int) - D = ((n - D : Nat) : Int) by omega, h2, ih (n - D) (by omega), zpow_sub₀ hw, zpow_natCast, zpow_natCast]
        have := hg i hi
        rw [inv_pow] at this
        calc c * w ^ (n - D) - av i * (g i * c * (w ^ (n - D) / w ^ D))
            = c * w ^ (n - D) * (1 - g i * (av i * (w ^ D)⁻¹)) := by rw [div_eq_mul_inv]; ring
          _ = g i * c * w ^ (n - D) := by rw [show 1 - g i * (av i * (w ^ D)⁻¹) = g i by linear_combination -this]; ring
  have h4 : ∀ i, i < B → ∀ n : Int, -D ≤ n → y i n = g i * c * w ^ n := by
    intro i hi n hn
    have := h3 i hi (n + D).toNat
    rwa [show (((n + D).toNat : Nat) : Int) - D = n by omega] at this
  rw [e]
  refine ok_pair (t2_congr rfl rfl fun i t hi _ => ?_) (congrArg some (t2_congr rfl rfl fun i m hi hm => ?_))
  · rw [h4 i hi _ (by omega), zpow_natCast, mul_assoc]
  · rw [h4 i hi _ (by omega), show (N : Int) - 1 - m = N - ((m + 1 : Nat) : Int) by push_cast; ring, zpow_sub₀ hw, zpow_natCast,
      zpow_natCast, inv_pow, div_eq_mul_inv]
    ring

/-! ## Instances -/

/-- `y_n = x_n + x_{n-1} + y_{n-1}/2` at `w = 2`: started from `zi = 2/3` it doubles the signal `1, 2, 4, …` exactly. -/
example : lfilter (t1 2 fun _ => (1 : ℂ)) (t1 1 fun _ => -(1 / 2)) (t2 1 5 fun _ t => 2 ^ t) (some (t1 1 fun _ => 2 / 3)) .df2 none =
    .ok (t2 1 5 fun _ t => 2 * 2 ^ t, some (t2 1 1 fun _ _ => 2 ^ 5 * (2 / 3))) := by
  have hd : denAt 1 (fun _ => -(1 / 2 : ℂ)) 2 = 3 / 4 := by
    rw [denAt, Finset.sum_range_one]; norm_num
  have k := C64_steady (B := 1) (N := 5) (K := 2) (P := 1) (w := 2) (c := 1) (u := none) (zi := t1 1 fun _ => 2 / 3)
    (.shared fun _ => (1 : ℂ)) (.shared fun _ => -(1 / 2 : ℂ)) (by
      rw [show (t1 1 fun _ => (2 / 3 : ℂ)) = t1 (max 1 (2 - 1)) fun m => 1 / denAt 1 (fun _ => -(1 / 2 : ℂ)) 2 * 2⁻¹ ^ (m + 1) from
        t1_congr rfl fun m hm => by
          obtain rfl : m = 0 := by omega
          rw [hd]; norm_num]
      exact .shared _) (by decide) (by decide) (by decide) (by simp) (by norm_num) (fun i _ => by rw [hd]; norm_num)
  simp only [one_mul] at k
  refine k.trans (ok_pair (t2_congr rfl rfl fun i t _ _ => ?_) (congrArg some (t2_congr rfl rfl fun i m _ hm => ?_)))
  · rw [transferAt, hd, Finset.sum_range_succ, Finset.sum_range_one]; norm_num
  · obtain rfl : m = 0 := by omega
    rw [hd]; norm_num

/-- `y_n = x_n + y_{n-1}/2` scales the alternating signal by 2/3, up to a transient. -/
example (ε : ℝ) (hε : 0 < ε) : ∃ T : Nat, ∀ (N : Nat) (form : Form), 0 < N → form ≠ .other →
    ∃ y : Nat → Nat → ℝ, lfilter (t1 1 fun _ => 1) (t1 1 fun _ => -(1 / 2)) (t2 3 N fun _ t => Real.cos (Real.pi * t + 0)) none form none =
      .ok (t2 3 N y, none) ∧ ∀ i t, i < 3 → T ≤ t → |y i t - 2 / 3 * Real.cos (Real.pi * t)| < ε := by
  have hp : poles 1 (fun _ => ((-(1 / 2) : ℝ) : ℂ)) = {1 / 2} := by
    rw [← poles_one]; congr 1; funext _; push_cast; rfl
  have hH : transferAt 1 1 (fun _ => ((1 : ℝ) : ℂ)) (fun _ => ((-(1 / 2) : ℝ) : ℂ)) (Complex.exp (Real.pi * Complex.I)) = ((2 / 3 : ℝ) : ℂ) := by
    rw [Complex.exp_pi_mul_I, transferAt, denAt, Finset.sum_range_one, Finset.sum_range_one]
    push_cast
    norm_num
  obtain ⟨T, hT⟩ := C64_cosine (B := 3) (K := 1) (P := 1) (ω := Real.pi) (φ := 0) (ε := ε) (.shared fun _ => (1 : ℝ))
    (.shared fun _ => (-(1 / 2) : ℝ)) (by decide) (by decide) (by decide)
    (fun i _ p h => by rw [hp, Multiset.mem_singleton] at h; rw [h]; norm_num) hε
  refine ⟨T, fun N form hN hf => ?_⟩
  obtain ⟨y, e, h⟩ := hT N form none hN hf (by simp)
  refine ⟨y, e, fun i t hi ht => ?_⟩
  have := h i t hi ht
  rw [hH, Complex.norm_real, Complex.arg_ofReal_of_nonneg (by norm_num), Real.norm_of_nonneg (by norm_num)] at this
  simpa using this

/-- `1/(1 - 1/(2z))` and `(1 + 0/z)/(1 - 1/(2z))` meet the hypotheses of `C64_determines`. -/
example (N : Nat) (x : Nat → Nat → ℂ) (hN : 0 < N) :
    lfilter (t1 1 fun _ => 1) (t1 1 fun _ => -(1 / 2)) (t2 2 N x) none .df2 none =
      lfilter (t1 2 fun j => if j = 0 then 1 else 0) (t1 1 fun _ => -(1 / 2)) (t2 2 N x) none .df2 none := by
  refine C64_determines (B := 2) (K := 1) (P := 1) (K' := 2) (P' := 1) (S := fun _ => {0, 1 / 2}ᶜ) (.shared fun _ => (1 : ℂ))
    (.shared fun _ => (-(1 / 2) : ℂ)) (.shared fun j => if j = 0 then (1 : ℂ) else 0) (.shared fun _ => (-(1 / 2) : ℂ))
    (by decide) (by decide) (by decide) (by decide) (by decide) (by simp) (by simp)
    (fun _ _ => (Set.toFinite _).infinite_compl) (fun i _ w hw => ?_) N x hN
  simp only [Set.mem_compl_iff, Set.mem_insert_iff, Set.mem_singleton_iff, not_or] at hw
  have hd : denAt 1 (fun _ => -(1 / 2 : ℂ)) w ≠ 0 :=
    denAt_ne_zero hw.1 (by rw [poles_one]; simpa using hw.2)
  refine ⟨hw.1, hd, hd, ?_⟩
  rw [transferAt, transferAt, Finset.sum_range_one, Finset.sum_range_succ, Finset.sum_range_one]
  simp

/-- An integrator with feedthrough at `w = 3`: `h_{t+1} = h_t + x_t`, `y_t = 4 h_t + x_t`, from `h_0 = 1` on `x_t = 2·3^t`. -/
example : Lti.stateSpace (t3 1 1 1 fun _ _ _ => (1 : ℤ)) (t3 1 6 1 fun _ t _ => 2 * 3 ^ t) (some (t3 1 1 1 fun _ _ _ => 1))
    (some (t3 1 1 1 fun _ _ _ => 4)) (some (t3 1 1 1 fun _ _ _ => 1)) (some (t2 1 1 fun _ _ => 1)) (some 2) none =
    .ok (t3 1 6 1 fun _ t _ => (4 * 1 + 1 * 2) * 3 ^ t, some (t2 1 1 fun _ _ => 3 ^ 6 * 1)) := by
  have k := C64_state_space (B := 1) (N := 6) (M := 1) (P := 1) (F := 1) (w := (3 : ℤ)) (u := some 2) (fun _ _ _ => 1)
    (fun _ _ _ => 1) (fun _ _ _ => 4) (fun _ _ _ => 1) (fun _ _ => 2) (fun _ _ => 1) (by decide) (by decide) (by simp) (by simp)
  simpa only [Finset.sum_range_one] using k

/-- `h_{t+1} = h_t/2 + x_t`, `y_t = h_t` on the constant signal 1: whatever the initial state, the output tends to 2. -/
example (z : Nat → Nat → ℂ) : ∃ T : Nat, ∀ (N : Nat) (u : Option Int), 0 < N → (∀ i, u = some i → 1 ≤ i) →
    ∃ (y : Nat → Nat → Nat → ℂ) (zf : Tensor ℂ),
      Lti.stateSpace (t3 2 1 1 fun _ _ _ => (1 / 2 : ℂ)) (t3 2 N 1 fun _ t _ => 1 * 1 ^ t) (some (t3 2 1 1 fun _ _ _ => 1))
        (some (t3 2 1 1 fun _ _ _ => 1)) (some (t3 2 1 1 fun _ _ _ => 0)) (some (t2 2 1 z)) u none = .ok (t3 2 N 1 y, some zf) ∧
      ∀ b t, b < 2 → T ≤ t → ‖y b t 0 - 2‖ < 1 / 1000 := by
  obtain ⟨T, h⟩ := C64_state_space_response (B := 2) (M := 1) (P := 1) (F := 1) (w := 1) (ε := 1 / 1000) (fun _ _ _ => 1 / 2)
    (fun _ _ _ => 1) (fun _ _ _ => 1) (fun _ _ _ => 0) (fun _ _ => 1) z (by decide) (by norm_num) (fun _ _ l h => by
      rw [Polynomial.IsRoot, Matrix.eval_charpoly, Matrix.det_fin_one] at h
      simp only [Matrix.sub_apply, Matrix.scalar_apply, Matrix.diagonal_apply_eq, mat, Matrix.of_apply] at h
      rw [sub_eq_zero.1 h]
      norm_num) (by norm_num)
  refine ⟨T, fun N u hN hu => ?_⟩
  obtain ⟨y, zf, e, hy⟩ := h N u hN hu
  refine ⟨y, zf, e, fun b t hb ht => ?_⟩
  have k := hy b t hb ht 0
  have e2 : ((mat 1 1 (fun _ _ => (1 : ℂ)) * (Matrix.scalar (Fin 1) 1 - mat 1 1 fun _ _ => 1 / 2)⁻¹ * mat 1 1 (fun _ _ => 1) +
      mat 1 1 fun _ _ => 0).mulVec (vect 1 fun _ => 1)) 0 = 2 := by
    simp [Matrix.inv_subsingleton, Matrix.mulVec, dotProduct, mat, vect, Matrix.mul_apply]
    norm_num
  rw [e2, one_pow, mul_one] at k
  exact k

/-- A comb filter with delay 2 at `w = 2`: `y_n = x_n + 2 y_{n-2}` doubles `1, 2, 4, …`. -/
example : Lti.combFilter true (t1 1 fun _ => (-2 : ℂ)) 2 (t2 1 4 fun _ t => 1 * 2 ^ t) (some (t1 2 fun m => 2 * 1 * 2⁻¹ ^ (m + 1))) 1 =
    .ok (t2 1 4 fun _ t => 2 * (1 * 2 ^ t), some (t2 1 2 fun _ m => 2 ^ 4 * (2 * 1 * 2⁻¹ ^ (m + 1)))) :=
  C64_comb_filter (B := 1) (D := 2) (g := fun _ => 2) (PerItem.full fun _ => (-2 : ℂ)) (Past.shared fun m => 2 * 1 * 2⁻¹ ^ (m + 1))
    (by decide) (by decide) (by decide) (by norm_num) (fun _ _ => by norm_num)

end Props
