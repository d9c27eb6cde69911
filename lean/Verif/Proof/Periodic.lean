import Verif.Props.C58
import Verif.Props.C64
import Verif.Props.C74
import Verif.Proof.Bezout
import Mathlib.LinearAlgebra.FiniteDimensional.Basic
import Mathlib.Analysis.SpecificLimits.Basic

/-! Filters and periodic signals: the state that returns after one period. -/

namespace Spec
open Torch Torch.Tensor Phil Props

section ring
variable {α : Type} [CommRing α]

theorem tdf2State_congr {M : Nat} {b a z z' x x' : Nat → α} {t : Nat} (hz : ∀ m, m < M → z m = z' m) (hx : ∀ s, s < t → x s = x' s)
    {m : Nat} (hm : m < M) : tdf2State M b a z x t m = tdf2State M b a z' x' t m :=
  vecRec_congr hz (fun _ _ _ _ _ _ => rfl) (fun s hs i _ => by rw [hx s hs]) hm

theorem tdf2Out_congr {M : Nat} (hM : 0 < M) {b a z z' x : Nat → α} (hz : ∀ m, m < M → z m = z' m) (t : Nat) :
    tdf2Out M b a z x t = tdf2Out M b a z' x t := by
  unfold tdf2Out
  rw [tdf2State_congr hz (fun _ _ => rfl) hM]

/-- The output is periodic if the state returns after one period. -/
theorem tdf2_periodic {M L : Nat} (hM : 0 < M) {b a z x : Nat → α} (hx : ∀ t, x (t + L) = x t)
    (hz : ∀ m, m < M → tdf2State M b a z x L m = z m) (t : Nat) : tdf2Out M b a z x (t + L) = tdf2Out M b a z x t := by
  have := tdf2Out_shift (M := M) b a z x L t
  rw [Nat.add_comm t L, ← this, show (fun t => x (L + t)) = x from funext fun t => by rw [Nat.add_comm, hx]]
  exact tdf2Out_congr hM hz t

theorem tdf2Out_zero (M : Nat) (b a : Nat → α) (t : Nat) : tdf2Out M b a (fun _ => 0) (fun _ => 0) t = 0 := by
  have := tdf2Out_linear M b a (-1) (fun _ => 0) (fun _ => 0) (fun _ => 0) (fun _ => 0) t
  simpa using this

end ring

/-- Two states make outputs whose difference decays. -/
theorem tdf2_forget {K P : Nat} {b a : Nat → ℝ} {r : ℝ} (hK : 0 < K) (hM : 0 < max P (K - 1)) (hr : 0 < r)
    (hp : ∀ p ∈ poles P (fun k => (a k : ℂ)), ‖p‖ < r) (z z' x : Nat → ℝ) :
    ∃ G : ℝ, ∀ t, |tdf2Out (max P (K - 1)) (zext K b) (zext P a) z x t - tdf2Out (max P (K - 1)) (zext K b) (zext P a) z' x t| ≤ G * r ^ t := by
  obtain ⟨G, h⟩ := C58_lfilter_forgets_real (B := 1) (form := .tdf2) (x := fun _ => x) (.shared b) (.shared a) (.shared z) (.shared z')
    (Or.inr rfl) hK hM hr (fun _ _ => hp)
  refine ⟨G 0, fun t => ?_⟩
  obtain ⟨y, y', zf, zf', e, e', k⟩ := h (t + 1) none (by omega) (by simp)
  have f := Lti.lfilter_tdf2 (u := none) (.shared b) (.shared a) (.batched 1 fun _ => x) (InitState.shared z) hK hM (by omega : 0 < t + 1) (by simp)
  have f' := Lti.lfilter_tdf2 (u := none) (.shared b) (.shared a) (.batched 1 fun _ => x) (InitState.shared z') hK hM (by omega : 0 < t + 1) (by simp)
  simp only [star_trivial, packed_batch] at f f'
  have g := congrArg (fun T : Tensor ℝ => T.get [0, t]) (congrArg Prod.fst (Except.ok.inj (f.symm.trans e)))
  have g' := congrArg (fun T : Tensor ℝ => T.get [0, t]) (congrArg Prod.fst (Except.ok.inj (f'.symm.trans e')))
  dsimp only at g g'
  rw [get_t2 (by decide) (by omega), get_t2 (by decide) (by omega)] at g g'
  rw [g, g']
  exact k 0 t (by decide)

/-- A stable filter has exactly one state that returns after one period of a periodic signal. -/
theorem tdf2_returning {K P L : Nat} {b a : Nat → ℝ} (hK : 0 < K) (hM : 0 < max P (K - 1)) (hL : 0 < L)
    (hp : ∀ p ∈ poles P (fun k => (a k : ℂ)), ‖p‖ < 1) (x : Nat → ℝ) :
    ∃ z : Nat → ℝ, (∀ m, m < max P (K - 1) → tdf2State (max P (K - 1)) (zext K b) (zext P a) z x L m = z m) ∧
      ∀ z' : Nat → ℝ, (∀ m, m < max P (K - 1) → tdf2State (max P (K - 1)) (zext K b) (zext P a) z' x L m = z' m) →
        ∀ m, m < max P (K - 1) → z' m = z m := by
  set M := max P (K - 1) with hMd
  -- no state but 0 returns without input
  have inj : ∀ d : Nat → ℝ, (∀ m, m < M → tdf2State M (zext K b) (zext P a) d (fun _ => 0) L m = d m) → ∀ m, m < M → d m = 0 := by
    intro d hd m hm
    obtain ⟨r, hr0, hr1, hr⟩ := common_rate (B := 1) (P := P) (av := fun _ k => (a k : ℂ)) fun _ _ => hp
    obtain ⟨G, hG⟩ := tdf2_forget (b := b) hK hM hr0 (hr 0 (by decide)) d (fun _ => 0) (fun _ => 0)
    rw [← hMd] at hG
    simp only [tdf2Out_zero, sub_zero] at hG
    have hper : ∀ k t, tdf2Out M (zext K b) (zext P a) d (fun _ => 0) (t + k * L) = tdf2Out M (zext K b) (zext P a) d (fun _ => 0) t := by
      intro k t
      induction k with
      | zero => simp
      | succ k ih => rw [← ih, ← tdf2_periodic hM (fun _ => rfl) hd (t + k * L)]; congr 1; ring
    have hout : ∀ t, tdf2Out M (zext K b) (zext P a) d (fun _ => 0) t = 0 := by
      intro t
      have lim : Filter.Tendsto (fun k : Nat => G * r ^ (t + k * L)) Filter.atTop (nhds 0) := by
        have h1 := (tendsto_pow_atTop_nhds_zero_of_lt_one hr0.le hr1).comp
          (Filter.tendsto_atTop_mono (fun k : Nat => show k ≤ t + k * L by nlinarith) Filter.tendsto_id)
        simpa using h1.const_mul G
      have := ge_of_tendsto' lim fun k => by
        have := hG (t + k * L)
        rwa [hper] at this
      exact abs_nonpos_iff.1 this
    have := tdf2_observable (M := M) (N := M) (n := 0) (b := zext K b) (a := zext P a) (z := d) (z' := fun _ => 0) (x := fun _ => 0)
      (fun n _ => by rw [hout, tdf2Out_zero]) m hm (by omega)
    exact this
  let ext : (Fin M → ℝ) → Nat → ℝ := fun d k => if h : k < M then d ⟨k, h⟩ else 0
  have hext : ∀ (d : Fin M → ℝ) (m : Fin M), ext d m = d m := fun d m => dif_pos m.2
  let Φ : (Fin M → ℝ) →ₗ[ℝ] (Fin M → ℝ) :=
    { toFun := fun d m => d m - tdf2State M (zext K b) (zext P a) (ext d) (fun _ => 0) L m
      map_add' := fun d d' => by
        funext m
        have h1 := tdf2State_linear M (zext K b) (zext P a) 1 (ext d) (ext d') (fun _ => 0) (fun _ => 0) L m
        have h2 : (fun k => 1 * ext d k + ext d' k) = ext (d + d') := by
          funext k; simp only [ext]; split <;> simp
        simp only [mul_zero, add_zero, one_mul] at h1 h2
        rw [h2] at h1
        simp only [Pi.add_apply]
        rw [h1]; ring
      map_smul' := fun c d => by
        funext m
        have h1 := tdf2State_linear M (zext K b) (zext P a) (c - 1) (ext d) (ext d) (fun _ => 0) (fun _ => 0) L m
        have h2 : (fun k => (c - 1) * ext d k + ext d k) = ext (c • d) := by
          funext k; simp only [ext]; split <;> simp
          ring
        simp only [mul_zero, add_zero] at h1
        rw [h2] at h1
        simp only [Pi.smul_apply, smul_eq_mul, RingHom.id_apply]
        rw [h1]; ring }
  have hinj : Function.Injective Φ := by
    rw [injective_iff_map_eq_zero]
    intro d hd
    funext m
    have := inj (ext d) (fun m hm => by
      have := congrFun hd ⟨m, hm⟩
      have h2 : d ⟨m, hm⟩ - tdf2State M (zext K b) (zext P a) (ext d) (fun _ => 0) L m = 0 := this
      rw [show ext d m = d ⟨m, hm⟩ from dif_pos hm]
      linarith) m m.2
    rw [hext] at this
    exact this
  obtain ⟨d, hd⟩ := (LinearMap.injective_iff_surjective.1 hinj) fun m => tdf2State M (zext K b) (zext P a) (fun _ => 0) x L m
  have split : ∀ z : Nat → ℝ, ∀ m, tdf2State M (zext K b) (zext P a) z x L m =
      tdf2State M (zext K b) (zext P a) z (fun _ => 0) L m + tdf2State M (zext K b) (zext P a) (fun _ => 0) x L m := fun z m => by
    have := tdf2State_linear M (zext K b) (zext P a) 1 z (fun _ => 0) (fun _ => 0) x L m
    simpa using this
  have hfix : ∀ m, m < M → tdf2State M (zext K b) (zext P a) (ext d) x L m = ext d m := fun m hm => by
    have h2 : d ⟨m, hm⟩ - tdf2State M (zext K b) (zext P a) (ext d) (fun _ => 0) L m =
      tdf2State M (zext K b) (zext P a) (fun _ => 0) x L m := congrFun hd ⟨m, hm⟩
    rw [split, ← h2, show ext d m = d ⟨m, hm⟩ from dif_pos hm]
    ring
  refine ⟨ext d, hfix, fun z' hz' m hm => ?_⟩
  have := inj (fun k => -1 * ext d k + z' k) (fun m hm => by
    have h1 := tdf2State_linear M (zext K b) (zext P a) (-1) (ext d) z' (fun _ => 0) (fun _ => 0) L m
    simp only [mul_zero, add_zero] at h1
    rw [h1]
    have h2 := hfix m hm
    have h3 := hz' m hm
    rw [split] at h2 h3
    linarith) m hm
  linarith

end Spec
