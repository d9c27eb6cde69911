import Verif.Proof.FiltfiltStable
import Verif.Props.C20
import Verif.Props.C64

/-!
# C66: forward-backward filtering, stability and response

A filter with its poles inside the unit circle.

* `filtfilt` is bounded by a constant times its input; the constant depends on the filter alone, not on the length, the padding
  mode and length, or the unroll factor (`C66_bounded`, `C66_bounded_real`).
* It answers `c w^t`, `|w| = 1`, by `H(w) H(1/w) c w^t` up to an error that decays geometrically with the distance to either end,
  at a rate and with a constant that depend on the filter and on `w` alone (`C66_response`).
* With real coefficients it answers `cos(ω t + φ)` by `|H(e^{iω})|² cos(ω t + φ)`: the phase is not shifted (`C66_cosine`).
-/

namespace Props
open Torch Torch.Tensor Spec Phil Phil.Lti

theorem rows_clip {α : Type} [Zero α] {B K : Nat} {b : Tensor α} {bv : Nat → Nat → α} (h : Rows B K b bv) :
    Rows B K b fun i => bv (min i (B - 1)) := by
  cases h with
  | shared f => exact .shared f
  | batched =>
    have : t2 B K bv = t2 B K fun i => bv (min i (B - 1)) := t2_congr rfl rfl fun i k hi _ => by
      rw [Nat.min_eq_left (by omega)]
    rw [this]
    exact .batched _

theorem comp_zext {α : Type} [CommRing α] {P j : Nat} (h : j < P) (a : Nat → α) (m : Nat) : comp (zext P a) m j = comp a m j := by
  simp only [comp, zext, if_pos h]

theorem sum_ne_zero_of_stable {P : Nat} {a : Nat → ℂ} (hp : ∀ p ∈ poles P a, ‖p‖ < 1) : 1 + ∑ k ∈ Finset.range P, a k ≠ 0 := by
  have := denAt_stable (w := 1) (by simp) hp
  rwa [denAt, Finset.sum_congr rfl fun k _ => by rw [inv_one, one_pow, mul_one]] at this

theorem poles_conj_lt {P : Nat} {a : Nat → ℂ} (hp : ∀ p ∈ poles P a, ‖p‖ < 1) : ∀ p ∈ poles P (fun k => star (a k)), ‖p‖ < 1 := by
  intro p h
  rw [poles_conj P a (Or.inr rfl)] at h
  obtain ⟨q, hq, rfl⟩ := Multiset.mem_map.1 h
  rw [norm_star]
  exact hp q hq

theorem edge_none {α : Type} [Zero α] {b a : Tensor α} {pm : Option PadMode} {padlen : Option Int} (h : pm = none) :
    (edgeLength b a pm padlen).toNat = 0 := by
  subst h; rfl

theorem ok_decide {α : Type} [Zero α] {X b a : Tensor α} {B N : Nat} {f : Bool} {y : Nat → Nat → α} (hr : f = true ↔ X.rank = 1) :
    packed (f && decide (b.rank = 1 ∧ a.rank = 1)) B N y = packed (decide (X.rank = 1 ∧ b.rank = 1 ∧ a.rank = 1)) B N y := by
  congr 1
  cases f with
  | true => simp [hr.1 rfl]
  | false =>
    have : ¬ X.rank = 1 := fun h => by simpa using hr.2 h
    simp [this]

/-- `filtfilt` of complex numbers as two passes of a state-space model. -/
theorem filtfilt_passes {B K P : Nat} {b a : Tensor ℂ} {bv av : Nat → Nat → ℂ} {form : Form} {g : ℂ → ℂ}
    (hb : Rows B K b bv) (ha : Rows B P a av) (hK : 0 < K)
    (hf : (form = .tdf2 ∧ g = star ∧ 0 < max P (K - 1)) ∨ (form = .df2 ∧ g = id ∧ 0 < P ∧ K ≤ P + 1))
    (hp : ∀ i, ∀ p ∈ poles P (av i), ‖p‖ < 1) :
    ∃ (M : Nat) (A : Nat → Nat → Nat → ℂ) (β γ : Nat → Nat → ℂ) (D : Nat → ℂ) (v : Nat → Nat → ℂ), P ≤ M ∧ K ≤ M + 1 ∧
      (∀ i l, (mat M M (A i)).charpoly.IsRoot l → ‖l‖ < 1) ∧
      (∀ i (z x : Nat → ℂ), ∑ k ∈ Finset.range (P + 1), denom P (fun k => g (av i k)) k * pass M (A i) (β i) (γ i) (D i) z x (M - k) =
        ∑ j ∈ Finset.range K, g (bv i j) * x (M - j)) ∧
      ∀ (N : Nat) (pm : Option PadMode) (padlen : Option Int), edgeLength b a pm padlen < N → 0 < N →
        ∃ ζ : Nat → Nat → ℂ, (∀ i m, m < M → ζ i m = ∑ j ∈ Finset.range M, A i m j * ζ i j + v i m) ∧
          ∀ (X : Tensor ℂ) (x : Nat → Nat → ℂ) (u : Option Int), Sig N B X x → (∀ i, u = some i → 1 ≤ i) →
            filtfilt b a X pm padlen form u = .ok (packed (decide (X.rank = 1 ∧ b.rank = 1 ∧ a.rank = 1)) B N fun i =>
              twice (fun x => pass M (A i) (β i) (γ i) (D i) (fun m => ζ i m * x 0) x) pm N (edgeLength b a pm padlen).toNat (x i)) := by
  rcases hf with ⟨rfl, rfl, hM⟩ | ⟨rfl, rfl, hP, hKP⟩
  · refine ⟨max P (K - 1), fun i m j => comp (zext P fun k => star (av i k)) j m,
      fun i m => zext K (fun k => star (bv i k)) (m + 1) - zext K (fun k => star (bv i k)) 0 * zext P (fun k => star (av i k)) m,
      fun i m => if m = 0 then 1 else 0, fun i => zext K (fun k => star (bv i k)) 0,
      fun i m => zext K (bv i) (m + 1) - zext K (bv i) 0 * zext P (av i) m, by omega, by omega,
      fun i l => comp_eigen_transpose (by omega) (poles_conj_lt (hp i)), fun i z x => ?_, fun N pm padlen he hN => ?_⟩
    · have h := tdf2_interior (K := K) (P := P) (n := max P (K - 1)) hM (by omega) (by omega) (fun k => star (bv i k)) (fun k => star (av i k)) z x le_rfl
      simp only [tdf2_pass hM] at h
      exact h
    · obtain ⟨z, h, hF⟩ := filtfilt_tdf2 hb ha hK hM (fun i => by
        simpa only [Finset.sum_congr rfl] using sum_ne_zero_of_stable (poles_conj_lt (hp i))) he hN
      refine ⟨z, fun i m hm => ?_, fun X x u hX hu => ?_⟩
      · have := h i m hm
        rwa [zext_star] at this
      · obtain ⟨f, hf, rfl, hr⟩ := sig_eq_packed hX
        rw [hF hf hu, ok_decide hr]
        refine congrArg Except.ok (congrArg _ (funext fun i => ?_))
        simp only [zext_star]
        congr 1
        funext x n
        exact tdf2_pass hM _ _ _ x n
  · refine ⟨P, fun i => comp (zext P (av i)), fun i m => if m = 0 then 1 else 0,
      fun i m => zext K (bv i) (m + 1) - zext K (bv i) 0 * zext P (av i) m, fun i => zext K (bv i) 0,
      fun i m => if m = 0 then 1 else 0, le_rfl, hKP,
      fun i l => comp_eigen le_rfl (hp i), fun i z x => ?_, fun N pm padlen he hN => ?_⟩
    · have h := df2_interior (K := K) (P := P) (M := P) (n := P) hP hKP le_rfl (bv i) (av i) z x le_rfl
      simp only [df2_pass hP hKP] at h
      exact h
    · obtain ⟨z, h, hF⟩ := filtfilt_df2 hb ha hK hP hKP (fun i => sum_ne_zero_of_stable (hp i)) he hN
      refine ⟨z, fun i m hm => ?_, fun X x u hX hu => ?_⟩
      · rw [h i m hm]
        exact congrArg (· + _) (Finset.sum_congr rfl fun j hj => by beta_reduce; rw [comp_zext (Finset.mem_range.1 hj)])
      · obtain ⟨f, hf, rfl, hr⟩ := sig_eq_packed hX
        rw [hF hf hu, ok_decide hr]
        refine congrArg Except.ok (congrArg _ (funext fun i => ?_))
        congr 1
        funext x n
        exact df2_pass hP hKP _ _ _ x n

/-- `filtfilt` of real numbers as the real part of two complex passes. -/
theorem filtfilt_passes_real {B K P : Nat} {b a : Tensor ℝ} {bv av : Nat → Nat → ℝ} {form : Form}
    (hb : Rows B K b bv) (ha : Rows B P a av) (hK : 0 < K)
    (hf : (form = .tdf2 ∧ 0 < max P (K - 1)) ∨ (form = .df2 ∧ 0 < P ∧ K ≤ P + 1))
    (hp : ∀ i, ∀ p ∈ poles P (fun k => (av i k : ℂ)), ‖p‖ < 1) :
    ∃ (M : Nat) (A : Nat → Nat → Nat → ℂ) (β γ : Nat → Nat → ℂ) (D : Nat → ℂ) (v : Nat → Nat → ℂ), P ≤ M ∧ K ≤ M + 1 ∧
      (∀ i l, (mat M M (A i)).charpoly.IsRoot l → ‖l‖ < 1) ∧
      (∀ i (z x : Nat → ℂ), ∑ k ∈ Finset.range (P + 1), denom P (fun k => (av i k : ℂ)) k * pass M (A i) (β i) (γ i) (D i) z x (M - k) =
        ∑ j ∈ Finset.range K, (bv i j : ℂ) * x (M - j)) ∧
      ∀ (N : Nat) (pm : Option PadMode) (padlen : Option Int), edgeLength b a pm padlen < N → 0 < N →
        ∃ ζ : Nat → Nat → ℂ, (∀ i m, m < M → ζ i m = ∑ j ∈ Finset.range M, A i m j * ζ i j + v i m) ∧
          ∀ (X : Tensor ℝ) (x : Nat → Nat → ℂ) (u : Option Int), Sig N B X (fun i t => (x i t).re) → (∀ i, u = some i → 1 ≤ i) →
            filtfilt b a X pm padlen form u = .ok (packed (decide (X.rank = 1 ∧ b.rank = 1 ∧ a.rank = 1)) B N fun i t =>
              (twice (fun x => pass M (A i) (β i) (γ i) (D i) (fun m => ζ i m * x 0) x) pm N (edgeLength b a pm padlen).toNat (x i) t).re) := by
  have hs : ∀ i, 1 + ∑ k ∈ Finset.range P, av i k ≠ 0 := fun i h => by
    refine sum_ne_zero_of_stable (hp i) ?_
    exact_mod_cast h
  rcases hf with ⟨rfl, hM⟩ | ⟨rfl, hP, hKP⟩
  · refine ⟨max P (K - 1), fun i m j => comp (zext P fun k => (av i k : ℂ)) j m,
      fun i m => zext K (fun k => (bv i k : ℂ)) (m + 1) - zext K (fun k => (bv i k : ℂ)) 0 * zext P (fun k => (av i k : ℂ)) m,
      fun i m => if m = 0 then 1 else 0, fun i => zext K (fun k => (bv i k : ℂ)) 0,
      fun i m => zext K (fun k => (bv i k : ℂ)) (m + 1) - zext K (fun k => (bv i k : ℂ)) 0 * zext P (fun k => (av i k : ℂ)) m, by omega, by omega,
      fun i l => comp_eigen_transpose (by omega) (hp i), fun i z x => ?_, fun N pm padlen he hN => ?_⟩
    · have h := tdf2_interior (K := K) (P := P) (n := max P (K - 1)) hM (by omega) (by omega) (fun k => (bv i k : ℂ)) (fun k => (av i k : ℂ)) z x le_rfl
      simp only [tdf2_pass hM] at h
      exact h
    · obtain ⟨z, h, hF⟩ := filtfilt_tdf2 hb ha hK hM (fun i => hs i) he hN
      refine ⟨fun i m => (z i m : ℂ), fun i m hm => ?_, fun X x u hX hu => ?_⟩
      · have := congrArg (fun r : ℝ => (r : ℂ)) (h i m hm)
        simp only [zext_ofReal, comp_ofReal]
        push_cast at this
        exact this
      · obtain ⟨f, hf, rfl, hr⟩ := sig_eq_packed hX
        rw [hF hf hu, ok_decide hr]
        refine congrArg Except.ok (congrArg _ (funext fun i => funext fun t => ?_))
        refine twice_re (fun x n => ?_) _ _ _ (x i) t
        rw [← tdf2_pass hM, zext_ofReal, zext_ofReal, tdf2_re]
        rfl
  · refine ⟨P, fun i => comp (zext P fun k => (av i k : ℂ)), fun i m => if m = 0 then 1 else 0,
      fun i m => zext K (fun k => (bv i k : ℂ)) (m + 1) - zext K (fun k => (bv i k : ℂ)) 0 * zext P (fun k => (av i k : ℂ)) m,
      fun i => zext K (fun k => (bv i k : ℂ)) 0,
      fun i m => if m = 0 then 1 else 0, le_rfl, hKP,
      fun i l => comp_eigen le_rfl (hp i), fun i z x => ?_, fun N pm padlen he hN => ?_⟩
    · have h := df2_interior (K := K) (P := P) (M := P) (n := P) hP hKP le_rfl (fun k => (bv i k : ℂ)) (fun k => (av i k : ℂ)) z x le_rfl
      simp only [df2_pass hP hKP] at h
      exact h
    · obtain ⟨z, h, hF⟩ := filtfilt_df2 hb ha hK hP hKP hs he hN
      refine ⟨fun i m => (z i m : ℂ), fun i m hm => ?_, fun X x u hX hu => ?_⟩
      · have := congrArg (fun r : ℝ => (r : ℂ)) (h i m hm)
        push_cast at this
        beta_reduce
        rw [this]
        refine congrArg₂ (· + ·) (Finset.sum_congr rfl fun j hj => ?_) (by split <;> simp)
        rw [comp_zext (Finset.mem_range.1 hj), comp_ofReal]
      · obtain ⟨f, hf, rfl, hr⟩ := sig_eq_packed hX
        rw [hF hf hu, ok_decide hr]
        refine congrArg Except.ok (congrArg _ (funext fun i => funext fun t => ?_))
        refine twice_re (fun x n => ?_) _ _ _ (x i) t
        rw [← df2_pass hP hKP, zext_ofReal, df2_re]

theorem sig_cut {α : Type} [Zero α] {B N : Nat} {X : Tensor α} {x : Nat → Nat → α} (h : Sig N B X x) :
    Sig N B X fun i t => if t < N then x i t else 0 := by
  cases h with
  | flat x =>
    have e : t1 N x = t1 N fun t => if t < N then x t else 0 := t1_congr rfl fun t ht => by rw [if_pos ht]
    rw [e]
    exact .flat fun t => if t < N then x t else 0
  | batched =>
    have e : t2 B N x = t2 B N fun i t => if t < N then x i t else 0 := t2_congr rfl rfl fun i t hi ht => by rw [if_pos ht]
    rw [e]
    exact .batched _ _

/-- **C66, stability**, complex numbers. -/
theorem C66_bounded {B K P : Nat} {b a : Tensor ℂ} {bv av : Nat → Nat → ℂ} {form : Form}
    (hb : Rows B K b bv) (ha : Rows B P a av) (hB : 0 < B) (hK : 0 < K)
    (hf : (form = .tdf2 ∧ 0 < max P (K - 1)) ∨ (form = .df2 ∧ 0 < P ∧ K ≤ P + 1))
    (hp : ∀ i, i < B → ∀ p ∈ poles P (av i), ‖p‖ < 1) :
    ∃ G : ℝ, ∀ (N : Nat) (pm : Option PadMode) (padlen : Option Int) (X : Tensor ℂ) (x : Nat → Nat → ℂ) (S : ℝ) (u : Option Int),
      0 < N → documentedPadding K P pm.isSome padlen < N → (∀ i, u = some i → 1 ≤ i) → Sig N B X x →
      (∀ i t, i < B → t < N → ‖x i t‖ ≤ S) → ∃ y : Nat → Nat → ℂ,
        filtfilt b a X pm padlen form u = .ok (packed (decide (X.rank = 1 ∧ b.rank = 1 ∧ a.rank = 1)) B N y) ∧
        ∀ i t, i < B → t < N → ‖y i t‖ ≤ G * S := by
  obtain ⟨g, hg⟩ : ∃ g : ℂ → ℂ, (form = .tdf2 ∧ g = star ∧ 0 < max P (K - 1)) ∨ (form = .df2 ∧ g = id ∧ 0 < P ∧ K ≤ P + 1) := by
    rcases hf with ⟨rfl, h⟩ | ⟨rfl, h⟩
    · exact ⟨star, Or.inl ⟨rfl, rfl, h⟩⟩
    · exact ⟨id, Or.inr ⟨rfl, rfl, h⟩⟩
  obtain ⟨M, A, β, γ, D, v, -, -, hA, -, hF⟩ := filtfilt_passes (rows_clip hb) (rows_clip ha) hK hg (fun i => hp _ (by omega))
  have hG := fun i => twice_bounded (hA i) (β i) (γ i) (D i) (v i)
  choose G hG0 hG using hG
  refine ⟨∑ i ∈ Finset.range B, G i, fun N pm padlen X x S u hN he hu hX hx => ?_⟩
  rw [← C20_padding hb ha] at he
  obtain ⟨ζ, hζ, h⟩ := hF N pm padlen he hN
  refine ⟨_, h X _ u (sig_cut hX) hu, fun i t hi ht => ?_⟩
  have hS : 0 ≤ S := (norm_nonneg _).trans (hx 0 0 hB hN)
  refine (hG i (ζ i) (hζ i) pm N _ _ S (fun t => ?_) t).trans (mul_le_mul_of_nonneg_right
    (Finset.single_le_sum (f := G) (fun i _ => hG0 i) (Finset.mem_range.2 hi)) hS)
  split
  · exact hx i t hi ‹_›
  · rw [norm_zero]; exact hS

example := C66_bounded (B := 3) (K := 2) (P := 1) (form := .tdf2) (.batched fun i t => (i : ℂ) + t) (.shared fun _ => -(1 / 2 : ℂ))
  (by decide) (by decide) (Or.inl ⟨rfl, by decide⟩) (fun _ _ => half_stable)

/-- **C66, stability**, real numbers. -/
theorem C66_bounded_real {B K P : Nat} {b a : Tensor ℝ} {bv av : Nat → Nat → ℝ} {form : Form}
    (hb : Rows B K b bv) (ha : Rows B P a av) (hB : 0 < B) (hK : 0 < K)
    (hf : (form = .tdf2 ∧ 0 < max P (K - 1)) ∨ (form = .df2 ∧ 0 < P ∧ K ≤ P + 1))
    (hp : ∀ i, i < B → ∀ p ∈ poles P (fun k => (av i k : ℂ)), ‖p‖ < 1) :
    ∃ G : ℝ, ∀ (N : Nat) (pm : Option PadMode) (padlen : Option Int) (X : Tensor ℝ) (x : Nat → Nat → ℝ) (S : ℝ) (u : Option Int),
      0 < N → documentedPadding K P pm.isSome padlen < N → (∀ i, u = some i → 1 ≤ i) → Sig N B X x →
      (∀ i t, i < B → t < N → |x i t| ≤ S) → ∃ y : Nat → Nat → ℝ,
        filtfilt b a X pm padlen form u = .ok (packed (decide (X.rank = 1 ∧ b.rank = 1 ∧ a.rank = 1)) B N y) ∧
        ∀ i t, i < B → t < N → |y i t| ≤ G * S := by
  obtain ⟨M, A, β, γ, D, v, -, -, hA, -, hF⟩ := filtfilt_passes_real (rows_clip hb) (rows_clip ha) hK hf (fun i => hp _ (by omega))
  have hG := fun i => twice_bounded (hA i) (β i) (γ i) (D i) (v i)
  choose G hG0 hG using hG
  refine ⟨∑ i ∈ Finset.range B, G i, fun N pm padlen X x S u hN he hu hX hx => ?_⟩
  rw [← C20_padding hb ha] at he
  obtain ⟨ζ, hζ, h⟩ := hF N pm padlen he hN
  refine ⟨_, h X (fun i t => (((if t < N then x i t else 0) : ℝ) : ℂ)) u (sig_cut hX) hu, fun i t hi ht => ?_⟩
  have hS : 0 ≤ S := (abs_nonneg _).trans (hx 0 0 hB hN)
  refine (Complex.abs_re_le_norm _).trans ((hG i (ζ i) (hζ i) pm N _ _ S (fun t => ?_) t).trans (mul_le_mul_of_nonneg_right
    (Finset.single_le_sum (f := G) (fun i _ => hG0 i) (Finset.mem_range.2 hi)) hS))
  rw [Complex.norm_real, Real.norm_eq_abs]
  split
  · exact hx i t hi ‹_›
  · rw [abs_zero]; exact hS

theorem clip_lt {B i : Nat} (h : i < B) : min i (B - 1) = i := by omega

theorem rates {B : Nat} {C r : Nat → ℝ} (hC : ∀ i, 0 ≤ C i) (hr : ∀ i, 0 < r i) (hr1 : ∀ i, r i < 1) :
    ∃ C' r' : ℝ, 0 < r' ∧ r' < 1 ∧ ∀ i, i < B → ∀ (S : ℝ) (m n : Nat), 0 ≤ S →
      C i * S * (r i ^ m + r i ^ n) ≤ C' * S * (r' ^ m + r' ^ n) := by
  induction B with
  | zero => exact ⟨0, 1 / 2, by norm_num, by norm_num, fun i hi => absurd hi (by omega)⟩
  | succ B ih =>
    obtain ⟨C', r', h0, h1, h⟩ := ih
    refine ⟨max C' (C B), max r' (r B), lt_max_of_lt_left h0, max_lt h1 (hr1 B), fun i hi S m n hS => ?_⟩
    have hp : ∀ n, 0 ≤ r' ^ n := fun n => by positivity
    rcases Nat.lt_succ_iff_lt_or_eq.1 hi with hi | rfl
    · refine (h i hi S m n hS).trans ?_
      have : ∀ n, r' ^ n ≤ max r' (r B) ^ n := fun n => pow_le_pow_left₀ h0.le (le_max_left _ _) n
      refine mul_le_mul (mul_le_mul_of_nonneg_right (le_max_left _ _) hS) (add_le_add (this m) (this n)) (add_nonneg (hp m) (hp n)) ?_
      exact mul_nonneg ((hC B).trans (le_max_right _ _)) hS
    · have : ∀ n, r i ^ n ≤ max r' (r i) ^ n := fun n => pow_le_pow_left₀ (hr i).le (le_max_right _ _) n
      have hq : ∀ n, 0 ≤ r i ^ n := fun n => pow_nonneg (hr i).le n
      refine mul_le_mul (mul_le_mul_of_nonneg_right (le_max_right _ _) hS) (add_le_add (this m) (this n)) (add_nonneg (hq m) (hq n)) ?_
      exact mul_nonneg ((hC i).trans (le_max_right _ _)) hS

/-- **C66, response**, complex numbers.  Transposed direct form II conjugates its coefficients. -/
theorem C66_response {B K P : Nat} {b a : Tensor ℂ} {bv av : Nat → Nat → ℂ} {form : Form} {g : ℂ → ℂ} {w : ℂ}
    (hb : Rows B K b bv) (ha : Rows B P a av) (hB : 0 < B) (hK : 0 < K)
    (hf : (form = .tdf2 ∧ g = star ∧ 0 < max P (K - 1)) ∨ (form = .df2 ∧ g = id ∧ 0 < P ∧ K ≤ P + 1))
    (hp : ∀ i, i < B → ∀ p ∈ poles P (av i), ‖p‖ < 1) (hw : ‖w‖ = 1) :
    ∃ C r : ℝ, 0 < r ∧ r < 1 ∧ ∀ (N : Nat) (pm : Option PadMode) (padlen : Option Int) (X : Tensor ℂ) (c : Nat → ℂ) (S : ℝ) (u : Option Int),
      0 < N → documentedPadding K P pm.isSome padlen < N → (∀ i, u = some i → 1 ≤ i) → Sig N B X (fun i t => c i * w ^ t) →
      (∀ i, i < B → ‖c i‖ ≤ S) → ∃ y : Nat → Nat → ℂ,
        filtfilt b a X pm padlen form u = .ok (packed (decide (X.rank = 1 ∧ b.rank = 1 ∧ a.rank = 1)) B N y) ∧
        ∀ i t, i < B → t < N →
          ‖y i t - transferAt K P (fun j => g (bv i j)) (fun k => g (av i k)) w *
            transferAt K P (fun j => g (bv i j)) (fun k => g (av i k)) w⁻¹ * (c i * w ^ t)‖ ≤ C * S * (r ^ t + r ^ (N - 1 - t)) := by
  obtain ⟨M, A, β, γ, D, v, hPM, hKM, hA, hR, hF⟩ := filtfilt_passes (rows_clip hb) (rows_clip ha) hK hf (fun i => hp _ (by omega))
  have hg : g = id ∨ g = star := by tauto
  have hC := fun i => twice_response (hA i) (v i) hw hPM hKM (fun w hw => denAt_stable hw.ge fun p h => by
    rw [poles_conj P _ hg] at h
    obtain ⟨q, hq, rfl⟩ := Multiset.mem_map.1 h
    rw [norm_conj hg]
    exact hp _ (by omega) q hq) (hR i)
  choose C r hC0 hr hr1 hC using hC
  obtain ⟨C', r', h0, h1, h'⟩ := rates (B := B) hC0 hr hr1
  refine ⟨C', r', h0, h1, fun N pm padlen X c S u hN he hu hX hc => ?_⟩
  rw [← C20_padding hb ha] at he
  obtain ⟨ζ, hζ, h⟩ := hF N pm padlen he hN
  refine ⟨_, h X _ u hX hu, fun i t hi ht => ?_⟩
  have k := hC i (ζ i) (hζ i) pm N _ (c i) (edge_none (b := b) (a := a) (padlen := padlen)) t ht
  rw [clip_lt hi] at k
  have hp0 := hr i
  refine (k.trans ?_).trans (h' i hi S _ _ ((norm_nonneg _).trans (hc i hi)))
  exact mul_le_mul_of_nonneg_right (mul_le_mul_of_nonneg_left (hc i hi) (hC0 i)) (by positivity)

/-- **C66, cosines**, real numbers. -/
theorem C66_cosine {B K P : Nat} {b a : Tensor ℝ} {bv av : Nat → Nat → ℝ} {form : Form} {ω : ℝ}
    (hb : Rows B K b bv) (ha : Rows B P a av) (hB : 0 < B) (hK : 0 < K)
    (hf : (form = .tdf2 ∧ 0 < max P (K - 1)) ∨ (form = .df2 ∧ 0 < P ∧ K ≤ P + 1))
    (hp : ∀ i, i < B → ∀ p ∈ poles P (fun k => (av i k : ℂ)), ‖p‖ < 1) :
    ∃ C r : ℝ, 0 < r ∧ r < 1 ∧ ∀ (N : Nat) (pm : Option PadMode) (padlen : Option Int) (X : Tensor ℝ) (φ : Nat → ℝ) (u : Option Int),
      0 < N → documentedPadding K P pm.isSome padlen < N → (∀ i, u = some i → 1 ≤ i) →
      Sig N B X (fun i t => Real.cos (ω * t + φ i)) → ∃ y : Nat → Nat → ℝ,
        filtfilt b a X pm padlen form u = .ok (packed (decide (X.rank = 1 ∧ b.rank = 1 ∧ a.rank = 1)) B N y) ∧
        ∀ i t, i < B → t < N →
          |y i t - ‖transferAt K P (fun j => (bv i j : ℂ)) (fun k => (av i k : ℂ)) (Complex.exp (ω * Complex.I))‖ ^ 2 *
            Real.cos (ω * t + φ i)| ≤ C * (r ^ t + r ^ (N - 1 - t)) := by
  obtain ⟨M, A, β, γ, D, v, hPM, hKM, hA, hR, hF⟩ := filtfilt_passes_real (rows_clip hb) (rows_clip ha) hK hf (fun i => hp _ (by omega))
  set w : ℂ := Complex.exp (ω * Complex.I) with hwd
  have hw : ‖w‖ = 1 := Complex.norm_exp_ofReal_mul_I ω
  have hC := fun i => twice_response (hA i) (v i) hw hPM hKM (fun w hw => denAt_stable hw.ge (hp _ (by omega))) (hR i)
  choose C r hC0 hr hr1 hC using hC
  obtain ⟨C', r', h0, h1, h'⟩ := rates (B := B) hC0 hr hr1
  refine ⟨C', r', h0, h1, fun N pm padlen X φ u hN he hu hX => ?_⟩
  rw [← C20_padding hb ha] at he
  obtain ⟨ζ, hζ, h⟩ := hF N pm padlen he hN
  have hcw : ∀ i (t : Nat), Complex.exp (φ i * Complex.I) * w ^ t = Complex.exp (((ω * t + φ i : ℝ) : ℂ) * Complex.I) := by
    intro i t
    rw [hwd, ← Complex.exp_nat_mul, ← Complex.exp_add]
    congr 1
    push_cast
    ring
  have hx : ∀ i (t : Nat), (Complex.exp (φ i * Complex.I) * w ^ t).re = Real.cos (ω * t + φ i) := fun i t => by
    rw [hcw, Complex.exp_ofReal_mul_I_re]
  refine ⟨_, h X (fun i t => Complex.exp (φ i * Complex.I) * w ^ t) u (by simpa only [hx] using hX) hu, fun i t hi ht => ?_⟩
  have k := hC i (ζ i) (hζ i) pm N _ (Complex.exp (φ i * Complex.I)) (edge_none (b := b) (a := a) (padlen := padlen)) t ht
  rw [clip_lt hi] at k
  have hH : transferAt K P (fun j => (bv i j : ℂ)) (fun k => (av i k : ℂ)) w *
      transferAt K P (fun j => (bv i j : ℂ)) (fun k => (av i k : ℂ)) w⁻¹ =
      ((‖transferAt K P (fun j => (bv i j : ℂ)) (fun k => (av i k : ℂ)) w‖ ^ 2 : ℝ) : ℂ) := by
    have e : transferAt K P (fun j => (bv i j : ℂ)) (fun k => (av i k : ℂ)) w⁻¹ =
        (starRingEnd ℂ) (transferAt K P (fun j => (bv i j : ℂ)) (fun k => (av i k : ℂ)) w) := by
      have hc : (starRingEnd ℂ) w = w⁻¹ := (Complex.inv_eq_conj hw).symm
      unfold transferAt denAt
      simp only [map_div₀, map_add, map_sum, map_mul, map_pow, map_inv₀, map_one, Complex.conj_ofReal, hc]
    rw [e, Complex.mul_conj, Complex.normSq_eq_norm_sq]
  rw [hH] at k
  have hp0 := hr i
  refine le_trans ?_ ((k.trans ?_).trans ((h' i hi 1 t (N - 1 - t) zero_le_one).trans_eq (by rw [mul_one])))
  · refine le_trans (le_of_eq ?_) (Complex.abs_re_le_norm _)
    rw [Complex.sub_re, Complex.re_ofReal_mul, hx]
  · rw [Complex.norm_exp_ofReal_mul_I]

/-! ## Instances -/

theorem half_pole : poles 1 (fun _ => ((-(1 / 2) : ℝ) : ℂ)) = {1 / 2} := by
  rw [← poles_one]; congr 1; funext _; push_cast; rfl

/-- `y_n = x_n + y_{n-1}/2` run forwards and backwards over two signals with values in `[-1, 1]`, default form and padding: one bound for
all lengths. -/
example : ∃ G : ℝ, ∀ (N : Nat) (x : Nat → Nat → ℝ), 6 < N → (∀ i t, |x i t| ≤ 1) → ∃ y : Nat → Nat → ℝ,
    filtfilt (t1 1 fun _ => (1 : ℝ)) (t1 1 fun _ => -(1 / 2)) (t2 2 N x) (some .replicate) none .tdf2 none = .ok (t2 2 N y) ∧
    ∀ i t, i < 2 → t < N → |y i t| ≤ G := by
  obtain ⟨G, h⟩ := C66_bounded_real (B := 2) (.shared (K := 1) fun _ => (1 : ℝ)) (.shared (K := 1) fun _ => (-(1 / 2) : ℝ)) (by decide) (by decide)
    (Or.inl ⟨rfl, by decide⟩) (fun i _ p h => by rw [half_pole, Multiset.mem_singleton] at h; rw [h]; norm_num)
  refine ⟨G, fun N x hN hx => ?_⟩
  obtain ⟨y, e, hy⟩ := h N (some .replicate) none (t2 2 N x) x 1 none (by omega) (by simp [documentedPadding]; omega) (by simp) (.batched 2 x)
    (fun i t _ _ => hx i t)
  exact ⟨y, e, fun i t hi ht => by simpa using hy i t hi ht⟩

/-- The same filter answers `cos(ω t)` by `cos(ω t) / |1 - e^{-iω}/2|²` away from the ends. -/
example (ω : ℝ) : ∃ C r : ℝ, 0 < r ∧ r < 1 ∧ ∀ N : Nat, 6 < N → ∃ y : Nat → Nat → ℝ,
    filtfilt (t1 1 fun _ => (1 : ℝ)) (t1 1 fun _ => -(1 / 2)) (t2 1 N fun _ t => Real.cos (ω * t)) (some .reflect) none .tdf2 none =
      .ok (t2 1 N y) ∧
    ∀ t, t < N → |y 0 t - ‖(1 : ℂ) / (1 + -(1 / 2) * (Complex.exp (ω * Complex.I))⁻¹)‖ ^ 2 * Real.cos (ω * t)| ≤
      C * (r ^ t + r ^ (N - 1 - t)) := by
  obtain ⟨C, r, h0, h1, h⟩ := C66_cosine (B := 1) (ω := ω) (.shared (K := 1) fun _ => (1 : ℝ)) (.shared (K := 1) fun _ => (-(1 / 2) : ℝ)) (by decide)
    (by decide) (Or.inl ⟨rfl, by decide⟩) (fun i _ p h => by rw [half_pole, Multiset.mem_singleton] at h; rw [h]; norm_num)
  refine ⟨C, r, h0, h1, fun N hN => ?_⟩
  obtain ⟨y, e, hy⟩ := h N (some .reflect) none (t2 1 N fun _ t => Real.cos (ω * t)) (fun _ => 0) none (by omega)
    (by simp [documentedPadding]; omega) (by simp) (by simpa using Sig.batched 1 fun _ t => Real.cos (ω * t))
  refine ⟨y, e, fun t ht => ?_⟩
  have := hy 0 t one_pos ht
  simpa [transferAt, denAt] using this

/-- `y_n = x_n + (i/2) y_{n-1}` in direct form II, forwards and backwards without padding, answers `(-1)^t` by `(-1)^t / (1 + i/2)²`. -/
example : ∃ C r : ℝ, 0 < r ∧ r < 1 ∧ ∀ N : Nat, 0 < N → ∃ y : Nat → Nat → ℂ,
    filtfilt (t1 1 fun _ => (1 : ℂ)) (t1 1 fun _ => -(Complex.I / 2)) (t2 1 N fun _ t => (-1) ^ t) none none .df2 none = .ok (t2 1 N y) ∧
    ∀ t, t < N → ‖y 0 t - 1 / (1 + Complex.I / 2) ^ 2 * (-1) ^ t‖ ≤ C * (r ^ t + r ^ (N - 1 - t)) := by
  obtain ⟨C, r, h0, h1, h⟩ := C66_response (B := 1) (w := -1) (g := id) (.shared (K := 1) fun _ => (1 : ℂ)) (.shared (K := 1) fun _ => -(Complex.I / 2))
    (by decide) (by decide) (Or.inr ⟨rfl, rfl, by decide, by decide⟩)
    (fun i _ p h => by rw [poles_one, Multiset.mem_singleton] at h; rw [h]; norm_num) (by norm_num)
  refine ⟨C, r, h0, h1, fun N hN => ?_⟩
  obtain ⟨y, e, hy⟩ := h N none none (t2 1 N fun _ t => (-1) ^ t) (fun _ => 1) 1 none hN
    (by simp [documentedPadding]; omega) (by simp) (by simpa using Sig.batched 1 fun _ t => ((-1 : ℂ)) ^ t) (by simp)
  refine ⟨y, e, fun t ht => ?_⟩
  have := hy 0 t one_pos ht
  simp only [transferAt, denAt, id, Finset.sum_range_one, inv_neg, inv_one, pow_zero, mul_one, one_mul, zero_add, pow_one, mul_neg, neg_neg] at this
  rw [div_mul_div_comm, mul_one, ← sq] at this
  exact this

end Props
