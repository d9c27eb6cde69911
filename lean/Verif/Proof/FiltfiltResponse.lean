import Verif.Proof.StabilityState
import Verif.Proof.Frequency
import Verif.Proof.ZeroPhase

/-!
# Passes of a filter as state-space models: bounds and responses

One pass of `filtfilt` is a state-space model with one input and one output, whose initial state is a fixed vector times the first
sample.  With the poles inside the unit circle, its output is bounded by a fading memory of the input (`pass_bound`); from this come
the bound and the response of two passes, the second one backwards (`twice_bounded`, `twice_response`).
-/

namespace Spec
open Torch Finset Matrix

/-- States driven by `w^t v`: the stationary solution `w^t s` and the free motion of the difference. -/
theorem vecRec_steady {α : Type} [CommRing α] {M : Nat} {A : Nat → Nat → α} {z s v : Nat → α} {w : α}
    (h : ∀ m, m < M → w * s m = ∑ k ∈ range M, A m k * s k + v m) (t : Nat) :
    ∀ m, m < M → vecRec M (fun _ => A) z (fun t m => v m * w ^ t) t m =
      w ^ t * s m + vecRec M (fun _ => A) (fun m => z m - s m) (fun _ _ => 0) t m := by
  induction t with
  | zero => intro m _; simp [vecRec]
  | succ t ih =>
    intro m hm
    simp only [vecRec]
    rw [sum_congr rfl fun k hk => congrArg (A m k * ·) (ih k (mem_range.1 hk))]
    simp only [mul_add, sum_add_distrib]
    rw [pow_succ, mul_assoc, h m hm, mul_add, mul_sum, sum_congr rfl fun k _ => mul_left_comm (A m k) (w ^ t) (s k)]
    ring

theorem vecRec_rest {α : Type} [CommRing α] {M : Nat} {A : Nat → Nat → α} {z : Nat → α} (h : ∀ m, m < M → z m = 0) (t : Nat) :
    ∀ m, m < M → vecRec M (fun _ => A) z (fun _ _ => 0) t m = 0 := by
  induction t with
  | zero => exact h
  | succ t ih =>
    intro m _
    simp only [vecRec]
    rw [sum_eq_zero fun k hk => by rw [ih k (mem_range.1 hk), mul_zero], add_zero]

/-- The eigenvalues of the companion matrix are poles, or zero. -/
theorem comp_eigen {P M : Nat} {a : Nat → ℂ} (hPM : P ≤ M) (hp : ∀ p ∈ poles P a, ‖p‖ < 1) {l : ℂ}
    (h : (mat M M (comp (zext P a))).charpoly.IsRoot l) : ‖l‖ < 1 := by
  obtain ⟨z, ⟨m, hm, hz⟩, e⟩ := vecRec_eigen _ h
  by_cases l0 : l = 0
  · rw [l0, norm_zero]; exact one_pos
  have e1 : ∀ i, i < M → (if i = 0 then -∑ k ∈ range M, zext P a k * z k else z (i - 1)) = l * z i := by
    intro i hi
    have := e 1 i hi
    simp only [vecRec, add_zero, pow_one] at this
    rwa [comp_mv _ _ hi] at this
  have e2 : ∀ i, i < M → z i = z 0 * l⁻¹ ^ i := by
    intro i
    induction i with
    | zero => intro _; rw [pow_zero, mul_one]
    | succ i ih =>
      intro hi
      have := e1 (i + 1) hi
      rw [if_neg (by omega), Nat.add_sub_cancel, ih (by omega)] at this
      rw [pow_succ, ← mul_assoc, this]
      field_simp
  have z0 : z 0 ≠ 0 := fun h0 => hz (by rw [e2 m hm, h0, zero_mul])
  have e3 := e1 0 (by omega)
  rw [if_pos rfl, sum_zext hPM, sum_congr rfl fun k hk => congrArg (a k * ·) (e2 k (by have := mem_range.1 hk; omega))] at e3
  refine hp l ?_
  by_contra hl
  refine denAt_ne_zero l0 hl ?_
  have e4 : z 0 * (l * denAt P a l) = 0 := by
    unfold denAt
    rw [mul_add, mul_add, mul_one, mul_sum, mul_comm (z 0) l, ← e3, mul_sum, ← sum_neg_distrib, ← sum_add_distrib]
    refine sum_eq_zero fun k _ => ?_
    rw [pow_succ]
    field_simp
    ring
  exact (mul_eq_zero.1 ((mul_eq_zero.1 e4).resolve_left z0)).resolve_left l0

theorem comp_eigen_transpose {P M : Nat} {a : Nat → ℂ} (hPM : P ≤ M) (hp : ∀ p ∈ poles P a, ‖p‖ < 1) {l : ℂ}
    (h : (mat M M fun i j => comp (zext P a) j i).charpoly.IsRoot l) : ‖l‖ < 1 := by
  refine comp_eigen hPM hp (l := l) ?_
  rwa [← charpoly_transpose]

/-- One pass: `h_{t+1} = A h_t + β x_t`, `y_t = γ h_t + D x_t`. -/
def pass (M : Nat) (A : Nat → Nat → ℂ) (β γ : Nat → ℂ) (D : ℂ) (z x : Nat → ℂ) (n : Nat) : ℂ :=
  ∑ m ∈ range M, γ m * vecRec M (fun _ => A) z (fun t k => β k * x t) n m + D * x n

variable {M : Nat} {A : Nat → Nat → ℂ} {β γ : Nat → ℂ} {D : ℂ}

theorem pass_sub (z z' x x' : Nat → ℂ) (n : Nat) :
    pass M A β γ D z x n - pass M A β γ D z' x' n = pass M A β γ D (fun m => z m - z' m) (fun t => x t - x' t) n := by
  have h : ∀ m, vecRec M (fun _ => A) (fun m => z m - z' m) (fun t k => β k * (x t - x' t)) n m =
      vecRec M (fun _ => A) z (fun t k => β k * x t) n m - vecRec M (fun _ => A) z' (fun t k => β k * x' t) n m := by
    induction n with
    | zero => intro m; rfl
    | succ n ih =>
      intro m
      simp only [vecRec]
      rw [sum_congr rfl fun k _ => by rw [ih k, mul_sub], sum_sub_distrib]
      ring
  unfold pass
  rw [sum_congr (s₁ := range M) rfl fun m _ => show γ m * vecRec M (fun _ => A) (fun m => z m - z' m) (fun t k => β k * (x t - x' t)) n m = _ by
    rw [h m, mul_sub], sum_sub_distrib]
  ring

attribute [local instance] Matrix.linftyOpNormedRing Matrix.linftyOpNormedAlgebra

/-- The output is bounded by a fading memory of the initial state and of the input. -/
theorem pass_bound (hA : ∀ l, (mat M M A).charpoly.IsRoot l → ‖l‖ < 1) (β γ : Nat → ℂ) (D : ℂ) :
    ∃ G r : ℝ, 0 ≤ G ∧ 0 < r ∧ r < 1 ∧ ∀ (z x : Nat → ℂ) (n : Nat) (Z : ℝ), 0 ≤ Z → (∀ m, m < M → ‖z m‖ ≤ Z) →
      ‖pass M A β γ D z x n‖ ≤ G * (r ^ n * Z + ∑ k ∈ range (n + 1), r ^ (n - k) * ‖x k‖) := by
  obtain ⟨G, q, hG, hq, hq1, hp⟩ := pow_decay (mat M M A) hA
  obtain ⟨r, hqr, hr0, hr1⟩ : ∃ r, q ≤ r ∧ 0 < r ∧ r < 1 :=
    ⟨max q (1 / 2), le_max_left _ _, lt_max_of_lt_right (by norm_num), max_lt hq1 (by norm_num)⟩
  have hp' : ∀ n, ‖mat M M A ^ n‖ ≤ G * r ^ n := fun n =>
    (hp n).trans (mul_le_mul_of_nonneg_left (pow_le_pow_left₀ hq hqr n) hG)
  set Γ := ∑ m ∈ range M, ‖γ m‖ with hΓ
  have hΓ0 : 0 ≤ Γ := sum_nonneg fun _ _ => norm_nonneg _
  set b := ‖vect M β‖ with hb
  refine ⟨Γ * G + Γ * G * b / r + ‖D‖, r, by positivity, hr0, hr1, fun z x n Z hZ hz => ?_⟩
  have hz' : ‖vect M z‖ ≤ Z := (pi_norm_le_iff_of_nonneg hZ).2 fun i => hz i i.2
  have hs : ‖vect M (vecRec M (fun _ => A) z (fun t k => β k * x t) n)‖ ≤
      G * r ^ n * Z + G * b / r * ∑ k ∈ range n, r ^ (n - k) * ‖x k‖ := by
    rw [vecRec_closed]
    refine (norm_add_le _ _).trans (add_le_add ((Matrix.linfty_opNorm_mulVec _ _).trans
      (mul_le_mul (hp' n) hz' (norm_nonneg _) (by positivity))) ?_)
    refine (norm_sum_le _ _).trans ?_
    rw [mul_sum]
    refine sum_le_sum fun k hk => ?_
    have hk := mem_range.1 hk
    have e : vect M (fun k' => β k' * x k) = x k • vect M β := by
      funext i; simp [vect, mul_comm]
    refine (Matrix.linfty_opNorm_mulVec _ _).trans ?_
    rw [e, norm_smul, ← hb]
    refine (mul_le_mul_of_nonneg_right (hp' _) (by positivity)).trans (le_of_eq ?_)
    rw [show n - k = (n - 1 - k) + 1 by omega, pow_succ]
    field_simp
  set S := ∑ k ∈ range n, r ^ (n - k) * ‖x k‖ with hS
  have hS0 : 0 ≤ S := sum_nonneg fun _ _ => by positivity
  have h1 : ‖∑ m ∈ range M, γ m * vecRec M (fun _ => A) z (fun t k => β k * x t) n m‖ ≤
      Γ * (G * r ^ n * Z + G * b / r * S) := by
    refine (norm_sum_le _ _).trans ?_
    rw [hΓ, sum_mul]
    refine sum_le_sum fun m hm => ?_
    rw [norm_mul]
    refine mul_le_mul_of_nonneg_left (le_trans ?_ hs) (norm_nonneg _)
    exact norm_le_pi_norm (vect M (vecRec M (fun _ => A) z (fun t k => β k * x t) n)) ⟨m, mem_range.1 hm⟩
  unfold pass
  refine (norm_add_le _ _).trans ((add_le_add h1 (le_of_eq (norm_mul _ _))).trans ?_)
  rw [sum_range_succ, Nat.sub_self, pow_zero, one_mul, ← hS]
  have hx : 0 ≤ ‖x n‖ := norm_nonneg _
  have hrn : 0 ≤ r ^ n * Z := by positivity
  have hc : 0 ≤ Γ * G * b / r := by positivity
  have hd : 0 ≤ ‖D‖ := norm_nonneg _
  have hg : 0 ≤ Γ * G := by positivity
  have e : Γ * (G * r ^ n * Z + G * b / r * S) + ‖D‖ * ‖x n‖ = Γ * G * (r ^ n * Z) + Γ * G * b / r * S + ‖D‖ * ‖x n‖ := by
    ring
  rw [e]
  nlinarith [mul_nonneg hg hS0, mul_nonneg hg hx, mul_nonneg hc hrn, mul_nonneg hc hx, mul_nonneg hd hrn, mul_nonneg hd hS0]

/-- A stationary state for the input `w^t`. -/
theorem pass_steady {w : ℂ} (hw : 1 ≤ ‖w‖) (hA : ∀ l, (mat M M A).charpoly.IsRoot l → ‖l‖ < 1) (β γ : Nat → ℂ) (D : ℂ) :
    ∃ (s : Nat → ℂ) (H : ℂ), ∀ c n, pass M A β γ D (fun m => c * s m) (fun t => c * w ^ t) n = H * (c * w ^ n) := by
  have hd : IsUnit (scalar (Fin M) w - mat M M A).det := by
    rw [← eval_charpoly, isUnit_iff_ne_zero]
    exact fun h0 => absurd (hA w h0) (not_lt.2 hw)
  obtain ⟨s, hs⟩ : ∃ s : Nat → ℂ, vect M s = (scalar (Fin M) w - mat M M A)⁻¹ *ᵥ vect M β :=
    ⟨fun m => if h : m < M then ((scalar (Fin M) w - mat M M A)⁻¹ *ᵥ vect M β) ⟨m, h⟩ else 0,
      funext fun m => by unfold vect; exact dif_pos m.2⟩
  have h : ∀ c m, m < M → w * (c * s m) = ∑ k ∈ range M, A m k * (c * s k) + β m * c := by
    intro c m hm
    have e := congrArg (scalar (Fin M) w - mat M M A).mulVec hs
    rw [mulVec_mulVec, mul_nonsing_inv _ hd, one_mulVec, sub_mulVec, ← vect_sum, sub_eq_iff_eq_add] at e
    have e' := congrFun e ⟨m, hm⟩
    rw [scalar_apply, mulVec_diagonal] at e'
    have e'' : w * s m = β m + ∑ k ∈ range M, A m k * s k := e'
    rw [mul_left_comm, e'', mul_add, mul_sum, add_comm, mul_comm c]
    exact congrArg₂ (· + ·) (sum_congr rfl fun k _ => by ring) rfl
  refine ⟨s, ∑ m ∈ range M, γ m * s m + D, fun c n => ?_⟩
  unfold pass
  rw [show (fun (t k : Nat) => β k * (c * w ^ t)) = fun t k => β k * c * w ^ t by funext t k; ring,
    sum_congr rfl fun m hm => congrArg (γ m * ·) ((vecRec_steady (z := fun m => c * s m) (h c) n m (mem_range.1 hm)).trans
      (by rw [vecRec_rest (fun m _ => sub_self _) n m (mem_range.1 hm), add_zero])), add_mul, sum_mul]
  exact congrArg₂ (· + ·) (sum_congr rfl fun m _ => by ring) (by ring)

theorem geom_le {r : ℝ} (hr : 0 < r) (hr1 : r < 1) (n : Nat) : ∑ k ∈ range n, r ^ k ≤ (1 - r)⁻¹ := by
  rw [← tsum_geometric_of_lt_one hr.le hr1]
  exact (summable_geometric_of_lt_one hr.le hr1).sum_le_tsum _ fun _ _ => by positivity

/-- Two passes of bounded signals, the second one backwards. -/
theorem pass_bounded {G r : ℝ} (hG : 0 ≤ G) (hr : 0 < r) (hr1 : r < 1)
    (h : ∀ (z x : Nat → ℂ) (n : Nat) (Z : ℝ), 0 ≤ Z → (∀ m, m < M → ‖z m‖ ≤ Z) →
      ‖pass M A β γ D z x n‖ ≤ G * (r ^ n * Z + ∑ k ∈ range (n + 1), r ^ (n - k) * ‖x k‖))
    {ζ x : Nat → ℂ} {Z X : ℝ} (hZ : 0 ≤ Z) (hζ : ∀ m, m < M → ‖ζ m‖ ≤ Z) (hx : ∀ t, ‖x t‖ ≤ X) (n : Nat) :
    ‖pass M A β γ D (fun m => ζ m * x 0) x n‖ ≤ G * (Z + (1 - r)⁻¹) * X := by
  have hX : 0 ≤ X := (norm_nonneg _).trans (hx 0)
  refine (h _ x n (Z * X) (by positivity) fun m hm => ?_).trans ?_
  · rw [norm_mul]
    exact mul_le_mul (hζ m hm) (hx 0) (norm_nonneg _) hZ
  · rw [mul_assoc]
    refine mul_le_mul_of_nonneg_left ?_ hG
    rw [add_mul]
    refine add_le_add ((mul_le_of_le_one_left (by positivity) (pow_le_one₀ hr.le hr1.le))) ?_
    refine (sum_le_sum fun k _ => mul_le_mul_of_nonneg_left (hx k) (by positivity)).trans ?_
    rw [← sum_mul]
    refine mul_le_mul_of_nonneg_right ?_ hX
    rw [show ∑ k ∈ range (n + 1), r ^ (n - k) = ∑ k ∈ range (n + 1), r ^ (n + 1 - 1 - k) from rfl, sum_range_reflect (fun k => r ^ k) (n + 1)]
    exact geom_le hr hr1 _

/-- The distance of one pass from the stationary response, when the input is near `c w^t` from time `e` on. -/
theorem pass_near {G r : ℝ} (hG : 0 ≤ G) (hr : 0 < r) (hr1 : r < 1)
    (h : ∀ (z x : Nat → ℂ) (n : Nat) (Z : ℝ), 0 ≤ Z → (∀ m, m < M → ‖z m‖ ≤ Z) →
      ‖pass M A β γ D z x n‖ ≤ G * (r ^ n * Z + ∑ k ∈ range (n + 1), r ^ (n - k) * ‖x k‖))
    {w H c : ℂ} {s z x : Nat → ℂ} (hH : ∀ c n, pass M A β γ D (fun m => c * s m) (fun t => c * w ^ t) n = H * (c * w ^ n))
    {Z Δ : ℝ} {η : Nat → ℝ} {e n : Nat} (hZ : 0 ≤ Z) (hz : ∀ m, m < M → ‖z m - c * s m‖ ≤ Z) (hΔ : 0 ≤ Δ)
    (h1 : ∀ k, k < e → ‖x k - c * w ^ k‖ ≤ Δ) (h2 : ∀ j, j ≤ n → ‖x (e + j) - c * w ^ (e + j)‖ ≤ η j) :
    ‖pass M A β γ D z x (e + n) - H * (c * w ^ (e + n))‖ ≤
      G * (r ^ n * (Z + (1 - r)⁻¹ * Δ) + ∑ j ∈ range (n + 1), r ^ (n - j) * η j) := by
  rw [← hH, pass_sub]
  refine (h _ _ _ Z hZ hz).trans (mul_le_mul_of_nonneg_left ?_ hG)
  rw [show e + n + 1 = e + (n + 1) by ring, sum_range_add, mul_add, add_assoc]
  have hrn : 0 ≤ r ^ n := by positivity
  refine add_le_add ?_ (add_le_add ?_ ?_)
  · refine mul_le_mul_of_nonneg_right ?_ hZ
    rw [pow_add]
    exact mul_le_of_le_one_left hrn (pow_le_one₀ hr.le hr1.le)
  · calc ∑ k ∈ range e, r ^ (e + n - k) * ‖x k - c * w ^ k‖
        ≤ ∑ k ∈ range e, r ^ n * (r ^ (e - 1 - k) * Δ) := by
          refine sum_le_sum fun k hk => ?_
          have hk := mem_range.1 hk
          rw [show e + n - k = n + (e - 1 - k) + 1 by omega, pow_succ, pow_add, mul_assoc, mul_assoc]
          refine mul_le_mul_of_nonneg_left (mul_le_mul_of_nonneg_left ?_ (by positivity)) hrn
          exact (mul_le_of_le_one_left (norm_nonneg _) hr1.le).trans (h1 k hk)
      _ = r ^ n * ((∑ k ∈ range e, r ^ k) * Δ) := by
          rw [← mul_sum, ← sum_mul, sum_range_reflect (fun k => r ^ k) e]
      _ ≤ _ := mul_le_mul_of_nonneg_left (mul_le_mul_of_nonneg_right (geom_le hr hr1 e) hΔ) hrn
  · refine sum_le_sum fun j hj => ?_
    rw [show e + n - (e + j) = n - j by omega]
    exact mul_le_mul_of_nonneg_left (h2 j (by have := mem_range.1 hj; omega)) (by positivity)

/-- Two passes, the second one backwards, over a signal that is `c w^t` between the ends and bounded beyond. -/
theorem pass_twice (hA : ∀ l, (mat M M A).charpoly.IsRoot l → ‖l‖ < 1) {w H H' : ℂ} {s s' : Nat → ℂ} (hw : ‖w‖ = 1)
    (hH : ∀ c n, pass M A β γ D (fun m => c * s m) (fun t => c * w ^ t) n = H * (c * w ^ n))
    (hH' : ∀ c n, pass M A β γ D (fun m => c * s' m) (fun t => c * w⁻¹ ^ t) n = H' * (c * w⁻¹ ^ n)) {Z : ℝ} (hZ : 0 ≤ Z) :
    ∃ C r : ℝ, 0 ≤ C ∧ 0 < r ∧ r < 1 ∧ ∀ (ζ : Nat → ℂ), (∀ m, m < M → ‖ζ m‖ ≤ Z) → ∀ (N e : Nat) (E : Nat → ℂ) (c : ℂ) (X : ℝ),
      ‖c‖ ≤ X → (∀ s, ‖E s‖ ≤ X) → (∀ t, t < N → E (e + t) = c * w ^ t) → ∀ t, t < N →
        ‖pass M A β γ D (fun m => ζ m * pass M A β γ D (fun m => ζ m * E 0) E (N + 2 * e - 1 - 0))
            (fun s => pass M A β γ D (fun m => ζ m * E 0) E (N + 2 * e - 1 - s)) (e + (N - 1 - t)) - H * H' * (c * w ^ t)‖ ≤
          C * X * (r ^ t + r ^ (N - 1 - t)) := by
  obtain ⟨G, r, hG, hr, hr1, hb⟩ := pass_bound hA β γ D
  obtain ⟨S, hS0, hS⟩ : ∃ S : ℝ, 0 ≤ S ∧ ∀ m, m < M → ‖s m‖ ≤ S ∧ ‖s' m‖ ≤ S :=
    ⟨∑ m ∈ range M, (‖s m‖ + ‖s' m‖), sum_nonneg fun _ _ => by positivity, fun m hm => by
      have := single_le_sum (f := fun m => ‖s m‖ + ‖s' m‖) (fun _ _ => by positivity) (mem_range.2 hm)
      have h1 := norm_nonneg (s m)
      have h2 := norm_nonneg (s' m)
      constructor <;> linarith⟩
  have hq : 0 < (1 - r)⁻¹ := by rw [inv_pos]; linarith
  set q := (1 - r)⁻¹ with hqd
  -- constants of the two passes
  set F := G * (Z + q) with hF
  set C₁ := G * (Z + S + q * 2) with hC₁
  have hF0 : 0 ≤ F := by positivity
  have hC₁0 : 0 ≤ C₁ := by positivity
  have hw0 : w ≠ 0 := by rintro rfl; norm_num at hw
  refine ⟨G * (Z * F + ‖H‖ * S + q * (F + ‖H‖)) + G * (C₁ * q), r, by positivity, hr, hr1,
    fun ζ hζ N e E c X hc hE hI t ht => ?_⟩
  have hX : 0 ≤ X := (norm_nonneg _).trans hc
  set f := pass M A β γ D (fun m => ζ m * E 0) E with hf
  have hfb : ∀ n, ‖f n‖ ≤ F * X := fun n => pass_bounded hG hr hr1 hb hZ hζ hE n
  have hcw : ‖c * w⁻¹ ^ e‖ = ‖c‖ := by rw [norm_mul, norm_pow, norm_inv, hw, inv_one, one_pow, mul_one]
  have hwe : ∀ n, c * w⁻¹ ^ e * w ^ (e + n) = c * w ^ n := by
    intro n
    rw [pow_add, inv_pow]
    field_simp
  -- the forward pass
  have h1 : ∀ n, n < N → ‖f (e + n) - H * (c * w ^ n)‖ ≤ C₁ * X * r ^ n := by
    intro n hn
    have k := pass_near (n := n) (e := e) (x := E) (z := fun m => ζ m * E 0) (c := c * w⁻¹ ^ e) (Z := (Z + S) * X) (Δ := 2 * X) (η := fun _ => 0)
      hG hr hr1 hb hH (by positivity) (fun m hm => ?_) (by positivity) (fun k _ => ?_) (fun j hj => ?_)
    · rw [hwe] at k
      refine k.trans (le_of_eq ?_)
      simp only [mul_zero, sum_const_zero, hC₁]
      ring
    · refine (norm_sub_le _ _).trans ?_
      rw [norm_mul, norm_mul (c * w⁻¹ ^ e), hcw, add_mul]
      exact add_le_add (mul_le_mul (hζ m hm) (hE 0) (norm_nonneg _) hZ)
        ((mul_le_mul hc (hS m hm).1 (norm_nonneg _) hX).trans (le_of_eq (mul_comm _ _)))
    · refine (norm_sub_le _ _).trans ?_
      rw [norm_mul (c * w⁻¹ ^ e), hcw, norm_pow, hw, one_pow, mul_one]
      linarith [hE k]
    · rw [hI j (by omega), hwe, sub_self, norm_zero]
  -- the backward pass
  have hc' : ‖H * (c * w ^ (N + e - 1))‖ ≤ ‖H‖ * X := by
    rw [norm_mul, norm_mul, norm_pow, hw, one_pow, mul_one]
    exact mul_le_mul_of_nonneg_left hc (norm_nonneg _)
  have hwb : ∀ n, n ≤ N + e - 1 → H * (c * w ^ (N + e - 1)) * w⁻¹ ^ n = H * (c * w ^ (N + e - 1 - n)) := by
    intro n hn
    rw [inv_pow]
    have := pow_sub₀ w hw0 hn
    rw [this]
    ring
  have k := pass_near (n := N - 1 - t) (e := e) (x := fun s => f (N + 2 * e - 1 - s)) (z := fun m => ζ m * f (N + 2 * e - 1 - 0))
    (c := H * (c * w ^ (N + e - 1))) (Z := (Z * F + ‖H‖ * S) * X) (Δ := (F + ‖H‖) * X) (η := fun j => C₁ * X * r ^ (N - 1 - j))
    hG hr hr1 hb hH' (by positivity) (fun m hm => ?_) (by positivity) (fun k hk => ?_) (fun j hj => ?_)
  · rw [hwb _ (by omega), show N + e - 1 - (e + (N - 1 - t)) = t by omega] at k
    rw [show H * H' * (c * w ^ t) = H' * (H * (c * w ^ t)) by ring]
    refine k.trans ?_
    have e1 : ∑ j ∈ range (N - 1 - t + 1), r ^ (N - 1 - t - j) * (C₁ * X * r ^ (N - 1 - j)) ≤ C₁ * X * q * r ^ t := by
      calc ∑ j ∈ range (N - 1 - t + 1), r ^ (N - 1 - t - j) * (C₁ * X * r ^ (N - 1 - j))
          ≤ ∑ j ∈ range (N - 1 - t + 1), C₁ * X * r ^ t * r ^ (N - 1 - t - j) := by
            refine sum_le_sum fun j hj => ?_
            have hj := mem_range.1 hj
            rw [show N - 1 - j = t + (N - 1 - t - j) by omega, pow_add]
            have : r ^ (N - 1 - t - j) * (C₁ * X * (r ^ t * r ^ (N - 1 - t - j))) =
                r ^ (N - 1 - t - j) * (C₁ * X * r ^ t * r ^ (N - 1 - t - j)) := by ring
            rw [this]
            exact mul_le_of_le_one_left (by positivity) (pow_le_one₀ hr.le hr1.le)
        _ = C₁ * X * r ^ t * ∑ k ∈ range (N - 1 - t + 1), r ^ k := by
            rw [← mul_sum, show ∑ j ∈ range (N - 1 - t + 1), r ^ (N - 1 - t - j) = ∑ j ∈ range (N - 1 - t + 1), r ^ (N - 1 - t + 1 - 1 - j) from rfl,
              sum_range_reflect (fun k => r ^ k) (N - 1 - t + 1)]
        _ ≤ C₁ * X * r ^ t * q := mul_le_mul_of_nonneg_left (geom_le hr hr1 _) (by positivity)
        _ = _ := by ring
    refine (mul_le_mul_of_nonneg_left (add_le_add_right e1 _) hG).trans ?_
    have p1 : 0 ≤ r ^ t := by positivity
    have p2 : 0 ≤ r ^ (N - 1 - t) := by positivity
    have p3 : 0 ≤ G * (Z * F + ‖H‖ * S + q * (F + ‖H‖)) * X := by positivity
    have p4 : 0 ≤ G * (C₁ * q) * X := by positivity
    nlinarith [mul_nonneg p3 p1, mul_nonneg p4 p2]
  · refine (norm_sub_le _ _).trans ?_
    rw [norm_mul, norm_mul (H * (c * w ^ (N + e - 1)))]
    have a1 := mul_le_mul (hζ m hm) (hfb (N + 2 * e - 1 - 0)) (norm_nonneg _) hZ
    have a2 := mul_le_mul hc' (hS m hm).2 (norm_nonneg _) (by positivity)
    nlinarith
  · refine (norm_sub_le _ _).trans ?_
    rw [norm_mul (H * (c * w ^ (N + e - 1))), norm_pow, norm_inv, hw, inv_one, one_pow, mul_one, add_mul]
    exact add_le_add (hfb _) hc'
  · rw [hwb _ (by omega), show N + 2 * e - 1 - (e + j) = e + (N - 1 - j) by omega, show N + e - 1 - (e + j) = N - 1 - j by omega]
    exact h1 _ (by omega)

end Spec
