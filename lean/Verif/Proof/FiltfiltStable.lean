import Verif.Proof.FiltfiltResponse

/-!
# `filtfilt`: bounds and responses, for the two passes of the model

`twice R` runs a pass forwards and backwards over the extended signal.
-/

namespace Spec
open Torch Phil Phil.Lti Finset Matrix

/-! ## The extended signal -/

theorem extended_map {α β : Type} [CommRing α] [CommRing β] {g : α → β} (h0 : g 0 = 0) (pm : Option PadMode) (N e : Nat) (x : Nat → α) (t : Nat) :
    extended pm N e (fun t => g (x t)) t = g (extended pm N e x t) := by
  unfold extended
  split
  · rfl
  · rfl
  · unfold extendMirror; split
    · rfl
    · split <;> rfl
  · unfold extendZero; split
    · rfl
    · exact h0.symm
  · unfold extendCyclic; split_ifs <;> rfl

theorem extended_bounded (pm : Option PadMode) (N e : Nat) {x : Nat → ℂ} {X : ℝ} (hX : ∀ t, ‖x t‖ ≤ X) (t : Nat) :
    ‖extended pm N e x t‖ ≤ X := by
  unfold extended
  split
  · exact hX _
  · exact hX _
  · unfold extendMirror; split
    · exact hX _
    · split <;> exact hX _
  · unfold extendZero; split
    · exact hX _
    · rw [norm_zero]; exact (norm_nonneg _).trans (hX 0)
  · unfold extendCyclic; split_ifs <;> exact hX _

theorem extended_inner {α : Type} [CommRing α] {pm : Option PadMode} {N e t : Nat} (he : pm = none → e = 0) (ht : t < N) (x : Nat → α) :
    extended pm N e x (e + t) = x t := by
  unfold extended
  split
  · rw [he rfl, zero_add]
  · unfold extendConst; congr 1; omega
  · unfold extendMirror; rw [if_neg (by omega), if_pos (by omega)]; congr 1; omega
  · unfold extendZero; rw [if_pos (by omega)]; congr 1; omega
  · unfold extendCyclic; rw [if_neg (by omega), if_pos (by omega)]; congr 1; omega

/-! ## Two passes -/

/-- The stationary state under a constant input is unique. -/
theorem fixed_bounded {M : Nat} {A : Nat → Nat → ℂ} (hA : ∀ l, (mat M M A).charpoly.IsRoot l → ‖l‖ < 1) (v : Nat → ℂ) :
    ∃ Z : ℝ, 0 ≤ Z ∧ ∀ ζ : Nat → ℂ, (∀ m, m < M → ζ m = ∑ j ∈ range M, A m j * ζ j + v m) → ∀ m, m < M → ‖ζ m‖ ≤ Z := by
  have hd : IsUnit (scalar (Fin M) (1 : ℂ) - mat M M A).det := by
    rw [← eval_charpoly, isUnit_iff_ne_zero]
    exact fun h0 => absurd (hA 1 h0) (by norm_num)
  refine ⟨∑ m, ‖((scalar (Fin M) (1 : ℂ) - mat M M A)⁻¹ *ᵥ vect M v) m‖, sum_nonneg fun _ _ => norm_nonneg _, fun ζ h m hm => ?_⟩
  have e : (scalar (Fin M) (1 : ℂ) - mat M M A) *ᵥ vect M ζ = vect M v := by
    rw [sub_mulVec, ← vect_sum]
    funext k
    rw [map_one, one_mulVec]
    change ζ k - ∑ j ∈ range M, A k j * ζ j = v k
    rw [sub_eq_iff_eq_add']
    exact h k k.2
  have e' : ζ m = ((scalar (Fin M) (1 : ℂ) - mat M M A)⁻¹ *ᵥ vect M v) ⟨m, hm⟩ := by
    rw [← e, mulVec_mulVec, nonsing_inv_mul _ hd, one_mulVec]
    rfl
  rw [e']
  exact single_le_sum (f := fun m => ‖((scalar (Fin M) (1 : ℂ) - mat M M A)⁻¹ *ᵥ vect M v) m‖) (fun _ _ => norm_nonneg _) (mem_univ _)

theorem twice_bounded {M : Nat} {A : Nat → Nat → ℂ} (hA : ∀ l, (mat M M A).charpoly.IsRoot l → ‖l‖ < 1) (β γ : Nat → ℂ) (D : ℂ) (v : Nat → ℂ) :
    ∃ G : ℝ, 0 ≤ G ∧ ∀ ζ : Nat → ℂ, (∀ m, m < M → ζ m = ∑ j ∈ range M, A m j * ζ j + v m) →
      ∀ (pm : Option PadMode) (N e : Nat) (x : Nat → ℂ) (X : ℝ), (∀ t, ‖x t‖ ≤ X) → ∀ t,
        ‖twice (fun x => pass M A β γ D (fun m => ζ m * x 0) x) pm N e x t‖ ≤ G * X := by
  obtain ⟨G, r, hG, hr, hr1, hb⟩ := pass_bound hA β γ D
  obtain ⟨Z, hZ, hζ⟩ := fixed_bounded hA v
  have hq : 0 < (1 - r)⁻¹ := by rw [inv_pos]; linarith
  refine ⟨G * (Z + (1 - r)⁻¹) * (G * (Z + (1 - r)⁻¹)), by positivity, fun ζ h pm N e x X hX t => ?_⟩
  unfold twice
  rw [mul_assoc (G * (Z + (1 - r)⁻¹))]
  exact pass_bounded hG hr hr1 hb hZ (hζ ζ h)
    (fun s => pass_bounded hG hr hr1 hb hZ (hζ ζ h) (fun s => extended_bounded pm N e hX s) (N + 2 * e - 1 - s)) _

/-- The stationary response is the transfer function. -/
theorem transfer_of_diff {K P M : Nat} {b a : Nat → ℂ} {w H : ℂ} (hw : w ≠ 0) (h0 : denAt P a w ≠ 0) (hPM : P ≤ M) (hKM : K ≤ M + 1)
    (h : ∑ k ∈ range (P + 1), denom P a k * (H * w ^ (M - k)) = ∑ j ∈ range K, b j * w ^ (M - j)) : H = transferAt K P b a w := by
  have e1 : ∀ k, k ≤ M → w ^ (M - k) = w ^ M * w⁻¹ ^ k := by
    intro k hk
    rw [inv_pow, pow_sub₀ w hw hk]
  rw [transferAt, eq_div_iff h0]
  refine mul_left_cancel₀ (pow_ne_zero M hw) ?_
  rw [mul_sum]
  have e2 : ∑ j ∈ range K, w ^ M * (b j * w⁻¹ ^ j) = ∑ j ∈ range K, b j * w ^ (M - j) :=
    sum_congr rfl fun j hj => by rw [e1 j (by have := mem_range.1 hj; omega)]; ring
  rw [e2, ← h, denom_sum P a (fun n => H * w ^ n), denAt, mul_add, mul_add, mul_one, mul_sum, mul_sum]
  refine congrArg₂ (· + ·) (by ring) (sum_congr rfl fun k hk => ?_)
  rw [show M - 1 - k = M - (k + 1) by omega, e1 (k + 1) (by have := mem_range.1 hk; omega)]
  ring

theorem twice_response {K P M : Nat} {b a : Nat → ℂ} {A : Nat → Nat → ℂ} (hA : ∀ l, (mat M M A).charpoly.IsRoot l → ‖l‖ < 1) {β γ : Nat → ℂ} {D : ℂ}
    (v : Nat → ℂ) {w : ℂ} (hw : ‖w‖ = 1) (hPM : P ≤ M) (hKM : K ≤ M + 1) (h0 : ∀ w : ℂ, ‖w‖ = 1 → denAt P a w ≠ 0)
    (hR : ∀ z x : Nat → ℂ, ∑ k ∈ range (P + 1), denom P a k * pass M A β γ D z x (M - k) = ∑ j ∈ range K, b j * x (M - j)) :
    ∃ C r : ℝ, 0 ≤ C ∧ 0 < r ∧ r < 1 ∧ ∀ ζ : Nat → ℂ, (∀ m, m < M → ζ m = ∑ j ∈ range M, A m j * ζ j + v m) →
      ∀ (pm : Option PadMode) (N e : Nat) (c : ℂ), (pm = none → e = 0) → ∀ t, t < N →
        ‖twice (fun x => pass M A β γ D (fun m => ζ m * x 0) x) pm N e (fun t => c * w ^ t) t -
          transferAt K P b a w * transferAt K P b a w⁻¹ * (c * w ^ t)‖ ≤ C * ‖c‖ * (r ^ t + r ^ (N - 1 - t)) := by
  obtain ⟨Z, hZ, hζ⟩ := fixed_bounded hA v
  have hw0 : w ≠ 0 := by rintro rfl; norm_num at hw
  have hw' : ‖w⁻¹‖ = 1 := by rw [norm_inv, hw, inv_one]
  have key : ∀ w : ℂ, ‖w‖ = 1 → ∃ s : Nat → ℂ, ∀ c n, pass M A β γ D (fun m => c * s m) (fun t => c * w ^ t) n =
      transferAt K P b a w * (c * w ^ n) := by
    intro w hw
    obtain ⟨s, H, h⟩ := pass_steady hw.ge hA β γ D
    have hH := hR (fun m => 1 * s m) (fun t => 1 * w ^ t)
    simp only [h] at hH
    simp only [one_mul] at hH
    have e : H = transferAt K P b a w :=
      transfer_of_diff (by rintro rfl; norm_num at hw) (h0 w hw) hPM hKM hH
    exact ⟨s, fun c n => by rw [h, e]⟩
  obtain ⟨s, hs⟩ := key w hw
  obtain ⟨s', hs'⟩ := key w⁻¹ hw'
  obtain ⟨C, r, hC, hr, hr1, h⟩ := pass_twice hA hw hs hs' hZ
  refine ⟨C, r, hC, hr, hr1, fun ζ hz pm N e c he t ht => ?_⟩
  have hX : ∀ t, ‖c * w ^ t‖ ≤ ‖c‖ := fun t => by rw [norm_mul, norm_pow, hw, one_pow, mul_one]
  exact h ζ (hζ ζ hz) N e (extended pm N e fun t => c * w ^ t) c ‖c‖ le_rfl (extended_bounded pm N e hX)
    (fun t ht => extended_inner he ht _) t ht

/-! ## The passes of the two forms -/

theorem tdf2_pass {M : Nat} (hM : 0 < M) (b a z x : Nat → ℂ) (n : Nat) :
    tdf2Out M b a z x n = pass M (fun i j => comp a j i) (fun m => b (m + 1) - b 0 * a m) (fun m => if m = 0 then 1 else 0) (b 0) z x n := by
  unfold tdf2Out pass tdf2State
  simp only [ite_mul, one_mul, zero_mul]
  rw [sum_ite_eq', if_pos (mem_range.2 hM)]

theorem df2_pass {K P : Nat} (hP : 0 < P) (hKP : K ≤ P + 1) (b a z x : Nat → ℂ) (n : Nat) :
    taps K b (dfSignal P (zext P a) z x) n = pass P (comp (zext P a)) (fun m => if m = 0 then 1 else 0)
      (fun m => zext K b (m + 1) - zext K b 0 * zext P a m) (zext K b 0) z x n := by
  rw [← taps_zext hKP, ← df_output hP, pass]
  have : first x = fun t k => (if k = 0 then (1 : ℂ) else 0) * x t := by
    funext t k
    rw [first, ite_mul, one_mul, zero_mul]
  rw [this]

/-! ## Real parts -/

theorem vecRec_re {M : Nat} (A : Nat → Nat → Nat → ℝ) (z : Nat → ℂ) (v : Nat → Nat → ℂ) (t m : Nat) :
    (vecRec M (fun t i j => (A t i j : ℂ)) z v t m).re = vecRec M A (fun m => (z m).re) (fun t m => (v t m).re) t m := by
  induction t generalizing m with
  | zero => rfl
  | succ t ih =>
    simp only [vecRec, Complex.add_re, Complex.re_sum, Complex.re_ofReal_mul, ih]

theorem comp_ofReal (a : Nat → ℝ) (i j : Nat) : comp (fun k => (a k : ℂ)) i j = ((comp a i j : ℝ) : ℂ) := by
  unfold comp
  split
  · push_cast; rfl
  · split <;> push_cast <;> rfl

theorem zext_ofReal (K : Nat) (b : Nat → ℝ) : zext K (fun k => (b k : ℂ)) = fun k => ((zext K b k : ℝ) : ℂ) := by
  funext k
  unfold zext
  split
  · rfl
  · rw [Complex.ofReal_zero]

theorem tdf2_re (M : Nat) (b a ζ : Nat → ℝ) (x : Nat → ℂ) (n : Nat) :
    (tdf2Out M (fun k => (b k : ℂ)) (fun k => (a k : ℂ)) (fun m => (ζ m : ℂ) * x 0) x n).re =
      tdf2Out M b a (fun m => ζ m * (x 0).re) (fun t => (x t).re) n := by
  unfold tdf2Out tdf2State
  have h := vecRec_re (M := M) (fun _ i j => comp a j i) (fun m => (ζ m : ℂ) * x 0)
    (fun t i => ((b (i + 1) : ℂ) - b 0 * a i) * x t) n 0
  rw [Complex.add_re, Complex.re_ofReal_mul]
  refine congrArg (· + _) ?_
  rw [show (fun (_ : Nat) i j => comp (fun k => (a k : ℂ)) j i) = fun _ i j => ((comp a j i : ℝ) : ℂ) from
    funext fun _ => funext fun i => funext fun j => comp_ofReal a j i, h]
  congr 1
  · funext m; rw [Complex.re_ofReal_mul]
  · funext t i
    rw [show ((b (i + 1) : ℂ) - b 0 * a i) = ((b (i + 1) - b 0 * a i : ℝ) : ℂ) by push_cast; rfl, Complex.re_ofReal_mul]

theorem df2_re (K P : Nat) (b a ζ : Nat → ℝ) (x : Nat → ℂ) (n : Nat) :
    (taps K (fun k => (b k : ℂ)) (dfSignal P (fun k => (a k : ℂ)) (fun m => (ζ m : ℂ) * x 0) x) n).re =
      taps K b (dfSignal P a (fun m => ζ m * (x 0).re) (fun t => (x t).re)) n := by
  have h : ∀ n : Int, (dfSignal P (fun k => (a k : ℂ)) (fun m => (ζ m : ℂ) * x 0) x n).re =
      dfSignal P a (fun m => ζ m * (x 0).re) (fun t => (x t).re) n := by
    intro n
    unfold dfSignal withPast
    split
    · rw [Complex.re_ofReal_mul]
    · rw [show (fun (_ : Nat) => comp (fun k => (a k : ℂ))) = fun _ i j => ((comp a i j : ℝ) : ℂ) from
        funext fun _ => funext fun i => funext fun j => comp_ofReal a i j, vecRec_re]
      congr 1
      · funext m; rw [Complex.re_ofReal_mul]
      · funext t i; unfold first; split
        · rfl
        · rfl
  unfold taps
  rw [Complex.re_sum]
  exact sum_congr rfl fun j _ => by rw [Complex.re_ofReal_mul, h]

theorem twice_re {R : (Nat → ℂ) → Nat → ℂ} {R' : (Nat → ℝ) → Nat → ℝ} (h : ∀ x n, (R x n).re = R' (fun t => (x t).re) n)
    (pm : Option PadMode) (N e : Nat) (x : Nat → ℂ) (t : Nat) :
    twice R' pm N e (fun t => (x t).re) t = (twice R pm N e x t).re := by
  unfold twice
  rw [h]
  congr 1
  funext s
  rw [h]
  congr 1
  funext s
  exact extended_map Complex.zero_re pm N e x s

end Spec
