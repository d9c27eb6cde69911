import Verif.Proof.StabilityTv
import Verif.Spec.Stability
import Verif.Props.C30
import Verif.Props.C07

/-!
# C60: stability of time-varying filters

* If the coefficients are bounded by `α_k`, `β_j` at all times and `Σ α_k < 1`, then every form of `lpv.lfilter` in either backend maps
  signals of size `X` to outputs of size at most `Σ β_j · X / (1 - Σ α_k)`, at any length (`C60_df2` … `C60_tdf2`), and `lpv.allpole`
  likewise (`C60_allpole`, `C60_allpole_transposed`).
* `lpv.state_space_recursion` with row sums of `|A_t|` at most `r < 1` is bounded and forgets its initial state (`C60_recursion`).
* That the poles of the coefficients of each instant lie inside the unit circle is not enough, in contrast to C58
  (`C60_frozen`, `C60_frozen_lfilter`).

Exact arithmetic in ℝ or ℂ.  Unroll factors as in C30, C07.
-/

namespace Props
open Torch Torch.Tensor Spec Phil Phil.Lpv
open Phil.Lti (Form ok_pair)

variable {𝕜 : Type} [RCLike 𝕜]

/-- Coefficients bounded at all times. -/
def CoefsLe (P : Nat) (a : Nat → Nat → Nat → 𝕜) (α : Nat → ℝ) : Prop := ∀ i t k, k < P → ‖a i t k‖ ≤ α k

theorem CoefsLe.sum_nonneg {P : Nat} {a : Nat → Nat → Nat → 𝕜} {α : Nat → ℝ} (h : CoefsLe P a α) : 0 ≤ ∑ k ∈ Finset.range P, α k :=
  Finset.sum_nonneg fun k hk => (norm_nonneg _).trans (h 0 0 k (Finset.mem_range.1 hk))

/-- The output of the direct form II, from the bound of its inner signal. -/
theorem df2_out {K M N : Nat} {b : Nat → 𝕜} {z w : Nat → 𝕜} {β : Nat → ℝ} {G : ℝ} (hM : K - 1 ≤ M) (hb : ∀ j, j < K → ‖b j‖ ≤ β j)
    (hz : ∀ m, m < M → ‖z m‖ ≤ G) (hw : ∀ n, n < N → ‖w n‖ ≤ G) {n : Nat} (hn : n < N) :
    ‖∑ j ∈ Finset.range K, b j * withPast z w ((n : Int) - j)‖ ≤ (∑ j ∈ Finset.range K, β j) * G :=
  norm_sum_mul_le hb fun j hj => withPast_le (n := n + 1) hz (fun m hm => hw m (by omega)) (by omega) (by omega)

/-- **C60, `df2` with `ssm`**, any initial state of size at most `Z`. -/
theorem C60_df2 {B N K P : Nat} {b a X : Tensor 𝕜} {bv av : Nat → Nat → Nat → 𝕜} {x z : Nat → Nat → 𝕜}
    {zi : Option (Tensor 𝕜)} {u : Option Int} (lpc : Lpc 𝕜) {α β : Nat → ℝ} {r S Z : ℝ} (hb : MatVals B N K b bv) (ha : MatVals B N P a av)
    (hx : Sig N B X x) (hz : InitState B (max P (K - 1)) zi z) (hBN : b.rank = 2 ∧ a.rank = 2 ∨ B ≠ N) (hB : 0 < B)
    (hK : 0 < K) (hM : 0 < max P (K - 1)) (hN : 0 < N) (hu : FilterUnroll (max P (K - 1)) N u)
    (hα : CoefsLe P av α) (hβ : CoefsLe K bv β) (hr : ∑ k ∈ Finset.range P, α k = r) (hr1 : r < 1) (hS : ∀ i t, ‖x i t‖ ≤ S)
    (hZ : ∀ i m, m < max P (K - 1) → ‖z i m‖ ≤ Z) :
    ∃ y : Nat → Nat → 𝕜, (lfilter lpc b a X zi .df2 .ssm u).map Prod.fst = .ok (packed (allFlatTv X b a zi) B N y) ∧
      ∀ i t, t < N → ‖y i t‖ ≤ (∑ j ∈ Finset.range K, β j) * max (S / (1 - r)) Z := by
  obtain ⟨w, hw, e⟩ := C30_ssm_df2_partial lpc hb ha hx hz hBN hB hK hM hN hu
  refine ⟨_, congrArg (Except.map Prod.fst) e, fun i t ht => ?_⟩
  have hwb := allpole_bound (N := N) (le_max_left P (K - 1)) (fun n _ => hw i n) (hα i) hr hr1 (hS i) (hZ i)
  exact df2_out (le_max_right P (K - 1)) (hβ i t) (fun m hm => (hZ i m hm).trans (le_max_right _ _)) hwb ht

example := C60_df2 (B := 3) (N := 7) (K := 3) (P := 2) (u := some 2) refLpc (α := fun _ => 1 / 4) (β := fun _ => 1) (r := 1 / 2) (S := 1) (Z := 1)
  (.batched fun i t k => (-1 : ℂ) ^ (i * t + k)) (.batched fun i t k => (-1 : ℂ) ^ (i + t * k) * (1 / 4)) (.batched 3 fun i t => (-1 : ℂ) ^ (i + t))
  (.full fun i m => (-1 : ℂ) ^ (i * m)) (Or.inr (by decide)) (by decide) (by decide) (by decide) (by decide)
  (by unfold FilterUnroll GoodUnroll FewPrimes; decide +kernel) (fun i t k _ => by norm_num) (fun i t k _ => by norm_num)
  (by norm_num [Finset.sum_range_succ]) (by norm_num) (fun i t => by norm_num) (fun i m _ => by norm_num)

/-- **C60, `df2` with `torchlpc`.** -/
theorem C60_torchlpc_df2 {B N K P : Nat} {b a X : Tensor 𝕜} {bv av : Nat → Nat → Nat → 𝕜} {x z : Nat → Nat → 𝕜}
    {zi : Option (Tensor 𝕜)} {u : Option Int} {lpc : Lpc 𝕜} (hl : IsLpc lpc) {α β : Nat → ℝ} {r S Z : ℝ} (hb : MatVals B N K b bv)
    (ha : MatVals B N P a av) (hx : Sig N B X x) (hz : InitState B (max P (K - 1)) zi z) (hB : 0 < B) (hK : 0 < K)
    (hP : 0 < P) (hN : 0 < N) (hf : zi = none ∨ P ≤ N)
    (hα : CoefsLe P av α) (hβ : CoefsLe K bv β) (hr : ∑ k ∈ Finset.range P, α k = r) (hr1 : r < 1) (hS : ∀ i t, ‖x i t‖ ≤ S)
    (hZ : ∀ i m, m < max P (K - 1) → ‖z i m‖ ≤ Z) :
    ∃ y : Nat → Nat → 𝕜, (lfilter lpc b a X zi .df2 .torchlpc u).map Prod.fst = .ok (packed (allFlatTv X b a zi) B N y) ∧
      ∀ i t, t < N → ‖y i t‖ ≤ (∑ j ∈ Finset.range K, β j) * max (S / (1 - r)) Z := by
  obtain ⟨w, hw, e⟩ := C30_torchlpc_df2_partial (u := u) hl hb ha hx hz hB hK hP hN hf
  refine ⟨_, congrArg (Except.map Prod.fst) e, fun i t ht => ?_⟩
  have hwb := allpole_bound (N := N) (le_max_left P (K - 1)) (hw i) (hα i) hr hr1 (hS i) (hZ i)
  exact df2_out (le_max_right P (K - 1)) (hβ i t) (fun m hm => (hZ i m hm).trans (le_max_right _ _)) hwb ht

example := C60_torchlpc_df2 (B := 3) (N := 7) (K := 3) (P := 2) (u := none) refLpc_isLpc (α := fun _ => 1 / 4) (β := fun _ => 1) (r := 1 / 2)
  (S := 1) (Z := 1) (.batched fun i t k => (-1 : ℂ) ^ (i * t + k)) (.batched fun i t k => (-1 : ℂ) ^ (i + t * k) * (1 / 4))
  (.batched 3 fun i t => (-1 : ℂ) ^ (i + t)) (.full fun i m => (-1 : ℂ) ^ (i * m)) (by decide) (by decide) (by decide) (by decide)
  (Or.inr (by decide)) (fun i t k _ => by norm_num) (fun i t k _ => by norm_num) (by norm_num [Finset.sum_range_succ]) (by norm_num)
  (fun i t => by norm_num) (fun i m _ => by norm_num)

/-- The direct form I. -/
theorem df1_out {K P N : Nat} {b a : Nat → Nat → 𝕜} {x y : Nat → 𝕜} {α β : Nat → ℝ} {r S : ℝ} (hα : ∀ n k, k < P → ‖a n k‖ ≤ α k)
    (hβ : ∀ n j, j < K → ‖b n j‖ ≤ β j) (hr : ∑ k ∈ Finset.range P, α k = r) (hr1 : r < 1) (hS : ∀ t, ‖x t‖ ≤ S)
    (hy : ∀ n, n < N → y n = ∑ j ∈ Finset.range K, b n j * causal x ((n : Int) - j) -
      ∑ k ∈ Finset.range P, a n k * causal y ((n : Int) - 1 - k)) :
    ∀ n, n < N → ‖y n‖ ≤ (∑ j ∈ Finset.range K, β j) * S / (1 - r) := by
  have hS0 : 0 ≤ S := (norm_nonneg _).trans (hS 0)
  have hv : ∀ n, ‖∑ j ∈ Finset.range K, b n j * causal x ((n : Int) - j)‖ ≤ (∑ j ∈ Finset.range K, β j) * S := fun n =>
    norm_sum_mul_le (hβ n) fun j _ => causal_le hS0 (n := n + 1) (fun m _ => hS m) (by omega)
  have h0 : 0 ≤ (∑ j ∈ Finset.range K, β j) * S / (1 - r) := div_nonneg ((norm_nonneg _).trans (hv 0)) (by linarith)
  intro n hn
  have key := allpole_bound (z := fun _ => 0) (Z := 0) (le_refl P)
    (x := fun n => ∑ j ∈ Finset.range K, b n j * causal x ((n : Int) - j)) (v := y) hy hα hr hr1 hv (fun m _ => norm_zero.le) n hn
  rwa [max_eq_left h0] at key

/-- **C60, `df1` with `ssm`.** -/
theorem C60_df1 {B N K P : Nat} {b a X : Tensor 𝕜} {bv av : Nat → Nat → Nat → 𝕜} {x : Nat → Nat → 𝕜} {u : Option Int} (lpc : Lpc 𝕜)
    {α β : Nat → ℝ} {r S : ℝ} (hb : MatVals B N K b bv) (ha : MatVals B N P a av) (hx : Sig N B X x) (hB : 0 < B)
    (hK : 0 < K) (hM : 0 < max P (K - 1)) (hN : 0 < N) (hu : FilterUnroll (max P (K - 1)) N (some (u.getD 1)))
    (hα : CoefsLe P av α) (hβ : CoefsLe K bv β) (hr : ∑ k ∈ Finset.range P, α k = r) (hr1 : r < 1) (hS : ∀ i t, ‖x i t‖ ≤ S) :
    ∃ y : Nat → Nat → 𝕜, lfilter lpc b a X none .df1 .ssm u = .ok (packed (allFlatTv X b a none) B N y, none) ∧
      ∀ i t, t < N → ‖y i t‖ ≤ (∑ j ∈ Finset.range K, β j) * S / (1 - r) := by
  obtain ⟨y, hy, e⟩ := C30_ssm_df1_partial lpc hb ha hx hB hK hM hN hu
  exact ⟨y, e, fun i => df1_out (hα i) (hβ i) hr hr1 (hS i) fun n _ => hy i n⟩

/-- **C60, `df1` with `torchlpc`.** -/
theorem C60_torchlpc_df1 {B N K P : Nat} {b a X : Tensor 𝕜} {bv av : Nat → Nat → Nat → 𝕜} {x : Nat → Nat → 𝕜} {u : Option Int}
    {lpc : Lpc 𝕜} (hl : IsLpc lpc) {α β : Nat → ℝ} {r S : ℝ} (hb : MatVals B N K b bv) (ha : MatVals B N P a av) (hx : Sig N B X x)
    (hB : 0 < B) (hK : 0 < K) (hP : 0 < P) (hN : 0 < N)
    (hα : CoefsLe P av α) (hβ : CoefsLe K bv β) (hr : ∑ k ∈ Finset.range P, α k = r) (hr1 : r < 1) (hS : ∀ i t, ‖x i t‖ ≤ S) :
    ∃ y : Nat → Nat → 𝕜, lfilter lpc b a X none .df1 .torchlpc u = .ok (packed (allFlatTv X b a none) B N y, none) ∧
      ∀ i t, t < N → ‖y i t‖ ≤ (∑ j ∈ Finset.range K, β j) * S / (1 - r) := by
  obtain ⟨y, hy, e⟩ := C30_torchlpc_df1 (u := u) hl hb ha hx hB hK hP hN
  exact ⟨y, e, fun i => df1_out (hα i) (hβ i) hr hr1 (hS i) (hy i)⟩

example := C60_torchlpc_df1 (B := 3) (N := 7) (K := 3) (P := 2) (u := none) refLpc_isLpc (α := fun _ => 1 / 4) (β := fun _ => 1) (r := 1 / 2)
  (S := 1) (.batched fun i t k => (-1 : ℂ) ^ (i * t + k)) (.batched fun i t k => (-1 : ℂ) ^ (i + t * k) * (1 / 4))
  (.batched 3 fun i t => (-1 : ℂ) ^ (i + t)) (by decide) (by decide) (by decide) (by decide)
  (fun i t k _ => by norm_num) (fun i t k _ => by norm_num) (by norm_num [Finset.sum_range_succ]) (by norm_num) (fun i t => by norm_num)

/-- Taps of the fed samples, from rest. -/
theorem tfir_out {K : Nat} {b : Nat → 𝕜} {v : Nat → 𝕜} {β : Nat → ℝ} {G : ℝ} {n : Nat} (hG : 0 ≤ G) (hb : ∀ j, j < K → ‖b j‖ ≤ β j)
    (hv : ∀ m, m ≤ n → ‖v m‖ ≤ G) : ‖∑ j ∈ Finset.range K, if j ≤ n then b j * v (n - j) else 0‖ ≤ (∑ j ∈ Finset.range K, β j) * G := by
  rw [show (∑ j ∈ Finset.range K, if j ≤ n then b j * v (n - j) else 0) = ∑ j ∈ Finset.range K, b j * if j ≤ n then v (n - j) else 0 from
    Finset.sum_congr rfl fun j _ => by split <;> simp]
  refine norm_sum_mul_le hb fun j _ => ?_
  split
  · exact hv _ (by omega)
  · rwa [norm_zero]

/-- **C60, `tdf1` with `ssm`.** -/
theorem C60_tdf1 {B N K P : Nat} {b a X : Tensor 𝕜} {bv av : Nat → Nat → Nat → 𝕜} {x : Nat → Nat → 𝕜} {u : Option Int} (lpc : Lpc 𝕜)
    {α β : Nat → ℝ} {r S : ℝ} (hb : MatVals B N K b bv) (ha : MatVals B N P a av) (hx : Sig N B X x) (hB : 0 < B)
    (hK : 0 < K) (hM : 0 < max P (K - 1)) (hN : 0 < N) (hu : FilterUnroll (max P (K - 1)) N (some (u.getD 1)))
    (hα : CoefsLe P av α) (hβ : CoefsLe K bv β) (hr : ∑ k ∈ Finset.range P, α k = r) (hr1 : r < 1) (hS : ∀ i t, ‖x i t‖ ≤ S) :
    ∃ y : Nat → Nat → 𝕜, lfilter lpc b a X none .tdf1 .ssm u = .ok (packed (allFlatTv X b a none) B N y, none) ∧
      ∀ i t, t < N → ‖y i t‖ ≤ (∑ j ∈ Finset.range K, β j) * (S / (1 - r)) := by
  obtain ⟨v, hv, e⟩ := C30_ssm_tdf1_partial lpc hb ha hx hB hK hM hN hu
  refine ⟨_, e, fun i t ht => ?_⟩
  have hG : 0 ≤ S / (1 - r) := div_nonneg ((norm_nonneg _).trans (hS 0 0)) (by linarith)
  have hvb := tallpole_bound (N := N) (a := fun n k => star (av i (n - k) k)) (fun n _ => hv i n)
    (fun n k hk => (norm_star (av i (n - k) k)).le.trans (hα i _ k hk)) hr hr1 (hS i)
  exact tfir_out (b := fun j => bv i (t - j) j) hG (fun j hj => hβ i _ j hj) fun m hm => hvb m (by omega)

example := C60_tdf1 (B := 3) (N := 7) (K := 3) (P := 2) (u := some 2) refLpc (α := fun _ => 1 / 4) (β := fun _ => 1) (r := 1 / 2)
  (S := 1) (.batched fun i t k => (-1 : ℂ) ^ (i * t + k)) (.batched fun i t k => (-1 : ℂ) ^ (i + t * k) * (1 / 4))
  (.batched 3 fun i t => (-1 : ℂ) ^ (i + t)) (by decide) (by decide) (by decide) (by decide)
  (by unfold FilterUnroll GoodUnroll FewPrimes; decide +kernel)
  (fun i t k _ => by norm_num) (fun i t k _ => by norm_num) (by norm_num [Finset.sum_range_succ]) (by norm_num) (fun i t => by norm_num)

/-- **C60, `tdf1` with `torchlpc`.** -/
theorem C60_torchlpc_tdf1 {B N K P : Nat} {b a X : Tensor 𝕜} {bv av : Nat → Nat → Nat → 𝕜} {x : Nat → Nat → 𝕜} {u : Option Int}
    {lpc : Lpc 𝕜} (hl : IsLpc lpc) {α β : Nat → ℝ} {r S : ℝ} (hb : MatVals B N K b bv) (ha : MatVals B N P a av) (hx : Sig N B X x)
    (hB : 0 < B) (hK : 2 ≤ K) (hP : 0 < P) (hPN : P ≤ N)
    (hα : CoefsLe P av α) (hβ : CoefsLe K bv β) (hr : ∑ k ∈ Finset.range P, α k = r) (hr1 : r < 1) (hS : ∀ i t, ‖x i t‖ ≤ S) :
    ∃ y : Nat → Nat → 𝕜, lfilter lpc b a X none .tdf1 .torchlpc u = .ok (packed (allFlatTv X b a none) B N y, none) ∧
      ∀ i t, t < N → ‖y i t‖ ≤ (∑ j ∈ Finset.range K, β j) * (S / (1 - r)) := by
  obtain ⟨v, hv, e⟩ := C30_torchlpc_tdf1_partial (u := u) hl hb ha hx hB hK hP hPN
  refine ⟨_, e, fun i t ht => ?_⟩
  have hG : 0 ≤ S / (1 - r) := div_nonneg ((norm_nonneg _).trans (hS 0 0)) (by linarith)
  have hvb := tallpole_bound (a := fun n k => star (av i (n - 1 - k) k)) (hv i)
    (fun n k hk => (norm_star (av i (n - 1 - k) k)).le.trans (hα i _ k hk)) hr hr1 (hS i)
  exact tfir_out (b := fun j => star (bv i (t - j) j)) hG (fun j hj => (norm_star (bv i (t - j) j)).le.trans (hβ i _ j hj))
    fun m hm => hvb m (by omega)

example := C60_torchlpc_tdf1 (B := 3) (N := 7) (K := 3) (P := 2) (u := none) refLpc_isLpc (α := fun _ => 1 / 4) (β := fun _ => 1) (r := 1 / 2)
  (S := 1) (.batched fun i t k => (-1 : ℂ) ^ (i * t + k)) (.batched fun i t k => (-1 : ℂ) ^ (i + t * k) * (1 / 4))
  (.batched 3 fun i t => (-1 : ℂ) ^ (i + t)) (by decide) (by decide) (by decide) (by decide)
  (fun i t k _ => by norm_num) (fun i t k _ => by norm_num) (by norm_num [Finset.sum_range_succ]) (by norm_num) (fun i t => by norm_num)

/-- **C60, `tdf2` with `ssm`**, from rest. -/
theorem C60_tdf2 {B N K P : Nat} {b a X : Tensor 𝕜} {bv av : Nat → Nat → Nat → 𝕜} {x : Nat → Nat → 𝕜} {u : Option Int} (lpc : Lpc 𝕜)
    {α β : Nat → ℝ} {r S : ℝ} (hb : MatVals B N K b bv) (ha : MatVals B N P a av)
    (hx : Sig N B X x) (hBN : b.rank = 2 ∨ B ≠ N) (hB : 0 < B)
    (hK : 0 < K) (hM : 0 < max P (K - 1)) (hN : 0 < N) (hu : FilterUnroll (max P (K - 1)) N u)
    (hα : CoefsLe P av α) (hβ : CoefsLe K bv β) (hr : ∑ k ∈ Finset.range P, α k = r) (hr1 : r < 1) (hS : ∀ i t, ‖x i t‖ ≤ S) :
    ∃ y : Nat → Nat → 𝕜, lfilter lpc b a X none .tdf2 .ssm u = .ok (packed (allFlatTv X b a none) B N y, none) ∧
      ∀ i t, t < N → ‖y i t‖ ≤ (∑ j ∈ Finset.range K, β j) * S / (1 - r) := by
  obtain ⟨y, s, h0, hy, hs, e⟩ := C30_ssm_tdf2_partial lpc hb ha hx .zero hBN hB hK hM hN hu
  exact ⟨y, e, fun i t _ => tdf2_bound (b := fun n j => star (bv i n j)) (a := fun n k => star (av i n k)) rfl hK hM (h0 i) (hy i) (hs i)
    (fun n k hk => (norm_star (av i n k)).le.trans (hα i n k hk)) (fun n j hj => (norm_star (bv i n j)).le.trans (hβ i n j hj)) hr hr1 (hS i) t⟩

example := C60_tdf2 (B := 3) (N := 7) (K := 3) (P := 2) (u := some 2) refLpc (α := fun _ => 1 / 4) (β := fun _ => 1) (r := 1 / 2)
  (S := 1) (.batched fun i t k => (-1 : ℂ) ^ (i * t + k)) (.batched fun i t k => (-1 : ℂ) ^ (i + t * k) * (1 / 4))
  (.batched 3 fun i t => (-1 : ℂ) ^ (i + t)) (Or.inr (by decide)) (by decide) (by decide) (by decide) (by decide)
  (by unfold FilterUnroll GoodUnroll FewPrimes; decide +kernel)
  (fun i t k _ => by norm_num) (fun i t k _ => by norm_num) (by norm_num [Finset.sum_range_succ]) (by norm_num) (fun i t => by norm_num)

/-- **C60, `lpv.allpole`** with past outputs of size at most `Z`. -/
theorem C60_allpole {B M N : Nat} {lpc : Lpc 𝕜} (hl : IsLpc lpc) {a : Nat → Nat → Nat → 𝕜} {x z : Nat → Nat → 𝕜} {α : Nat → ℝ} {r S Z : ℝ}
    (hM : 0 < M) (hN : 0 < N) (hα : CoefsLe M a α) (hr : ∑ k ∈ Finset.range M, α k = r) (hr1 : r < 1) (hS : ∀ i t, ‖x i t‖ ≤ S)
    (hZ : ∀ i m, m < M → ‖z i m‖ ≤ Z) :
    ∃ (y : Nat → Nat → 𝕜) (zf : Tensor 𝕜), allpole lpc (t3 B N M a) (t2 B N x) (some (t2 B M z)) false = .ok (t2 B N y, some zf) ∧
      ∀ i t, t < N → ‖y i t‖ ≤ max (S / (1 - r)) Z := by
  obtain ⟨y, zf, hy, -, e⟩ := C28_direct_state_partial (B := B) hl a x z hM hN
  exact ⟨y, zf, e, fun i => allpole_bound (le_refl M) (hy i) (hα i) hr hr1 (hS i) (hZ i)⟩

example := C60_allpole (B := 3) (M := 2) (N := 7) refLpc_isLpc (a := fun i t k => (-1 : ℂ) ^ (i + t * k) * (1 / 4))
  (x := fun i t => (-1 : ℂ) ^ (i + t)) (z := fun i m => (-1 : ℂ) ^ (i * m)) (α := fun _ => 1 / 4) (r := 1 / 2) (S := 1) (Z := 1) (by decide)
  (by decide) (fun i t k _ => by norm_num) (by norm_num [Finset.sum_range_succ]) (by norm_num) (fun i t => by norm_num) (fun i m _ => by norm_num)

/-- **C60, `lpv.allpole`** in transposed form, from rest. -/
theorem C60_allpole_transposed {B M N : Nat} {lpc : Lpc 𝕜} (hl : IsLpc lpc) {a : Nat → Nat → Nat → 𝕜} {x : Nat → Nat → 𝕜} {α : Nat → ℝ}
    {r S : ℝ} (hM : 0 < M) (hMN : M ≤ N) (hα : CoefsLe M a α) (hr : ∑ k ∈ Finset.range M, α k = r) (hr1 : r < 1)
    (hS : ∀ i t, ‖x i t‖ ≤ S) :
    ∃ y : Nat → Nat → 𝕜, allpole lpc (t3 B N M a) (t2 B N x) none true = .ok (t2 B N y, none) ∧
      ∀ i t, t < N → ‖y i t‖ ≤ S / (1 - r) := by
  obtain ⟨y, hy, e⟩ := C28_transposed_partial (B := B) hl a x hM hMN
  exact ⟨y, e, fun i => tallpole_bound (a := fun n k => star (a i (n - 1 - k) k)) (hy i)
    (fun n k hk => (norm_star (a i (n - 1 - k) k)).le.trans (hα i _ k hk)) hr hr1 (hS i)⟩

example := C60_allpole_transposed (B := 3) (M := 2) (N := 7) refLpc_isLpc (a := fun i t k => (-1 : ℂ) ^ (i + t * k) * (1 / 4))
  (x := fun i t => (-1 : ℂ) ^ (i + t)) (α := fun _ => 1 / 4) (r := 1 / 2) (S := 1) (by decide)
  (by decide) (fun i t k _ => by norm_num) (by norm_num [Finset.sum_range_succ]) (by norm_num) (fun i t => by norm_num)

/-- **C60, `lpv.state_space_recursion`**: matrices whose rows sum to at most `r < 1`. -/
theorem C60_recursion {B N M : Nat} {A X : Tensor 𝕜} {Av : Nat → Nat → Nat → Nat → 𝕜} {x : Nat → Nat → Nat → 𝕜} {z : Nat → Nat → 𝕜} {u : Int}
    {r S Z : ℝ} (hA : MatSeq B N M M A Av) (hx : Drive B N M X x) (hB : 0 < B) (hM : 0 < M) (hN : 0 < N) (hu : 1 ≤ u)
    (hP : u ≤ 2 ∨ (N : Int) ≤ u ∨ (u.toNat - 1).Prime) (hr : r < 1) (hrow : ∀ b t i, i < M → ∑ j ∈ Finset.range M, ‖Av b t i j‖ ≤ r)
    (hS : ∀ b t i, ‖x b t i‖ ≤ S) (hZ : ∀ b i, i < M → ‖z b i‖ ≤ Z) :
    ∃ h : Nat → Nat → Nat → 𝕜, Lpv.stateSpaceRecursion A (t2 B M z) X u none = .ok (t3 B N M h) ∧
      ∀ b t i, i < M → ‖h b t i‖ ≤ r ^ (t + 1) * Z + S / (1 - r) :=
  ⟨_, C07_state_space_recursion_partial hA hx z u hB hM hN hu hP, fun b t => vecRec_bound hr (hrow b) (hS b) (hZ b) (t + 1)⟩

example := C60_recursion (B := 3) (N := 7) (M := 2) (z := fun i m => (-1 : ℂ) ^ (i * m)) (u := 4) (r := 1 / 2) (S := 1) (Z := 1)
  (.batched fun b t i j => (-1 : ℂ) ^ (b + t * i + j) * (1 / 4)) (.full fun b t i => (-1 : ℂ) ^ (b + t * i)) (by decide) (by decide) (by decide)
  (by decide) (Or.inr (Or.inr (by decide))) (by norm_num) (fun b t i _ => by norm_num [Finset.sum_range_succ]) (fun b t i => by norm_num)
  (fun b i _ => by norm_num)

/-! ## Frozen stability -/

/-- The poles of `1 ± (3/2)/z + (3/4)/z²` have absolute value `√3/2`. -/
theorem alternating_poles (n : Nat) : ∀ p ∈ poles 2 (fun k => (alternating n k : ℂ)), ‖p‖ < 1 := by
  intro p hp
  have hne : denPoly 2 (fun k => (alternating n k : ℂ)) ≠ 0 := fun h => by simp [poles, h] at hp
  have h := (Polynomial.mem_roots hne).1 hp
  rw [Polynomial.IsRoot] at h
  simp only [denPoly, alternating, Finset.sum_range_succ, Finset.sum_range_zero, Polynomial.eval_add, Polynomial.eval_mul, Polynomial.eval_pow,
    Polynomial.eval_X, Polynomial.eval_C, zero_add, if_true, one_ne_zero, if_false] at h
  norm_num at h
  have hσ : ((-1 : ℝ) ^ n) ^ 2 = 1 := by rw [← pow_mul, mul_comm, pow_mul]; norm_num
  have hre := congrArg Complex.re h
  have him := congrArg Complex.im h
  rw [show ((-1 : ℂ) ^ n) = (((-1 : ℝ) ^ n : ℝ) : ℂ) by push_cast; rfl] at hre him
  generalize (-1 : ℝ) ^ n = σ at *
  simp [pow_two] at hre him
  have hn : ‖p‖ ^ 2 < 1 := by
    rw [← Complex.normSq_eq_norm_sq, Complex.normSq_apply]
    have h2 : p.im * (2 * p.re + σ * (3 / 2)) = 0 := by linear_combination him
    rcases mul_eq_zero.1 h2 with h3 | h3
    · rw [h3] at hre
      nlinarith [sq_nonneg (p.re + σ * (3 / 4))]
    · have : p.re * p.re + p.im * p.im = 3 / 4 := by linear_combination p.re * h3 - hre
      rw [this]; norm_num
  exact (sq_lt_one_iff₀ (norm_nonneg _)).1 hn

/-- **C60 is false with frozen poles**: for the coefficients `(±3/2, 3/4)` with alternating sign, all poles of every instant lie inside the unit
circle, but the response of `lpv.allpole` to an impulse grows like `(3/2)^n`. -/
theorem C60_frozen {N : Nat} {lpc : Lpc ℝ} (hl : IsLpc lpc) (hN : 0 < N) :
    (∀ n, ∀ p ∈ poles 2 (fun k => (alternating n k : ℂ)), ‖p‖ < 1) ∧
      ∃ y : Nat → Nat → ℝ, allpole lpc (t3 1 N 2 fun _ => alternating) (t2 1 N fun _ n => if n = 0 then 1 else 0) none false =
          .ok (t2 1 N y, none) ∧ ∀ n, n < N → (3 / 2) ^ n ≤ |y 0 n| := by
  obtain ⟨y, hy, e⟩ := C28_direct (B := 1) hl (fun _ => alternating) (fun _ n => if n = 0 then 1 else 0) (by decide : 0 < 2) hN
  exact ⟨alternating_poles, y, e, alternating_grows (fun _ => rfl) (hy 0)⟩

example := C60_frozen (N := 7) Lpv.refLpc_isLpc (by decide)

/-- The same for `lpv.lfilter` with the numerator 1, in form `df1`, by both backends. -/
theorem C60_frozen_lfilter {N : Nat} {lpc lpc' : Lpc ℝ} (hl : IsLpc lpc) (hN : 0 < N) :
    ∃ y : Nat → ℝ,
      (lfilter lpc (t2 N 1 fun _ _ => 1) (t2 N 2 alternating) (t1 N fun n => if n = 0 then 1 else 0) none .df1 .torchlpc none =
          .ok (t1 N y, none) ∧
        lfilter lpc' (t2 N 1 fun _ _ => 1) (t2 N 2 alternating) (t1 N fun n => if n = 0 then 1 else 0) none .df1 .ssm none =
          .ok (t1 N y, none)) ∧
      ∀ n, n < N → (3 / 2) ^ n ≤ |y n| := by
  obtain ⟨y, hy, e⟩ := C30_torchlpc_df1 (u := none) (K := 1) (P := 2) hl (.shared fun _ _ => (1 : ℝ)) (.shared alternating)
    (.flat fun n => if n = 0 then (1 : ℝ) else 0) (by decide) (by decide) (by decide) hN
  have e' := C30_agree_df1_partial (u := none) (u' := none) (K := 1) (P := 2) (lpc' := lpc') hl (.shared fun _ _ => (1 : ℝ)) (.shared alternating)
    (.flat fun n => if n = 0 then (1 : ℝ) else 0) (by decide) (by decide) (by decide) hN (.inl ⟨by simp, .inl (by simp)⟩)
  have hp : packed (allFlatTv (t1 N fun n => if n = 0 then (1 : ℝ) else 0) (t2 N 1 fun _ _ => 1) (t2 N 2 alternating) none) 1 N y = t1 N (y 0) := by
    unfold packed allFlatTv
    rw [if_pos]
    simp
  rw [hp] at e
  refine ⟨y 0, ⟨e, e'.symm.trans e⟩, alternating_grows (x := fun n => if n = 0 then 1 else 0) (fun _ => rfl) fun n hn => ?_⟩
  rw [hy 0 n hn, Finset.sum_range_one, one_mul]
  simp [causal]

example := C60_frozen_lfilter (N := 7) (lpc' := refLpc) refLpc_isLpc (by decide)

/-! ## Instances -/

/-- `y_n = x_n - a_n y_{n-1}/2` with `|a_n| ≤ 1`, whatever it does: signals of at most 1 give outputs of at most 2, at any length. -/
example (N : Nat) (a x : Nat → ℝ) (hN : 0 < N) (ha : ∀ t, |a t| ≤ 1) (hx : ∀ t, |x t| ≤ 1) :
    ∃ y : Nat → Nat → ℝ, lfilter refLpc (t2 N 1 fun _ _ => 1) (t2 N 1 fun n _ => a n / 2) (t1 N x) none .df1 .ssm none =
      .ok (packed (allFlatTv (t1 N x) (t2 N 1 fun _ _ => 1) (t2 N 1 fun n _ => a n / 2) none) 1 N y, none) ∧ ∀ i t, t < N → |y i t| ≤ 2 := by
  obtain ⟨y, e, h⟩ := C60_df1 (K := 1) (P := 1) (u := none) refLpc (α := fun _ => 1 / 2) (β := fun _ => 1) (r := 1 / 2) (S := 1)
    (.shared fun _ _ => (1 : ℝ)) (.shared fun n _ => a n / 2) (.flat x) (by decide) (by decide) (by decide) hN (.inl ⟨by simp, .inl (by simp)⟩)
    (fun i t k _ => by rw [Real.norm_eq_abs, abs_div, abs_of_pos (by norm_num : (0 : ℝ) < 2)]; linarith [ha t])
    (fun i t k _ => by simp) (by simp) (by norm_num) (fun i t => hx t)
  exact ⟨y, e, fun i t ht => (h i t ht).trans (by norm_num)⟩

end Props
