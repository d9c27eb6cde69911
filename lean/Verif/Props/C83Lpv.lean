import Verif.Props.C83
import Verif.Props.C30

/-!
# C83 for time-varying filters

`lpv.lfilter` with the backend `ssm`.  Unroll factors for which the blocked recursion is correct (C07).
-/

namespace Props
open Torch Torch.Tensor Spec Phil Phil.Lpv
open Phil.Lti (Form ok_pair)
variable {α : Type} [CommRing α]

/-- The delay line with time-varying coefficients as long as the zeros at its end are not seen. -/
theorem delay_unroll_tv {M : Nat} {β γ : Nat → Nat → α} {z x y : Nat → α} {s : Nat → Nat → α} (h0 : ∀ m, s 0 m = z m)
    (hs : ∀ t m, m < M → s (t + 1) m = (β t m * x t - γ t m * y t) + if m + 1 < M then s t (m + 1) else 0) (t : Nat) :
    ∀ m, t + m < M → s t m = z (t + m) + ∑ k ∈ Finset.range t, (β (t - 1 - k) (m + k) * x (t - 1 - k) - γ (t - 1 - k) (m + k) * y (t - 1 - k)) := by
  induction t with
  | zero => intro m _; simp [h0]
  | succ t ih =>
    intro m hm
    rw [hs t m (by omega), if_pos (by omega), ih (m + 1) (by omega), Finset.sum_range_succ', show t + (m + 1) = t + 1 + m by omega]
    have e : ∀ k ∈ Finset.range t, β (t - 1 - k) (m + 1 + k) * x (t - 1 - k) - γ (t - 1 - k) (m + 1 + k) * y (t - 1 - k) =
        β (t + 1 - 1 - (k + 1)) (m + (k + 1)) * x (t + 1 - 1 - (k + 1)) - γ (t + 1 - 1 - (k + 1)) (m + (k + 1)) * y (t + 1 - 1 - (k + 1)) :=
      fun k _ => by rw [show m + 1 + k = m + (k + 1) by omega, show t - 1 - k = t + 1 - 1 - (k + 1) by omega]
    rw [Finset.sum_congr rfl e]
    simp only [Nat.add_zero, Nat.sub_zero, Nat.add_sub_cancel]
    ring

variable [StarRing α]

/-- **C83, `lpv.lfilter`, tdf2**: for any signal of `M` samples and any wanted output exactly one initial state gives it:
`z_m = y_m - Σ_{k≤m} b_{m-k,k} x_{m-k} + Σ_{k<m} a_{m-1-k,k} y_{m-1-k}`. -/
theorem C83_lpv_tdf2_observe {B K P : Nat} {b a : Tensor α} {bv av : Nat → Nat → Nat → α} {u : Option Int} (lpc : Lpc α)
    (hb : MatVals B (max P (K - 1)) K b bv) (ha : MatVals B (max P (K - 1)) P a av) (hBN : b.rank = 2 ∨ B ≠ max P (K - 1)) (hB : 0 < B)
    (hK : 0 < K) (hM : 0 < max P (K - 1)) (hu : FilterUnroll (max P (K - 1)) (max P (K - 1)) u) (x y z : Nat → Nat → α) :
    (∃ zf, lfilter lpc b a (t2 B (max P (K - 1)) x) (some (t2 B (max P (K - 1)) z)) .tdf2 .ssm u =
        .ok (t2 B (max P (K - 1)) y, some zf)) ↔
      ∀ i m, i < B → m < max P (K - 1) → z i m = y i m - ∑ k ∈ Finset.range (m + 1), star (zext K (bv i (m - k)) k) * x i (m - k) +
        ∑ k ∈ Finset.range m, star (zext P (av i (m - 1 - k)) k) * y i (m - 1 - k) := by
  obtain ⟨w, s, h0, hy, hs, e⟩ := C30_ssm_tdf2_partial lpc hb ha (.batched B x) (.full z) hBN hB hK hM hM hu
  rw [packed_batch_tv, packed_batch_tv] at e
  have out : ∀ i m, m < max P (K - 1) → w i m = z i m + ∑ k ∈ Finset.range (m + 1), star (zext K (bv i (m - k)) k) * x i (m - k) -
      ∑ k ∈ Finset.range m, star (zext P (av i (m - 1 - k)) k) * w i (m - 1 - k) := fun i m hm => by
    have d := delay_unroll_tv (β := fun t m => star (zext K (bv i t) (m + 1))) (γ := fun t m => star (zext P (av i t) m)) (x := x i)
      (y := w i) (h0 i) (fun t m hm => by
        rw [hs i t m hm, zext, zext]
        refine congrArg₂ (· + ·) (congrArg₂ (· - ·) ?_ ?_) rfl <;> split <;> simp) m 0 (by omega)
    rw [hy, d, Finset.sum_sub_distrib, Finset.sum_range_succ', zext_lt _ hK]
    simp only [Nat.zero_add, Nat.add_zero, Nat.sub_zero]
    have e : ∀ k ∈ Finset.range m, star (zext K (bv i (m - 1 - k)) (k + 1)) * x i (m - 1 - k) =
        star (zext K (bv i (m - (k + 1))) (k + 1)) * x i (m - (k + 1)) :=
      fun k _ => by rw [show m - 1 - k = m - (k + 1) by omega]
    rw [Finset.sum_congr rfl e]
    ring
  have eq : (∃ zf, lfilter lpc b a (t2 B (max P (K - 1)) x) (some (t2 B (max P (K - 1)) z)) .tdf2 .ssm u =
      .ok (t2 B (max P (K - 1)) y, some zf)) ↔ ∀ i m, i < B → m < max P (K - 1) → w i m = y i m := by
    rw [← t2_eq_iff, e]
    exact ⟨fun ⟨_, h⟩ => congrArg Prod.fst (Except.ok.inj h), fun h => ⟨_, ok_pair h rfl⟩⟩
  rw [eq]
  constructor
  · intro h i m hi hm
    have o := out i m hm
    have g : ∑ k ∈ Finset.range m, star (zext P (av i (m - 1 - k)) k) * w i (m - 1 - k) =
        ∑ k ∈ Finset.range m, star (zext P (av i (m - 1 - k)) k) * y i (m - 1 - k) :=
      Finset.sum_congr rfl fun k hk => by rw [h i (m - 1 - k) hi (by have := Finset.mem_range.1 hk; omega)]
    rw [h i m hi hm, g] at o
    linear_combination -o
  · intro h i m hi
    induction m using Nat.strong_induction_on with
    | _ m ih =>
      intro hm
      have g : ∑ k ∈ Finset.range m, star (zext P (av i (m - 1 - k)) k) * w i (m - 1 - k) =
          ∑ k ∈ Finset.range m, star (zext P (av i (m - 1 - k)) k) * y i (m - 1 - k) := Finset.sum_congr rfl fun k hk => by
        rw [ih (m - 1 - k) (by have := Finset.mem_range.1 hk; omega) (by have := Finset.mem_range.1 hk; omega)]
      rw [out i m hm, h i m hi hm, g]
      ring

example := C83_lpv_tdf2_observe (B := 3) (K := 3) (P := 2) (u := some 2) refLpc (.batched fun i t k => (i : ℤ) + t * k)
  (.batched fun i t k => (i : ℤ) - t * k) (Or.inr (by decide)) (by decide) (by decide) (by decide)
  (by unfold FilterUnroll GoodUnroll FewPrimes; decide +kernel) (fun i t => i + t) (fun i t => i * t) (fun i t => i - t)

/-- **C83, `lpv.lfilter`, df2**: from any state to any other state leads exactly one signal of `M` samples. -/
theorem C83_lpv_df2_reach {B K P : Nat} {b a : Tensor α} {bv av : Nat → Nat → Nat → α} {u : Option Int} (lpc : Lpc α)
    (hb : MatVals B (max P (K - 1)) K b bv) (ha : MatVals B (max P (K - 1)) P a av)
    (hBN : b.rank = 2 ∧ a.rank = 2 ∨ B ≠ max P (K - 1)) (hB : 0 < B) (hK : 0 < K) (hM : 0 < max P (K - 1))
    (hu : FilterUnroll (max P (K - 1)) (max P (K - 1)) u) (x z f : Nat → Nat → α) :
    (∃ y, lfilter lpc b a (t2 B (max P (K - 1)) x) (some (t2 B (max P (K - 1)) z)) .df2 .ssm u =
        .ok (y, some (t2 B (max P (K - 1)) f))) ↔
      ∀ i n, i < B → n < max P (K - 1) → x i n = f i (max P (K - 1) - 1 - n) +
        ∑ k ∈ Finset.range P, av i n k * if k < n then f i (max P (K - 1) - n + k) else z i (k - n) := by
  obtain ⟨w, hw, e⟩ := C30_ssm_df2_partial lpc hb ha (.batched B x) (.full z) hBN hB hK hM hM hu
  rw [packed_batch_tv, packed_batch_tv] at e
  have hPM : P ≤ max P (K - 1) := le_max_left _ _
  have now : ∀ i (n : Nat), withPast (z i) (w i) n = w i n := fun i n => by simp [withPast]
  have before : ∀ i (m : Nat), withPast (z i) (w i) (-1 - m) = z i m := fun i m => by
    rw [withPast, if_pos (by omega)]; congr 1; omega
  generalize max P (K - 1) = M at *
  have eq : (∃ y, lfilter lpc b a (t2 B M x) (some (t2 B M z)) .df2 .ssm u = .ok (y, some (t2 B M f))) ↔
      ∀ i n, i < B → n < M → w i n = f i (M - 1 - n) := by
    rw [e]
    have : (∃ y, (Except.ok (t2 B M fun i n => ∑ j ∈ Finset.range K, bv i n j * withPast (z i) (w i) ((n : Int) - j),
      if (some (t2 B M z)).isSome then some (t2 B M fun i m => withPast (z i) (w i) ((M : Int) - 1 - m)) else none) :
        Res (Tensor α × Option (Tensor α))) = .ok (y, some (t2 B M f))) ↔
      t2 B M (fun i m => withPast (z i) (w i) ((M : Int) - 1 - m)) = t2 B M f :=
      ⟨fun ⟨_, h⟩ => Option.some.inj (congrArg Prod.snd (Except.ok.inj h)), fun h => ⟨_, ok_pair rfl (congrArg some h)⟩⟩
    rw [this, t2_eq_iff]
    refine ⟨fun h i n hi hn => ?_, fun h i m hi hm => ?_⟩
    · rw [← h i (M - 1 - n) hi (by omega), ← now]; congr 1; omega
    · rw [show (M : Int) - 1 - m = ((M - 1 - m : Nat) : Int) by omega, now, h i _ hi (by omega)]; congr 1; omega
  rw [eq]
  have past : ∀ i n k, i < B → n < M → k < P → (∀ j, j < n → w i j = f i (M - 1 - j)) →
      withPast (z i) (w i) ((n : Int) - 1 - k) = if k < n then f i (M - n + k) else z i (k - n) := fun i n k hi hn hk h => by
    split
    · rw [show (n : Int) - 1 - k = ((n - 1 - k : Nat) : Int) by omega, now, h _ (by omega)]; congr 1; omega
    · rw [show (n : Int) - 1 - k = -1 - ((k - n : Nat) : Int) by omega, before]
  constructor
  · intro h i n hi hn
    have o := hw i n
    rw [h i n hi hn, Finset.sum_congr rfl fun k hk => by
      rw [past i n k hi hn (Finset.mem_range.1 hk) fun j hj => h i j hi (by omega)]] at o
    linear_combination -o
  · intro h i n hi
    induction n using Nat.strong_induction_on with
    | _ n ih =>
      intro hn
      rw [hw i n, Finset.sum_congr rfl fun k hk => by
        rw [past i n k hi hn (Finset.mem_range.1 hk) fun j hj => ih j hj (by omega)], h i n hi hn]
      ring

example := C83_lpv_df2_reach (B := 3) (K := 3) (P := 2) (u := some 2) refLpc (.batched fun i t k => (i : ℤ) + t * k)
  (.batched fun i t k => (i : ℤ) - t * k) (Or.inr (by decide)) (by decide) (by decide) (by decide)
  (by unfold FilterUnroll GoodUnroll FewPrimes; decide +kernel) (fun i t => i + t) (fun i t => i * t) (fun i t => i - t)

end Props
