import Verif.Proof.LpvSquare
import Verif.Proof.LpvUnroll
import Verif.Props.C27
import Verif.Props.C28
import Mathlib.NumberTheory.Zsqrtd.GaussianInt

/-!
# C30: `lpv.lfilter` and its two backends

Full claim: with coefficients `b_{n,j}` (`j < K`) and `a_{n,k}` (`k < P`) given once or per batch item (`MatVals`, of shape
`(N, K)` or `(batch, N, K)`), every form computes its textbook recursion with the coefficients in force at the time of the
step, and the two backends agree on the forms both support.

Missing or false:
* the unroll factors for which the blocked recursion is wrong (C07), which include the default for some lengths:
  `C30_unroll`; the exact conditions are `C30_exact_df2`, `C30_exact_tdf2`, `C30_exact_df1`, `C30_exact_tdf1`;
* per-item coefficients with `batch = N` in `df2`, and per-item `b` with `batch = N` in `tdf2` (backend `ssm`): the shape
  test takes `(batch, N)` for something else, `C30_square`;
* `tdf1` differs between the backends: `C30_tdf1_differ`;
* complex coefficients in `tdf1`, `tdf2` are conjugated (`star` below);
* `torchlpc` is trusted to meet `IsLpc`.
-/

namespace Props
open Torch Torch.Tensor Spec Phil Phil.Lpv
open Phil.Lti (ok_pair Form)
variable {α : Type} [CommRing α] [StarRing α]

/-- **C30 (partial), `df2` with `ssm`.** `w_n = x_n - Σ_k a_{n,k} w_{n-1-k}`, `y_n = Σ_j b_{n,j} w_{n-j}`, with the past of
`w` given by the initial state, and the last `max P (K-1)` values of `w` as final state. -/
theorem C30_ssm_df2_partial {B N K P : Nat} {b a X : Tensor α} {bv av : Nat → Nat → Nat → α} {x z : Nat → Nat → α}
    {zi : Option (Tensor α)} {u : Option Int} (lpc : Lpc α) (hb : MatVals B N K b bv) (ha : MatVals B N P a av)
    (hx : Sig N B X x) (hz : InitState B (max P (K - 1)) zi z) (hBN : b.rank = 2 ∧ a.rank = 2 ∨ B ≠ N) (hB : 0 < B)
    (hK : 0 < K) (hM : 0 < max P (K - 1)) (hN : 0 < N) (hu : FilterUnroll (max P (K - 1)) N u) :
    ∃ w : Nat → Nat → α,
      (∀ i n, w i n = x i n - ∑ k ∈ Finset.range P, av i n k * withPast (z i) (w i) ((n : Int) - 1 - k)) ∧
      lfilter lpc b a X zi .df2 .ssm u =
        .ok (packed (allFlatTv X b a zi) B N fun i n =>
            ∑ j ∈ Finset.range K, bv i n j * withPast (z i) (w i) ((n : Int) - j),
          if zi.isSome then some (packed (allFlatTv X b a zi) B (max P (K - 1)) fun i m =>
            withPast (z i) (w i) ((N : Int) - 1 - m)) else none) := by
  refine ⟨fun i n => tvSignal (max P (K - 1)) (fun t => zext P (av i t)) (z i) (x i) n, fun i n => ?_, ?_⟩
  · beta_reduce
    rw [tv_signal hM, ← tvSignal_eq]
    exact congrArg₂ (· - ·) rfl (taps_zext (K := P) (by omega) (av i n) _ _)
  · refine (lfilterWith_seq hb ha hx (ssmLfilter_tvdf2_of hb ha x hz hBN hK hM hN (recOn_filter _ _ hB hM hN hu))).trans ?_
    simp only [← tvSignal_eq]
    rfl

example := C30_ssm_df2_partial (B := 2) (N := 7) (K := 3) (P := 2) (u := some 2) Lpv.refLpc (.batched fun i t k => (i : ℤ) + t * k)
  (.batched fun i t k => (i : ℤ) - t * k) (.batched 2 fun i t => (i : ℤ) * t) (.full fun i t => (i : ℤ) - t) (Or.inr (by decide)) (by decide)
  (by decide) (by decide) (by decide) (by unfold FilterUnroll GoodUnroll FewPrimes; decide +kernel)

/-- **C30 (partial), `tdf2` with `ssm`.** The delay line `s` starts from the initial state;
`y_n = s_0 + b_{n,0} x_n`, `s_m' = b_{n,m+1} x_n - a_{n,m} y_n + s_{m+1}`; the final delay line is returned. -/
theorem C30_ssm_tdf2_partial {B N K P : Nat} {b a X : Tensor α} {bv av : Nat → Nat → Nat → α} {x z : Nat → Nat → α}
    {zi : Option (Tensor α)} {u : Option Int} (lpc : Lpc α) (hb : MatVals B N K b bv) (ha : MatVals B N P a av)
    (hx : Sig N B X x) (hz : InitState B (max P (K - 1)) zi z) (hBN : b.rank = 2 ∨ B ≠ N) (hB : 0 < B)
    (hK : 0 < K) (hM : 0 < max P (K - 1)) (hN : 0 < N) (hu : FilterUnroll (max P (K - 1)) N u) :
    ∃ (y : Nat → Nat → α) (s : Nat → Nat → Nat → α),
      (∀ i m, s i 0 m = z i m) ∧ (∀ i n, y i n = s i n 0 + star (bv i n 0) * x i n) ∧
      (∀ i n m, m < max P (K - 1) → s i (n + 1) m =
        ((if m + 1 < K then star (bv i n (m + 1)) * x i n else 0) - if m < P then star (av i n m) * y i n else 0) +
          if m + 1 < max P (K - 1) then s i n (m + 1) else 0) ∧
      lfilter lpc b a X zi .tdf2 .ssm u = .ok (packed (allFlatTv X b a zi) B N y,
        if zi.isSome then some (packed (allFlatTv X b a zi) B (max P (K - 1)) fun i m => s i N m) else none) := by
  refine ⟨_, fun i => tvTdf2State (max P (K - 1)) (fun t k => star (zext K (bv i t) k))
    (fun t k => star (zext P (av i t) k)) (z i) (x i), fun i m => rfl, fun i n => ?_, fun i n m hm => ?_,
    lfilterWith_seq hb ha hx (ssmLfilter_tvtdf2_of hb ha x hz hBN hK hM hN (recOn_filter _ _ hB hM hN hu))⟩
  · rw [tvTdf2Out, zext, if_pos hK]
  · beta_reduce
    rw [tvTdf2_step _ _ _ _ _ hm, zext, zext]
    refine congrArg₂ (· + ·) (congrArg₂ (· - ·) ?_ ?_) rfl
    · split <;> simp
    · split <;> simp

example := C30_ssm_tdf2_partial (B := 2) (N := 7) (K := 3) (P := 2) (u := some 2) Lpv.refLpc (.batched fun i t k => (i : ℤ) + t * k)
  (.batched fun i t k => (i : ℤ) - t * k) (.batched 2 fun i t => (i : ℤ) * t) (.full fun i t => (i : ℤ) - t) (Or.inr (by decide)) (by decide)
  (by decide) (by decide) (by decide) (by unfold FilterUnroll GoodUnroll FewPrimes; decide +kernel)

/-- **C30 (partial), `df1` with `ssm`.** `y_n = Σ_j b_{n,j} x_{n-j} - Σ_k a_{n,k} y_{n-1-k}`, starting from rest. -/
theorem C30_ssm_df1_partial {B N K P : Nat} {b a X : Tensor α} {bv av : Nat → Nat → Nat → α} {x : Nat → Nat → α}
    {u : Option Int} (lpc : Lpc α) (hb : MatVals B N K b bv) (ha : MatVals B N P a av) (hx : Sig N B X x) (hB : 0 < B)
    (hK : 0 < K) (hM : 0 < max P (K - 1)) (hN : 0 < N) (hu : FilterUnroll (max P (K - 1)) N (some (u.getD 1))) :
    ∃ y : Nat → Nat → α,
      (∀ i n, y i n = ∑ j ∈ Finset.range K, bv i n j * causal (x i) ((n : Int) - j) -
        ∑ k ∈ Finset.range P, av i n k * causal (y i) ((n : Int) - 1 - k)) ∧
      lfilter lpc b a X none .df1 .ssm u = .ok (packed (allFlatTv X b a none) B N y, none) := by
  refine ⟨_, fun i n => ?_, lfilterWith_seq (c := false) (M := 0) (zf := fun _ _ => 0) hb ha hx
    (ssmLfilter_tvdf1_of hb ha x none hK hM hN (recOn_filter _ _ hB hM hN hu))⟩
  rw [tv_signal hM, tvSignal_eq]
  exact congrArg₂ (· - ·) rfl (taps_zext (K := P) (by omega) (av i n) _ _)

example := C30_ssm_df1_partial (B := 2) (N := 7) (K := 3) (P := 2) (u := some 2) Lpv.refLpc (.batched fun i t k => (i : ℤ) + t * k)
  (.batched fun i t k => (i : ℤ) - t * k) (.batched 2 fun i t => (i : ℤ) * t) (by decide) (by decide) (by decide) (by decide)
  (by unfold FilterUnroll GoodUnroll FewPrimes; decide +kernel)

/-- **C30 (partial), `tdf1` with `ssm`.** `v_n = x_n - Σ_{k<n} a_{n-k,k} v_{n-1-k}`, `y_n = Σ_{j≤n} b_{n-j,j} v_{n-j}`. -/
theorem C30_ssm_tdf1_partial {B N K P : Nat} {b a X : Tensor α} {bv av : Nat → Nat → Nat → α} {x : Nat → Nat → α}
    {u : Option Int} (lpc : Lpc α) (hb : MatVals B N K b bv) (ha : MatVals B N P a av) (hx : Sig N B X x) (hB : 0 < B)
    (hK : 0 < K) (hM : 0 < max P (K - 1)) (hN : 0 < N) (hu : FilterUnroll (max P (K - 1)) N (some (u.getD 1))) :
    ∃ v : Nat → Nat → α,
      (∀ i n, v i n = x i n - ∑ k ∈ Finset.range P, if k < n then star (av i (n - k) k) * v i (n - 1 - k) else 0) ∧
      lfilter lpc b a X none .tdf1 .ssm u = .ok (packed (allFlatTv X b a none) B N fun i n =>
        ∑ j ∈ Finset.range K, if j ≤ n then bv i (n - j) j * v i (n - j) else 0, none) := by
  refine ⟨fun i t => vecRec (max P (K - 1)) (fun t k j => comp (fun m => star (zext P (av i t) m)) j k) (fun _ => 0)
    (first (x i)) (t + 1) 0, fun i n => ?_, ?_⟩
  · beta_reduce
    rw [tv_tallpole hM]
    refine congrArg₂ (· - ·) rfl ?_
    refine (Finset.sum_subset (Finset.range_mono (show P ≤ max P (K - 1) by omega)) fun k _ hk => ?_).symm.trans
      (Finset.sum_congr rfl fun k hk => ?_)
    · have hk : ¬ k < P := fun h => hk (Finset.mem_range.2 h)
      simp only [zext, if_neg hk, star_zero, zero_mul, ite_self]
    · simp only [zext, if_pos (Finset.mem_range.1 hk)]
      by_cases h : k < n
      · rw [if_pos h, if_pos h, show n - 1 - k + 1 = n - k by omega]
      · rw [if_neg h, if_neg h]
  · refine (lfilterWith_seq (c := false) (M := 0) (zf := fun _ _ => 0) hb ha hx
      (ssmLfilter_tvtdf1_of hb ha x none hK hM hN (recOn_filter _ _ hB hM hN hu))).trans (ok_pair ?_ rfl)
    have h : ∀ i n, n < N → tvConv N (max P (K - 1)) (fun t => zext K (bv i t)) (fun t => vecRec (max P (K - 1))
        (fun t k j => comp (fun m => star (zext P (av i t) m)) j k) (fun _ => 0) (first (x i)) (t + 1) 0) n =
        ∑ j ∈ Finset.range K, if j ≤ n then bv i (n - j) j * vecRec (max P (K - 1))
          (fun t k j => comp (fun m => star (zext P (av i t) m)) j k) (fun _ => 0) (first (x i)) (n - j + 1) 0 else 0 := by
      intro i n hn
      rw [tvConv]
      refine (Finset.sum_subset (Finset.range_mono (show K ≤ max P (K - 1) + 1 by omega)) fun k _ hk => ?_).symm.trans
        (Finset.sum_congr rfl fun k hk => ?_)
      · have hk : ¬ k < K := fun h => hk (Finset.mem_range.2 h)
        simp only [zext, if_neg hk, zero_mul, ite_self]
      · simp only [zext, if_pos (Finset.mem_range.1 hk)]
        by_cases h : k ≤ n
        · rw [if_pos h, if_pos ⟨h, by omega⟩]
        · rw [if_neg h, if_neg (fun h' => h h'.1)]
    unfold packed
    split
    · exact t1_congr rfl fun n hn => h 0 n hn
    · exact t2_congr rfl rfl fun i n _ hn => h i n hn

example := C30_ssm_tdf1_partial (B := 2) (N := 7) (K := 3) (P := 2) (u := some 2) Lpv.refLpc (.batched fun i t k => (i : ℤ) + t * k)
  (.batched fun i t k => (i : ℤ) - t * k) (.batched 2 fun i t => (i : ℤ) * t) (by decide) (by decide) (by decide) (by decide)
  (by unfold FilterUnroll GoodUnroll FewPrimes; decide +kernel)

/-- **C30, `df2` with `torchlpc`**, for every batch size and length; the final state needs `P ≤ N`. -/
theorem C30_torchlpc_df2_partial {B N K P : Nat} {b a X : Tensor α} {bv av : Nat → Nat → Nat → α} {x z : Nat → Nat → α}
    {zi : Option (Tensor α)} {u : Option Int} {lpc : Lpc α} (hl : IsLpc lpc) (hb : MatVals B N K b bv)
    (ha : MatVals B N P a av) (hx : Sig N B X x) (hz : InitState B (max P (K - 1)) zi z) (hB : 0 < B) (hK : 0 < K)
    (hP : 0 < P) (hN : 0 < N) (hf : zi = none ∨ P ≤ N) :
    ∃ w : Nat → Nat → α,
      (∀ i n, n < N → w i n = x i n - ∑ k ∈ Finset.range P, av i n k * withPast (z i) (w i) ((n : Int) - 1 - k)) ∧
      lfilter lpc b a X zi .df2 .torchlpc u =
        .ok (packed (allFlatTv X b a zi) B N fun i n =>
            ∑ j ∈ Finset.range K, bv i n j * withPast (z i) (w i) ((n : Int) - j),
          if zi.isSome then some (packed (allFlatTv X b a zi) B (max P (K - 1)) fun i m =>
            withPast (z i) (w i) ((N : Int) - 1 - m)) else none) := by
  obtain ⟨w, zf, hw, hzf, e⟩ := torchlpc_df2 (B := B) (K := K) hl bv av x z zi.isSome hK hP hN
  refine ⟨w, fun i => hw i, lfilterWith_seq hb ha hx ((torchlpcLfilter_eq lpc hb ha x hz hB .df2).trans (e.trans ?_))⟩
  refine ok_pair rfl ?_
  rcases hf with rfl | h
  · rfl
  · rw [hzf h]

example := C30_torchlpc_df2_partial (B := 2) (N := 7) (K := 3) (P := 2) (u := some 2) Lpv.refLpc_isLpc (.batched fun i t k => (i : ℤ) + t * k)
  (.batched fun i t k => (i : ℤ) - t * k) (.batched 2 fun i t => (i : ℤ) * t) (.full fun i t => (i : ℤ) - t) (by decide) (by decide) (by decide)
  (by decide) (by decide)

/-- **C30, `df1` with `torchlpc`.** -/
theorem C30_torchlpc_df1 {B N K P : Nat} {b a X : Tensor α} {bv av : Nat → Nat → Nat → α} {x : Nat → Nat → α}
    {u : Option Int} {lpc : Lpc α} (hl : IsLpc lpc) (hb : MatVals B N K b bv) (ha : MatVals B N P a av)
    (hx : Sig N B X x) (hB : 0 < B) (hK : 0 < K) (hP : 0 < P) (hN : 0 < N) :
    ∃ y : Nat → Nat → α,
      (∀ i n, n < N → y i n = ∑ j ∈ Finset.range K, bv i n j * causal (x i) ((n : Int) - j) -
        ∑ k ∈ Finset.range P, av i n k * causal (y i) ((n : Int) - 1 - k)) ∧
      lfilter lpc b a X none .df1 .torchlpc u = .ok (packed (allFlatTv X b a none) B N y, none) := by
  obtain ⟨y, hy, e⟩ := torchlpc_df1 (B := B) (K := K) hl bv av x (t2 B (max P (K - 1)) fun _ _ => 0) false hK hP hN
  exact ⟨y, fun i => hy i, lfilterWith_seq (c := false) (M := 0) (zf := fun _ _ => 0) hb ha hx
    ((torchlpcLfilter_eq lpc hb ha x .zero hB .df1).trans e)⟩

example := C30_torchlpc_df1 (B := 2) (N := 7) (K := 3) (P := 2) (u := some 2) Lpv.refLpc_isLpc (.batched fun i t k => (i : ℤ) + t * k)
  (.batched fun i t k => (i : ℤ) - t * k) (.batched 2 fun i t => (i : ℤ) * t) (by decide) (by decide) (by decide) (by decide)

/-- **C30 (partial), `tdf1` with `torchlpc`.** `v_n = x_n - Σ_k a_{n-1-k,k} v_{n-1-k}`, `y_n = Σ_j b_{n-j,j} v_{n-j}`: the
coefficients of the fed-back sample.  Missing: signals shorter than the order of `a`, one tap (C27, C28). -/
theorem C30_torchlpc_tdf1_partial {B N K P : Nat} {b a X : Tensor α} {bv av : Nat → Nat → Nat → α} {x : Nat → Nat → α}
    {u : Option Int} {lpc : Lpc α} (hl : IsLpc lpc) (hb : MatVals B N K b bv) (ha : MatVals B N P a av)
    (hx : Sig N B X x) (hB : 0 < B) (hK : 2 ≤ K) (hP : 0 < P) (hPN : P ≤ N) :
    ∃ v : Nat → Nat → α,
      (∀ i n, n < N → v i n = x i n - ∑ k ∈ Finset.range P, if k < n then star (av i (n - 1 - k) k) * v i (n - 1 - k) else 0) ∧
      lfilter lpc b a X none .tdf1 .torchlpc u = .ok (packed (allFlatTv X b a none) B N fun i n =>
        ∑ j ∈ Finset.range K, if j ≤ n then star (bv i (n - j) j) * v i (n - j) else 0, none) := by
  obtain ⟨v, hv, e⟩ := C28_transposed_partial (B := B) hl av x hP hPN
  obtain ⟨M, rfl⟩ : ∃ M, K = M + 1 := ⟨K - 1, by omega⟩
  refine ⟨v, hv, lfilterWith_seq (c := false) (M := 0) (zf := fun _ _ => 0) hb ha hx
    ((torchlpcLfilter_eq lpc hb ha x .zero hB .tdf1).trans ?_)⟩
  unfold torchlpcForms
  exact bind_step e (C27_transposed_partial bv v (by omega) (by omega))

example := C30_torchlpc_tdf1_partial (B := 2) (N := 7) (K := 3) (P := 2) (u := some 2) Lpv.refLpc_isLpc (.batched fun i t k => (i : ℤ) + t * k)
  (.batched fun i t k => (i : ℤ) - t * k) (.batched 2 fun i t => (i : ℤ) * t) (by decide) (by decide) (by decide) (by decide)

omit [CommRing α] [StarRing α] in
theorem packed_congr [Zero α] {c : Bool} {B N : Nat} {y y' : Nat → Nat → α} (h : ∀ i n, n < N → y i n = y' i n) :
    packed c B N y = packed c B N y' := by
  unfold packed
  split
  · exact t1_congr rfl fun n hn => h 0 n hn
  · exact t2_congr rfl rfl fun i n _ hn => h i n hn

/-- **C30 (partial), the backends agree on `df2`**, output and final state. -/
theorem C30_agree_df2_partial {B N K P : Nat} {b a X : Tensor α} {bv av : Nat → Nat → Nat → α} {x z : Nat → Nat → α}
    {zi : Option (Tensor α)} {u u' : Option Int} {lpc lpc' : Lpc α} (hl : IsLpc lpc) (hb : MatVals B N K b bv)
    (ha : MatVals B N P a av) (hx : Sig N B X x) (hz : InitState B (max P (K - 1)) zi z)
    (hBN : b.rank = 2 ∧ a.rank = 2 ∨ B ≠ N) (hB : 0 < B) (hK : 0 < K) (hP : 0 < P) (hN : 0 < N)
    (hf : zi = none ∨ P ≤ N) (hu : FilterUnroll (max P (K - 1)) N u) :
    lfilter lpc b a X zi .df2 .torchlpc u' = lfilter lpc' b a X zi .df2 .ssm u := by
  obtain ⟨w, hw, e⟩ := C30_torchlpc_df2_partial (u := u') hl hb ha hx hz hB hK hP hN hf
  obtain ⟨w', hw', e'⟩ := C30_ssm_df2_partial lpc' hb ha hx hz hBN hB hK (by omega) hN hu
  rw [e, e']
  have h : ∀ i n, n < N → w i n = w' i n := fun i n hn =>
    allPole_unique (fun n hn => hw i n hn) (fun n _ => hw' i n) (fun _ _ _ _ => rfl) (fun _ _ => rfl) (fun _ _ => rfl) hn
  have hp : ∀ i (n : Int), n < N → withPast (z i) (w i) n = withPast (z i) (w' i) n := by
    intro i n hn
    unfold withPast
    by_cases h0 : n < 0
    · rw [if_pos h0, if_pos h0]
    · rw [if_neg h0, if_neg h0, h i _ (by omega)]
  refine ok_pair (packed_congr fun i n hn => Finset.sum_congr rfl fun j _ => by rw [hp i _ (by omega)]) ?_
  cases zi.isSome with
  | false => rfl
  | true => exact congrArg some (packed_congr fun i m _ => hp i _ (by omega))

/-- **C30 (partial), the backends agree on `df1`.** -/
theorem C30_agree_df1_partial {B N K P : Nat} {b a X : Tensor α} {bv av : Nat → Nat → Nat → α} {x : Nat → Nat → α}
    {u u' : Option Int} {lpc lpc' : Lpc α} (hl : IsLpc lpc) (hb : MatVals B N K b bv) (ha : MatVals B N P a av)
    (hx : Sig N B X x) (hB : 0 < B) (hK : 0 < K) (hP : 0 < P) (hN : 0 < N) (hu : FilterUnroll (max P (K - 1)) N (some (u.getD 1))) :
    lfilter lpc b a X none .df1 .torchlpc u' = lfilter lpc' b a X none .df1 .ssm u := by
  obtain ⟨y, hy, e⟩ := C30_torchlpc_df1 (u := u') hl hb ha hx hB hK hP hN
  obtain ⟨y', hy', e'⟩ := C30_ssm_df1_partial lpc' hb ha hx hB hK (by omega) hN hu
  rw [e, e']
  refine ok_pair (packed_congr fun i n hn => ?_) rfl
  exact allPole_unique (z := fun _ => 0) (z' := fun _ => 0) (fun n hn => hy i n hn) (fun n _ => hy' i n)
    (fun _ _ _ _ => rfl) (fun _ _ => rfl) (fun _ _ => rfl) hn

example := C30_agree_df1_partial (B := 2) (N := 7) (K := 3) (P := 2) (u := some 2) (u' := none) (lpc' := Lpv.refLpc) Lpv.refLpc_isLpc
  (.batched fun i t k => (i : ℤ) + t * k) (.batched fun i t k => (i : ℤ) - t * k) (.batched 2 fun i t => (i : ℤ) * t) (by decide) (by decide)
  (by decide) (by decide) (by unfold FilterUnroll GoodUnroll FewPrimes; decide +kernel)

/-- `tdf2` is not available with `torchlpc`; unknown forms and backends are rejected. -/
theorem C30_rejects (lpc : Lpc α) (b a x : Tensor α) (zi : Option (Tensor α)) (u : Option Int) (form : Form) :
    Fails (lfilter lpc b a x zi .tdf2 .torchlpc u) ∧ Fails (lfilter lpc b a x zi .other .ssm u) ∧
      Fails (lfilter lpc b a x zi form .other u) := by
  refine ⟨?_, ?_, ?_⟩ <;> unfold lfilter lfilterWith <;>
    refine fails_bind fun _ _ => fails_check fun _ => fails_check fun _ => fails_left ?_
  · show Fails (torchlpcLfilter _ _ _ _ _ _)
    unfold torchlpcLfilter
    exact fails_check fun _ => fails_bind fun _ _ => fails_bind fun _ _ => fails_check fun _ => fails_bind fun _ _ =>
      fails_bind fun _ _ => fails_bind fun _ _ => fails_bind fun _ _ => ⟨_, rfl⟩
  · show Fails (ssmLfilter _ _ _ _ _ _)
    unfold ssmLfilter
    exact fails_bind fun _ _ => fails_bind fun _ _ => ⟨_, rfl⟩
  · exact ⟨_, rfl⟩

/-- The sample `(i, t)` of a result. -/
private def sampleAt {β : Type} [Zero β] (r : Res (Tensor β × Option (Tensor β))) (i t : Nat) : Option β :=
  at? (r.map Prod.fst) [i, t]

/-- **The backends disagree on `tdf1`**: with `b = (1, 0)`, `a_n = n` and `x = (1, 0)` the second sample is
`-a_{1,0} = -1` for `ssm` and `-a_{0,0} = 0` for `torchlpc`. -/
theorem C30_tdf1_differ :
    sampleAt (lfilter refLpc (t2 2 2 fun _ j => if j = 0 then (1 : ℤ) else 0) (t2 2 1 fun n _ => (n : ℤ))
      (t2 1 2 fun _ t => if t = 0 then 1 else 0) none .tdf1 .ssm none) 0 1 = some (-1) ∧
    sampleAt (lfilter refLpc (t2 2 2 fun _ j => if j = 0 then (1 : ℤ) else 0) (t2 2 1 fun n _ => (n : ℤ))
      (t2 1 2 fun _ t => if t = 0 then 1 else 0) none .tdf1 .torchlpc none) 0 1 = some 0 := by decide +kernel

/-- **C30 is false for per-item coefficients when the batch size equals the length**: with per-item `b` the forms `df2` and
`tdf2` with `ssm` return a `(2, 2, 2)` tensor for a `(2, 2)` signal, and so does `df2` with per-item `a`; `torchlpc` does not. -/
theorem C30_square :
    shape? ((lfilter refLpc (t3 2 2 2 fun i n j => (i + n + j : ℤ)) (t2 2 1 fun n _ => (n : ℤ)) (t2 2 2 fun i t => (i + t : ℤ))
      none .df2 .ssm none).map Prod.fst) = some [2, 2, 2] ∧
    shape? ((lfilter refLpc (t3 2 2 2 fun i n j => (i + n + j : ℤ)) (t2 2 1 fun n _ => (n : ℤ)) (t2 2 2 fun i t => (i + t : ℤ))
      none .tdf2 .ssm none).map Prod.fst) = some [2, 2, 2] ∧
    shape? ((lfilter refLpc (t2 2 2 fun n j => (n + j : ℤ)) (t3 2 2 1 fun i n _ => (i + n : ℤ)) (t2 2 2 fun i t => (i + t : ℤ))
      none .df2 .ssm none).map Prod.fst) = some [2, 2, 2] ∧
    shape? ((lfilter refLpc (t3 2 2 2 fun i n j => (i + n + j : ℤ)) (t2 2 1 fun n _ => (n : ℤ)) (t2 2 2 fun i t => (i + t : ℤ))
      none .df2 .torchlpc none).map Prod.fst) = some [2, 2] := by decide +kernel

/-- **What `df2` with `ssm` returns for per-item `b` whenever the batch size equals the length `N`**, whatever the sizes and
values: an `(N, N, N)` tensor in which the item axis of the coefficients is read as the time and their time axis as output
features.  At time `n` every signal is filtered with the numerator of item `n`, not with its own. -/
theorem C30_square_df2 {N K P : Nat} {a : Tensor α} {av : Nat → Nat → Nat → α} {z : Nat → Nat → α}
    {zi : Option (Tensor α)} {u : Option Int} (lpc : Lpc α) (b : Nat → Nat → Nat → α) (x : Nat → Nat → α)
    (ha : MatVals N N P a av) (hz : InitState N (max P (K - 1)) zi z) (hK : 0 < K) (hM : 0 < max P (K - 1)) (hN : 0 < N)
    (hu : FilterUnroll (max P (K - 1)) N u) :
    ∃ w : Nat → Nat → α,
      (∀ i n, w i n = x i n - ∑ k ∈ Finset.range P, av i n k * withPast (z i) (w i) ((n : Int) - 1 - k)) ∧
      (lfilter lpc (t3 N N K b) a (t2 N N x) zi .df2 .ssm u).map Prod.fst = .ok (t3 N N N fun i n p =>
        b n p 0 * x i n + ∑ m ∈ Finset.range (max P (K - 1)),
          ((if m + 1 < K then b n p (m + 1) else 0) - if m < P then b n p 0 * av n p m else 0) *
            withPast (z i) (w i) ((n : Int) - 1 - m)) := by
  refine ⟨fun i n => tvSignal (max P (K - 1)) (fun t => zext P (av i t)) (z i) (x i) n, fun i n => ?_, ?_⟩
  · beta_reduce
    rw [tv_signal hM, ← tvSignal_eq]
    exact congrArg₂ (· - ·) rfl (taps_zext (K := P) (by omega) (av i n) _ _)
  · simp only [← tvSignal_eq]
    obtain ⟨zf, h⟩ := ssmLfilter_df2_square b ha x hz hK hM hN (recOn_filter _ _ (by omega) hM hN hu)
    have e : lfilter lpc (t3 N N K b) a (t2 N N x) zi .df2 .ssm u = ssmLfilter (t3 N N K b) a (t2 N N x) zi .df2 u := by
      rw [h]
      unfold lfilter lfilterWith
      refine bind_step (v := t2 N N x) ?_ (check_step (Or.inr (by simp)) (check_step (rank_seq ha) (bind_step h ?_)))
      · rw [if_neg (by simp), if_neg (by simp)]; rfl
      · rw [if_neg (by simp)]; rfl
    rw [e, h]
    refine congrArg Except.ok ?_
    dsimp only
    refine t3_congr rfl rfl rfl fun i n p hi hn hp => ?_
    simp only [zext, hK, if_true, mul_ite, mul_zero]
    exact add_comm _ _

example := C30_square_df2 (N := 5) (K := 3) (P := 2) (u := some 2) refLpc (fun i t k => (i : ℤ) + t * k) (fun i t => (i : ℤ) * t)
  (.batched fun i t k => (i : ℤ) - t * k) (.full fun i t => (i : ℤ) - t) (by decide) (by decide) (by decide)
  (by unfold FilterUnroll GoodUnroll FewPrimes; decide +kernel)

/-- **C30 is false for some unroll factors**: first-order filter with constant `a = 2`, `b = (1, 0)` and `x = 1, 1, …` over
ten samples; with `unroll_factor=9` the tenth sample of `df2` differs from the one computed with `unroll_factor=1`. -/
theorem C30_unroll :
    sampleAt (lfilter refLpc (t2 10 2 fun _ j => if j = 0 then (1 : ℤ) else 0) (t2 10 1 fun _ _ => (2 : ℤ))
      (t2 1 10 fun _ _ => 1) none .df2 .ssm (some 9)) 0 9 ≠
    sampleAt (lfilter refLpc (t2 10 2 fun _ j => if j = 0 then (1 : ℤ) else 0) (t2 10 1 fun _ _ => (2 : ℤ))
      (t2 1 10 fun _ _ => 1) none .df2 .ssm (some 1)) 0 9 := by decide +kernel

omit [StarRing α] in
theorem packed_sample {B N K P : Nat} {b a x y y' : Nat → Nat → α} {n : Nat} (hB : 0 < B) (hn : n < N) {c c' : Option (Tensor α)}
    (e : (Except.ok (packed (allFlatTv (t2 B N x) (t2 N K b) (t2 N P a) none) B N y, c) : Res (Tensor α × Option (Tensor α))) =
      .ok (packed (allFlatTv (t2 B N x) (t2 N K b) (t2 N P a) none) B N y', c')) : y 0 n = y' 0 n := by
  have e' := congrArg (fun T => Tensor.get T [0, n]) (congrArg Prod.fst (Except.ok.inj e))
  rw [show allFlatTv (t2 B N x) (t2 N K b) (t2 N P a) none = false by simp [allFlatTv]] at e'
  simp only [packed, Bool.false_eq_true, if_false] at e'
  rwa [get_t2 hB hn, get_t2 hB hn] at e'

/-- **The exact condition for `df2`**: over any nontrivial ring, the result is the same as with `unroll_factor=1` for all
coefficients and signals if and only if the unroll factor is at most 2, at least `N`, one more than a prime, or, for a
first-order filter, one more than a product of two primes. -/
theorem C30_exact_df2 [Nontrivial α] {B N K P : Nat} (lpc : Lpc α) (u : Option Int) (hB : 0 < B) (hK : 2 ≤ K) (hKP : K ≤ P + 1)
    (hN : 0 < N) (hu : ∀ i, u = some i → 1 ≤ i) :
    (∀ b a x : Nat → Nat → α, lfilter lpc (t2 N K b) (t2 N P a) (t2 B N x) none .df2 .ssm u =
      lfilter lpc (t2 N K b) (t2 N P a) (t2 B N x) none .df2 .ssm (some 1)) ↔ FilterUnroll P N u := by
  have hm : max P (K - 1) = P := by omega
  constructor
  · intro h
    by_contra hc
    obtain ⟨h2, hlt, ⟨a, w, hw⟩, -⟩ := filter_wrong (α := α) (M := P) (N := N) (by omega) (UnrollOk.getD hu hN) hc
    have e := h (fun _ j => if j = 1 then 1 else 0) a fun _ => impulse w
    unfold lfilter at e
    rw [lfilterWith_seq (.shared _) (.shared _) (.batched B _)
        (ssmLfilter_df2_any (.shared _) (.shared _) _ .zero (Or.inl ⟨rfl, rfl⟩) hB (by omega) (by omega) hN hu),
      lfilterWith_seq (.shared _) (.shared _) (.batched B _)
        (ssmLfilter_df2_any (.shared _) (.shared _) _ .zero (Or.inl ⟨rfl, rfl⟩) hB (by omega) (by omega) hN (u := some 1) (by simp [UnrollOk]))] at e
    have e' := packed_sample hB hlt e
    rw [hm] at e'
    have pick : ∀ (v : Int) (t : Nat), 1 ≤ v → anyDf2Out P N v (fun _ => zext K fun j => if j = 1 then (1 : α) else 0) (fun t => zext P (a t)) (fun _ => 0)
        (impulse w) t = anyRec P N v (fun t => comp (a t)) (fun _ => 0) (first (impulse w)) t 0 := by
      intro v t hv
      rw [anyDf2Out, Finset.sum_eq_single 0]
      · rw [show zext K (fun j => if j = 1 then (1 : α) else 0) 0 = 0 by simp [zext],
          show zext K (fun j => if j = 1 then (1 : α) else 0) (0 + 1) = 1 by simp [zext]; omega]
        simp only [zero_mul, sub_zero, one_mul, add_zero]
        exact anyRec_congr hv (fun _ _ => rfl) (fun t _ i j _ hj => by simp only [comp, zext, if_pos hj]) (fun _ _ _ _ => rfl) (by omega)
      · intro m _ hm0
        simp [zext, hm0]
      · intro h; exact absurd (Finset.mem_range.2 (by omega)) h
    rw [pick _ _ (UnrollOk.getD hu hN), pick _ _ (by simp)] at e'
    exact hw e'
  · intro hg b a x
    have e1 := recOn_filter (B := B) (N := N) (M := max P (K - 1)) (fun _ t => comp (zext P (a t))) (fun _ _ => 0) hB (by omega) hN (hm.symm ▸ hg)
    have e2 := recOn_filter (B := B) (N := N) (M := max P (K - 1)) (u := 1) (fun _ t => comp (zext P (a t))) (fun _ _ => 0) hB (by omega) hN
      (Or.inl ⟨by simp, Or.inl (by simp)⟩)
    unfold lfilter
    rw [lfilterWith_seq (.shared b) (.shared a) (.batched B x)
        (ssmLfilter_tvdf2_of (.shared _) (.shared _) _ .zero (Or.inl ⟨rfl, rfl⟩) (by omega) (by omega) hN e1),
      lfilterWith_seq (.shared b) (.shared a) (.batched B x)
        (ssmLfilter_tvdf2_of (u := some 1) (.shared _) (.shared _) _ .zero (Or.inl ⟨rfl, rfl⟩) (by omega) (by omega) hN e2)]

/-- **The exact condition for `tdf2`.** -/
theorem C30_exact_tdf2 [Nontrivial α] {B N K P : Nat} (lpc : Lpc α) (u : Option Int) (hB : 0 < B) (hK : 2 ≤ K) (hKP : K ≤ P + 1)
    (hN : 0 < N) (hu : ∀ i, u = some i → 1 ≤ i) :
    (∀ b a x : Nat → Nat → α, lfilter lpc (t2 N K b) (t2 N P a) (t2 B N x) none .tdf2 .ssm u =
      lfilter lpc (t2 N K b) (t2 N P a) (t2 B N x) none .tdf2 .ssm (some 1)) ↔ FilterUnroll P N u := by
  have hm : max P (K - 1) = P := by omega
  constructor
  · intro h
    by_contra hc
    obtain ⟨h2, hlt, -, a, w, ha, hw⟩ := filter_wrong (α := α) (M := P) (N := N) (by omega) (UnrollOk.getD hu hN) hc
    have e := h (fun _ j => if j = 1 then 1 else 0) a fun _ => impulse w
    unfold lfilter at e
    rw [lfilterWith_seq (.shared _) (.shared _) (.batched B _)
        (ssmLfilter_tdf2_any (.shared _) (.shared _) _ .zero (Or.inl rfl) hB (by omega) (by omega) hN hu),
      lfilterWith_seq (.shared _) (.shared _) (.batched B _)
        (ssmLfilter_tdf2_any (.shared _) (.shared _) _ .zero (Or.inl rfl) hB (by omega) (by omega) hN (u := some 1) (by simp [UnrollOk]))] at e
    have e' := packed_sample hB hlt e
    rw [hm] at e'
    have pick : ∀ (v : Int) (t : Nat), 1 ≤ v → anyTdf2State P N v (fun _ k => star (zext K (fun j => if j = 1 then (1 : α) else 0) k))
        (fun t k => star (zext P (a t) k)) (fun _ => 0) (impulse w) t 0 =
          anyRec P N v (fun t i j => comp (a t) j i) (fun _ => 0) (first (impulse w)) t 0 := by
      intro v t hv
      refine anyRec_congr hv (fun _ _ => rfl) (fun t _ i j hi _ => by simp only [comp, zext, if_pos hi, ha]) (fun t _ i _ => ?_) (by omega)
      beta_reduce
      rw [show zext K (fun j => if j = 1 then (1 : α) else 0) 0 = 0 by simp [zext]]
      by_cases h0 : i = 0
      · subst h0
        rw [show zext K (fun j => if j = 1 then (1 : α) else 0) (0 + 1) = 1 by simp [zext]; omega]
        simp [first]
      · simp [first, zext, h0]
    rw [pick _ _ (UnrollOk.getD hu hN), pick _ _ (by simp), show zext K (fun j => if j = 1 then (1 : α) else 0) 0 = 0 by simp [zext], star_zero,
      zero_mul, add_zero, add_zero] at e'
    exact hw e'
  · intro hg b a x
    have e1 := recOn_filter (B := B) (N := N) (M := max P (K - 1)) (fun _ t k j => comp (fun m => star (zext P (a t) m)) j k) (fun _ _ => 0) hB
      (by omega) hN (hm.symm ▸ hg)
    have e2 := recOn_filter (B := B) (N := N) (M := max P (K - 1)) (u := 1) (fun _ t k j => comp (fun m => star (zext P (a t) m)) j k) (fun _ _ => 0)
      hB (by omega) hN (Or.inl ⟨by simp, Or.inl (by simp)⟩)
    unfold lfilter
    rw [lfilterWith_seq (.shared b) (.shared a) (.batched B x)
        (ssmLfilter_tvtdf2_of (.shared _) (.shared _) _ .zero (Or.inl rfl) (by omega) (by omega) hN e1),
      lfilterWith_seq (.shared b) (.shared a) (.batched B x)
        (ssmLfilter_tvtdf2_of (u := some 1) (.shared _) (.shared _) _ .zero (Or.inl rfl) (by omega) (by omega) hN e2)]

example := C30_exact_tdf2 (α := ℤ) (B := 2) (N := 7) (K := 3) (P := 2) Lpv.refLpc (some 4) (by decide) (by decide) (by decide) (by decide)
  (by simp)

/-- **The exact condition for `df1`**; here the default unroll factor is 1. -/
theorem C30_exact_df1 [Nontrivial α] {B N K P : Nat} (lpc : Lpc α) (u : Option Int) (hB : 0 < B) (hK : 1 ≤ K) (hP : 1 ≤ P) (hKP : K ≤ P + 1)
    (hN : 0 < N) (hu : ∀ i, u = some i → 1 ≤ i) :
    (∀ b a x : Nat → Nat → α, lfilter lpc (t2 N K b) (t2 N P a) (t2 B N x) none .df1 .ssm u =
      lfilter lpc (t2 N K b) (t2 N P a) (t2 B N x) none .df1 .ssm (some 1)) ↔ FilterUnroll P N (some (u.getD 1)) := by
  have hm : max P (K - 1) = P := by omega
  constructor
  · intro h
    by_contra hc
    obtain ⟨h2, hlt, ⟨a, w, hw⟩, -⟩ := filter_wrong (α := α) (M := P) (N := N) (by omega) (UnrollOk.getD_one hu) hc
    have e := h (fun _ j => if j = 0 then 1 else 0) a fun _ => impulse w
    unfold lfilter at e
    rw [lfilterWith_seq (c := false) (M := 0) (zf := fun _ _ => 0) (.shared _) (.shared _) (.batched B _)
        (ssmLfilter_df1_any (.shared _) (.shared _) _ none hB (by omega) (by omega) hN hu),
      lfilterWith_seq (c := false) (M := 0) (zf := fun _ _ => 0) (.shared _) (.shared _) (.batched B _)
        (ssmLfilter_df1_any (.shared _) (.shared _) _ none hB (by omega) (by omega) hN (u := some 1) (by simp [UnrollOk]))] at e
    have e' := packed_sample hB (show (u.getD 1).toNat - 1 < N by omega) e
    rw [hm, Nat.sub_add_cancel (by omega)] at e'
    have pick : ∀ (v : Int) (t : Nat), 1 ≤ v → anyRec P N v (fun t => comp (zext P (a t))) (fun _ => 0)
        (first fun t => taps K (fun j => if j = 0 then (1 : α) else 0) (causal (impulse w)) t) t 0 =
          anyRec P N v (fun t => comp (a t)) (fun _ => 0) (first (impulse w)) t 0 := by
      intro v t hv
      refine anyRec_congr hv (fun _ _ => rfl) (fun t _ i j _ hj => by simp only [comp, zext, if_pos hj]) (fun t _ i _ => ?_) (by omega)
      unfold first taps
      beta_reduce
      rw [Finset.sum_eq_single 0]
      · rw [if_pos rfl, one_mul, Nat.cast_zero, sub_zero, causal_nat]
      · intro j _ hj; simp [hj]
      · intro h; exact absurd (Finset.mem_range.2 (by omega)) h
    rw [pick _ _ (UnrollOk.getD_one hu), pick _ _ (by simp)] at e'
    exact hw e'
  · intro hg b a x
    have e1 := recOn_filter (B := B) (N := N) (M := max P (K - 1)) (fun _ t => comp (zext P (a t))) (fun _ _ => 0) hB (by omega) hN (hm.symm ▸ hg)
    have e2 := recOn_filter (B := B) (N := N) (M := max P (K - 1)) (u := 1) (fun _ t => comp (zext P (a t))) (fun _ _ => 0) hB (by omega) hN
      (Or.inl ⟨by simp, Or.inl (by simp)⟩)
    unfold lfilter
    rw [lfilterWith_seq (c := false) (M := 0) (zf := fun _ _ => 0) (.shared b) (.shared a) (.batched B x)
        (ssmLfilter_tvdf1_of (.shared _) (.shared _) _ none (by omega) (by omega) hN e1),
      lfilterWith_seq (c := false) (M := 0) (zf := fun _ _ => 0) (.shared b) (.shared a) (.batched B x)
        (ssmLfilter_tvdf1_of (u := some 1) (.shared _) (.shared _) _ none (by omega) (by omega) hN e2)]

example := C30_exact_df1 (α := ℤ) (B := 2) (N := 7) (K := 3) (P := 2) Lpv.refLpc (some 4) (by decide) (by decide) (by decide) (by decide)
  (by decide) (by simp)

/-- **The exact condition for `tdf1`.** -/
theorem C30_exact_tdf1 [Nontrivial α] {B N K P : Nat} (lpc : Lpc α) (u : Option Int) (hB : 0 < B) (hK : 1 ≤ K) (hP : 1 ≤ P) (hKP : K ≤ P + 1)
    (hN : 0 < N) (hu : ∀ i, u = some i → 1 ≤ i) :
    (∀ b a x : Nat → Nat → α, lfilter lpc (t2 N K b) (t2 N P a) (t2 B N x) none .tdf1 .ssm u =
      lfilter lpc (t2 N K b) (t2 N P a) (t2 B N x) none .tdf1 .ssm (some 1)) ↔ FilterUnroll P N (some (u.getD 1)) := by
  have hm : max P (K - 1) = P := by omega
  constructor
  · intro h
    by_contra hc
    obtain ⟨h2, hlt, -, a, w, ha, hw⟩ := filter_wrong (α := α) (M := P) (N := N) (by omega) (UnrollOk.getD_one hu) hc
    have e := h (fun _ j => if j = 0 then 1 else 0) a fun _ => impulse w
    unfold lfilter at e
    rw [lfilterWith_seq (c := false) (M := 0) (zf := fun _ _ => 0) (.shared _) (.shared _) (.batched B _)
        (ssmLfilter_tdf1_any (.shared _) (.shared _) _ none hB (by omega) (by omega) hN hu),
      lfilterWith_seq (c := false) (M := 0) (zf := fun _ _ => 0) (.shared _) (.shared _) (.batched B _)
        (ssmLfilter_tdf1_any (.shared _) (.shared _) _ none hB (by omega) (by omega) hN (u := some 1) (by simp [UnrollOk]))] at e
    have e' := packed_sample hB (show (u.getD 1).toNat - 1 < N by omega) e
    rw [hm] at e'
    have conv : ∀ (v : Nat → α) (n : Nat), n < N → tvConv N P (fun _ => zext K fun j => if j = 0 then (1 : α) else 0) v n = v n := by
      intro v n hn
      unfold tvConv
      rw [Finset.sum_eq_single 0]
      · rw [if_pos ⟨by omega, by omega⟩]
        simp [zext, show 0 < K by omega]
      · intro j _ hj; simp [zext, hj]
      · intro h; exact absurd (Finset.mem_range.2 (by omega)) h
    rw [conv _ _ (by omega), conv _ _ (by omega), Nat.sub_add_cancel (by omega)] at e'
    have pick : ∀ (v : Int) (t : Nat), 1 ≤ v → anyRec P N v (fun t k j => comp (fun m => star (zext P (a t) m)) j k) (fun _ => 0)
        (first (impulse w)) t 0 = anyRec P N v (fun t i j => comp (a t) j i) (fun _ => 0) (first (impulse w)) t 0 := by
      intro v t hv
      exact anyRec_congr hv (fun _ _ => rfl) (fun t _ i j hi _ => by simp only [comp, zext, if_pos hi, ha]) (fun _ _ _ _ => rfl) (by omega)
    rw [pick _ _ (UnrollOk.getD_one hu), pick _ _ (by simp)] at e'
    exact hw e'
  · intro hg b a x
    have e1 := recOn_filter (B := B) (N := N) (M := max P (K - 1)) (fun _ t k j => comp (fun m => star (zext P (a t) m)) j k) (fun _ _ => 0) hB
      (by omega) hN (hm.symm ▸ hg)
    have e2 := recOn_filter (B := B) (N := N) (M := max P (K - 1)) (u := 1) (fun _ t k j => comp (fun m => star (zext P (a t) m)) j k) (fun _ _ => 0)
      hB (by omega) hN (Or.inl ⟨by simp, Or.inl (by simp)⟩)
    unfold lfilter
    rw [lfilterWith_seq (c := false) (M := 0) (zf := fun _ _ => 0) (.shared b) (.shared a) (.batched B x)
        (ssmLfilter_tvtdf1_of (.shared _) (.shared _) _ none (by omega) (by omega) hN e1),
      lfilterWith_seq (c := false) (M := 0) (zf := fun _ _ => 0) (.shared b) (.shared a) (.batched B x)
        (ssmLfilter_tvtdf1_of (u := some 1) (.shared _) (.shared _) _ none (by omega) (by omega) hN e2)]

example := C30_exact_tdf1 (α := ℤ) (B := 2) (N := 7) (K := 3) (P := 2) Lpv.refLpc (some 4) (by decide) (by decide) (by decide) (by decide)
  (by decide) (by simp)

/-- With 25 samples the default unroll factor of `df2` is 5, and second-order filters are wrong for some coefficients. -/
example : ∃ b a x : Nat → Nat → ℤ, lfilter refLpc (t2 25 3 b) (t2 25 2 a) (t2 1 25 x) none .df2 .ssm none ≠
    lfilter refLpc (t2 25 3 b) (t2 25 2 a) (t2 1 25 x) none .df2 .ssm (some 1) := by
  by_contra h
  push Not at h
  have := (C30_exact_df2 refLpc none (by decide) (by decide) (by decide) (by decide) (by simp)).1 h
  rcases this with h | h
  · revert h
    unfold GoodUnroll
    rw [show (Option.none.getD ((roundSqrt 25 : Nat) : Int)) = 5 by decide +kernel]
    decide
  · exact absurd h.1 (by decide)

/-- Complex coefficients: `tdf2` conjugates them (`b = (i, 0)`, `x = (1)` gives `-i`), `df2` does not. -/
theorem C30_tdf2_complex :
    sampleAt (lfilter refLpc (t2 1 2 fun _ j => if j = 0 then (⟨0, 1⟩ : GaussianInt) else 0) (t2 1 1 fun _ _ => 0)
      (t2 2 1 fun _ _ => 1) none .tdf2 .ssm none) 0 0 = some ⟨0, -1⟩ ∧
    sampleAt (lfilter refLpc (t2 1 2 fun _ j => if j = 0 then (⟨0, 1⟩ : GaussianInt) else 0) (t2 1 1 fun _ _ => 0)
      (t2 2 1 fun _ _ => 1) none .df2 .ssm none) 0 0 = some ⟨0, 1⟩ := by decide +kernel

/-- Non-vacuity: time-varying coefficients per batch item, initial state, order 2 numerator and order 1 denominator. -/
example : lfilter refLpc (t3 2 3 3 fun i n j => (i + n * j : ℤ)) (t2 3 1 fun n _ => (n : ℤ) - 1)
      (t2 2 3 fun i t => (i + t : ℤ)) (some (t1 2 fun m => (m : ℤ) + 1)) .df2 .torchlpc none =
    lfilter refLpc (t3 2 3 3 fun i n j => (i + n * j : ℤ)) (t2 3 1 fun n _ => (n : ℤ) - 1)
      (t2 2 3 fun i t => (i + t : ℤ)) (some (t1 2 fun m => (m : ℤ) + 1)) .df2 .ssm none :=
  C30_agree_df2_partial refLpc_isLpc (.batched _) (.shared _) (.batched 2 _) (.shared _) (Or.inr (by decide)) (by decide)
    (by decide) (by decide) (by decide) (Or.inr (by decide)) (by unfold FilterUnroll GoodUnroll FewPrimes; decide +kernel)

end Props
