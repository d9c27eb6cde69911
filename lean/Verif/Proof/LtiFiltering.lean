import Verif.Proof.Filter
import Verif.Torch.Fails
import Verif.Proof.Companion
import Verif.Proof.Stream
import Verif.Model.LtiFiltering

/-! # Correctness of the models of `fir` and `lfilter` (time-invariant) -/

namespace Phil.Lti
open Torch Torch.Tensor Finset Spec Phil.Mat
variable {α : Type} [CommRing α] [StarRing α]
set_option linter.unusedSectionVars false

theorem sub_eq {x y : Tensor α} : sub x y = zipWith (· - ·) x y := rfl
theorem conj_t0 (a : α) : conj (t0 a) = t0 (star a) := map_t0 _ _

theorem ok_pair {β γ : Type} {a a' : β} {b b' : γ} (h : a = a') (h' : b = b') :
    (Except.ok (a, b) : Res (β × γ)) = .ok (a', b') := by rw [h, h']

/-! ## `fir` -/

theorem order_cast (M : Nat) : ((M + 1 : Nat) : Int) - 1 = M := by push_cast; ring

/-- Full convolution. -/
def fullConv (N M : Nat) (b x : Nat → α) (t : Nat) : α :=
  ∑ k ∈ range (M + 1), if k ≤ t ∧ t - k < N then b k * x (t - k) else 0

theorem fullConv_lt {N M : Nat} (b x : Nat → α) {t : Nat} (ht : t < N) :
    fullConv N M b x t = taps (M + 1) b (causal x) t := by
  refine sum_congr rfl fun k _ => ?_
  rw [causal_sub]
  by_cases h : k ≤ t
  · rw [if_pos ⟨h, by omega⟩, if_pos h]
  · rw [if_neg (by omega), if_neg h, mul_zero]

/-- `fir` with a final state layout that passes the checks. -/
theorem fir_eq {B K N : Nat} (b x : Nat → Nat → α) {zi : Option (Tensor α)} (tr : Bool)
    (hzi : ∀ z, zi = some z → z.rank = 2 ∧ z.size 0 = B ∧ (z.size 1 : Int) = (K : Int) - 1) :
    fir (t2 B K b) (t2 B N x) zi tr =
      if tr then firTransposed (t2 B K b) (t2 B N x) zi else firDirect (t2 B K b) (t2 B N x) zi := by
  unfold fir
  refine check_step (rank_t2 _ _ _) (check_step (rank_t2 _ _ _) (check_step (by simp) (check_step ?_ (check_step ?_
    (check_step ?_ rfl)))))
  · exact fun z hz => (hzi z hz).1
  · intro z hz; rw [size_t2_0]; exact (hzi z hz).2.1
  · intro z hz; rw [size_t2_1]; exact (hzi z hz).2.2

theorem fir_eq_some {B M N : Nat} (b x z : Nat → Nat → α) (tr : Bool) :
    fir (t2 B (M + 1) b) (t2 B N x) (some (t2 B M z)) tr =
      if tr then firTransposed (t2 B (M + 1) b) (t2 B N x) (some (t2 B M z))
      else firDirect (t2 B (M + 1) b) (t2 B N x) (some (t2 B M z)) := by
  refine fir_eq b x tr fun z hz => ?_
  cases hz; exact ⟨rank_t2 _ _ _, size_t2_0 _ _ _, by rw [size_t2_1, order_cast]⟩

theorem fir_transpose_none {B M N : Nat} (b x : Nat → Nat → α) (hB : 0 < B) (hN : 0 < N) (hM : 0 < M) :
    fir (t2 B (M + 1) b) (t2 B N x) none true =
      .ok (t2 B N fun i t => taps (M + 1) (fun k => star (b i k)) (causal (x i)) t, none) := by
  rw [fir_eq b x true (fun z hz => by cases hz), if_pos rfl, firTransposed, size_t2_0, size_t2_1]
  refine bind_step (unsqueeze_t2_0 _ _ _) (bind_step (unsqueeze_t2_1 _ _ _) ?_)
  rw [conj_t3]
  refine bind_step (convTranspose1d_eq _ _ hB (by omega) hN) (bind_step (squeeze_t3_0 _ _ _) ?_)
  simp only []
  rw [order_cast]
  refine bind_step (slice_t2_1 _ _ _ _ _) ?_
  rw [pyStop_neg _ _ hM, pyStart_none, pure_eq_ok]
  refine ok_pair (t2_congr rfl (by omega) fun i t hi ht => ?_) rfl
  exact fullConv_lt (fun k => star (b i k)) (x i) (by omega)

/-- With an initial delay line; the code is right when the signal is at least as long as the delay line. -/
theorem fir_transpose_some {B M N : Nat} (b x z : Nat → Nat → α) (hB : 0 < B) (hM : 0 < M) (hMN : M ≤ N) :
    fir (t2 B (M + 1) b) (t2 B N x) (some (t2 B M z)) true =
      .ok (t2 B N fun i t => taps (M + 1) (fun k => star (b i k)) (causal (x i)) t + if t < M then z i t else 0,
        some (t2 B M fun i m => fullConv N M (fun k => star (b i k)) (x i) (N + m))) := by
  rw [fir_eq_some, if_pos rfl, firTransposed, size_t2_0, size_t2_1]
  refine bind_step (unsqueeze_t2_0 _ _ _) (bind_step (unsqueeze_t2_1 _ _ _) ?_)
  rw [conj_t3]
  refine bind_step (convTranspose1d_eq _ _ hB (by omega) (by omega)) (bind_step (squeeze_t3_0 _ _ _) ?_)
  simp only []
  rw [order_cast]
  refine bind_step (slice_t2_1 _ _ _ _ _) (bind_step (slice_t2_1 _ _ _ _ _) (bind_step (slice_t2_1 _ _ _ _ _) ?_))
  rw [pyStop_neg _ _ hM, pyStop_nat, pyStart_none, pyStart_none, add_eq]
  have e : min M (N + (M + 1) - 1 - M - 0) - 0 = M := by omega
  rw [e]
  refine bind_step (zipWith_nm_nm _ _ _ _ _) (bind_step (slice_t2_1 _ _ _ _ _) (bind_step (cat2_t2_1 _ _ _ _ _) ?_))
  rw [pyStart_nat, pyStop_none, pure_eq_ok]
  refine ok_pair (t2_congr rfl (by omega) fun i t hi ht => ?_) (congrArg some
    (t2_congr rfl ?_ fun i t hi ht => ?_))
  · by_cases h : t < M
    · rw [if_pos h, if_pos h, add_comm]
      refine congrArg₂ (· + ·) ?_ rfl
      exact fullConv_lt (fun k => star (b i k)) (x i) (by omega)
    · rw [if_neg h, if_neg h, ← fullConv_lt (N := N) _ _ (by omega), fullConv]
      have e : t - M + min M (N + (M + 1) - 1 - M - 0) = t := by omega
      simp only [add_zero, e]
  · rw [pyStop_none]; simp only [pyStart, pyBound]; split <;> omega
  · have e : t + pyStart (N + (M + 1) - 1) (some (-(M : Int))) = N + t := by
      simp only [pyStart, pyBound]; split <;> omega
    simp only [e]
    rfl

theorem fir_direct_none {B M N : Nat} (b x : Nat → Nat → α) (hB : 0 < B) (hN : 0 < N) :
    fir (t2 B (M + 1) b) (t2 B N x) none false =
      .ok (t2 B N fun i t => taps (M + 1) (b i) (causal (x i)) t, none) := by
  rw [fir_eq b x false (fun z hz => by cases hz), if_neg (by simp), firDirect, size_t2_0, size_t2_1, order_cast]
  refine bind_step (bind_step (padDim_t2_n1_left _ _ _ _ _) rfl) (bind_step (unsqueeze_t2_0 _ _ _)
    (bind_step (flip_t2_1 _ _ _) (bind_step (unsqueeze_t2_1 _ _ _) ?_)))
  refine bind_step (conv1d_eq _ _ hB (by omega) (by omega)) (bind_step (squeeze_t3_0 _ _ _) ?_)
  rw [pure_eq_ok]
  refine ok_pair (t2_congr rfl (by omega) fun i t hi ht => ?_) rfl
  rw [taps, ← sum_range_reflect]
  refine sum_congr rfl fun k hk => ?_
  have := mem_range.1 hk
  rw [causal_sub]
  refine congrArg₂ (· * ·) (congrArg (b i) (by omega)) ?_
  by_cases h : k ≤ t
  · rw [if_pos h, if_neg (by omega)]; congr 1; omega
  · rw [if_neg h, if_pos (by omega)]

theorem fir_direct_some {B M N : Nat} (b x z : Nat → Nat → α) (hB : 0 < B) (hM : 0 < M) (hN : 0 < N) :
    fir (t2 B (M + 1) b) (t2 B N x) (some (t2 B M z)) false =
      .ok (t2 B N fun i t => taps (M + 1) (b i) (withPast (z i) (x i)) t,
        some (t2 B M fun i m => withPast (z i) (x i) ((N : Int) - 1 - m))) := by
  rw [fir_eq_some, if_neg (by simp), firDirect, size_t2_0, size_t2_1, order_cast]
  refine bind_step (bind_step (flip_t2_1 _ _ _) (bind_step (cat2_t2_1 _ _ _ _ _) (bind_step (slice_t2_1 _ _ _ _ _)
    (bind_step (flip_t2_1 _ _ _) rfl)))) (bind_step (unsqueeze_t2_0 _ _ _)
    (bind_step (flip_t2_1 _ _ _) (bind_step (unsqueeze_t2_1 _ _ _) ?_)))
  refine bind_step (conv1d_eq _ _ hB (by omega) (by omega)) (bind_step (squeeze_t3_0 _ _ _) ?_)
  rw [pure_eq_ok]
  have e : pyStart (M + N) (some (-(M : Int))) = N := by simp only [pyStart, pyBound]; split <;> omega
  rw [e, pyStop_none]
  refine ok_pair (t2_congr rfl (by omega) fun i t hi ht => ?_) (congrArg some
    (t2_congr rfl (by omega) fun i m hi hm => ?_))
  · rw [taps, ← sum_range_reflect]
    refine sum_congr rfl fun k hk => ?_
    have := mem_range.1 hk
    refine congrArg₂ (· * ·) (congrArg (b i) (by omega)) ?_
    unfold withPast
    by_cases h : k ≤ t
    · rw [if_neg (by omega), if_neg (by omega)]; congr 1; omega
    · rw [if_pos (by omega), if_pos (by omega)]; congr 1; omega
  · unfold withPast
    by_cases h : (N : Int) - 1 - m < 0
    · rw [if_pos h, if_pos (by omega)]; congr 1; omega
    · rw [if_neg h, if_neg (by omega)]; congr 1; omega

/-- What the convolution leaves in the delay line after `N ≥ M` samples. -/
theorem delayLine_final {M N : Nat} (b z x : Nat → α) (hMN : M ≤ N) {m : Nat} (hm : m < M) :
    delayLine M b z x N m = fullConv N M b x (N + m) := by
  rw [delayLine_eq b z x N hm, if_neg (by omega), add_zero, fullConv]
  have h1 : ∑ k ∈ range N, (if m + k < M then b (m + k + 1) * x (N - 1 - k) else 0) =
      ∑ k ∈ range (M - m), b (m + k + 1) * x (N - 1 - k) := by
    rw [← sum_filter]
    refine sum_congr ?_ fun _ _ => rfl
    ext k; simp only [mem_filter, mem_range]; omega
  have h2 : (∑ k ∈ range (M + 1), if k ≤ N + m ∧ N + m - k < N then b k * x (N + m - k) else 0) =
      ∑ k ∈ range (m + 1 + (M - m)), if m < k then b k * x (N + m - k) else 0 := by
    rw [show m + 1 + (M - m) = M + 1 by omega]
    refine sum_congr rfl fun k hk => ?_
    have := mem_range.1 hk
    by_cases h : m < k
    · rw [if_pos (by omega), if_pos h]
    · rw [if_neg (by omega), if_neg h]
  rw [h1, h2, sum_range_add, sum_eq_zero (s := range (m + 1)), zero_add]
  · refine sum_congr rfl fun k _ => ?_
    rw [if_pos (by omega), show m + 1 + k = m + k + 1 by omega, show N + m - (m + k + 1) = N - 1 - k by omega]
  · intro k hk
    rw [if_neg (by have := mem_range.1 hk; omega)]

/-! ## `lfilter` -/

omit [StarRing α] in
theorem expand_m_nX (n m : Nat) (f : Nat → α) : expand (t1 m f) [some n, none] = .ok (t2 n m fun _ j => f j) := by
  tev_exp
  refine congrArg Except.ok (ext2 rfl rfl ?_)
  intro i j hi hj
  tev_zipd

omit [StarRing α] in
theorem expand_rows {B K : Nat} {X : Tensor α} {f : Nat → Nat → α} (h : Rows B K X f) :
    expand X [some B, none] = .ok (t2 B K f) := by
  cases h with
  | shared f => exact expand_m_nX _ _ _
  | batched f => exact expand_nm_nX _ _ _

omit [StarRing α] in
theorem rank_rows {B K : Nat} {X : Tensor α} {f : Nat → Nat → α} (h : Rows B K X f) : X.rank = 1 ∨ X.rank = 2 := by
  cases h <;> simp

omit [StarRing α] in
theorem size_rows {B K : Nat} {X : Tensor α} {f : Nat → Nat → α} (h : Rows B K X f) : X.size (-1) = K := by
  cases h <;> simp

theorem conj_rows {B K : Nat} {X : Tensor α} {f : Nat → Nat → α} (h : Rows B K X f) :
    Rows B K (conj X) fun i j => star (f i j) := by
  cases h with
  | shared f => rw [conj_t1]; exact .shared _
  | batched f => rw [conj_t2]; exact .batched _

omit [StarRing α] in
theorem zext_rows {B K : Nat} {X : Tensor α} {f : Nat → Nat → α} (h : Rows B K X f) : Rows B K X fun i => zext K (f i) := by
  cases h with
  | shared f =>
    rw [show t1 K f = t1 K (zext K f) from t1_congr rfl fun j hj => (zext_lt f hj).symm]; exact .shared _
  | batched f =>
    rw [show t2 B K f = t2 B K fun i => zext K (f i) from t2_congr rfl rfl fun i j _ hj => (zext_lt (f i) hj).symm]
    exact .batched _

omit [StarRing α] in
theorem pad_rows {B K : Nat} {X : Tensor α} {f : Nat → Nat → α} (h : Rows B K X f) (c : Nat) :
    ∃ X', padDim X (-1) 0 (c : Int) 0 = .ok X' ∧ Rows B (K + c) X' fun i => zext K (f i) := by
  cases h with
  | shared f => exact ⟨_, padDim_t1_n1_right _ _ _ _, .shared _⟩
  | batched f => exact ⟨_, padDim_t2_n1_right _ _ _ _ _, .batched _⟩

omit [StarRing α] in
theorem padOrders_eq {B K P : Nat} {b a : Tensor α} {bv av : Nat → Nat → α} (hb : Rows B K b bv) (ha : Rows B P a av)
    (hK : 0 < K) : ∃ b' a', padOrders b a = .ok (b', a') ∧ Rows B (max P (K - 1) + 1) b' (fun i => zext K (bv i)) ∧
      Rows B (max P (K - 1)) a' fun i => zext P (av i) := by
  unfold padOrders
  rw [size_rows hb, size_rows ha]
  by_cases h1 : K < P + 1
  · obtain ⟨b', e, hb'⟩ := pad_rows hb (P + 1 - K)
    rw [if_pos h1, e, show max P (K - 1) = P by omega]
    rw [show K + (P + 1 - K) = P + 1 by omega] at hb'
    exact ⟨b', a, rfl, hb', zext_rows ha⟩
  rw [if_neg h1]
  by_cases h2 : P + 1 < K
  · obtain ⟨a', e, ha'⟩ := pad_rows ha (K - P - 1)
    rw [if_pos h2, e, show max P (K - 1) = K - 1 by omega]
    rw [show P + (K - P - 1) = K - 1 by omega] at ha'
    have hb' := zext_rows hb
    refine ⟨b, a', rfl, ?_, ha'⟩
    rw [show K - 1 + 1 = K by omega]; exact hb'
  · rw [if_neg h2, show max P (K - 1) = P by omega]
    refine ⟨b, a, rfl, ?_, zext_rows ha⟩
    rw [show P + 1 = K by omega]; exact zext_rows hb

omit [StarRing α] in
theorem companion_rows {B M : Nat} {a : Tensor α} {av : Nat → Nat → α} (ha : Rows B M a av) (hM : 0 < M) :
    ∃ A, companion a = .ok A ∧ MatVals B M M A fun i => comp (av i) := by
  cases ha with
  | shared f => exact ⟨_, companion_t1 _ hM, .shared _⟩
  | batched f => exact ⟨_, companion_t2 _ hM, .batched _⟩

/-- One number, or one per batch item. -/
inductive Gain (B : Nat) : Tensor α → (Nat → α) → Prop
  | shared (d : α) : Gain B (t0 d) fun _ => d
  | batched (d : Nat → α) : Gain B (t1 B d) d

theorem conj_gain {B : Nat} {X : Tensor α} {d : Nat → α} (h : Gain B X d) : Gain B (conj X) fun i => star (d i) := by
  cases h with
  | shared d => rw [conj_t0]; exact .shared _
  | batched d => rw [conj_t1]; exact .batched _

theorem feed_gain {B N : Nat} {X : Tensor α} {d : Nat → α} (h : Gain B X d) (x : Nat → Nat → α) :
    LtiFeed B N (some X) (t2 B N x) none fun i t _ => d i * x i t := by
  cases h with
  | shared d => exact .scalar _ _
  | batched d => exact .batch _ _

theorem readout_rows {B M : Nat} {C : Tensor α} {c : Nat → Nat → α} (h : Rows B M C c) :
    LtiReadout B M (some C) none fun i h _ => ∑ m ∈ range M, c i m * h m := by
  cases h with
  | shared f => exact .vec _
  | batched f => exact .batchVec _

theorem input_rows {B N M : Nat} {C : Tensor α} {c : Nat → Nat → α} (h : Rows B M C c) (x : Nat → Nat → α) :
    LtiInput B N M (some C) (t2 B N x) fun i t k => c i k * x i t := by
  cases h with
  | shared f => exact .vec _ _
  | batched f => exact .batchVec _ _

theorem outputCoefs_eq {B M : Nat} {b a : Tensor α} {bv av : Nat → Nat → α} (hb : Rows B (M + 1) b bv) (ha : Rows B M a av) :
    ∃ C D, outputCoefs b a = .ok (C, D) ∧ Rows B M C (fun i m => bv i (m + 1) - bv i 0 * av i m) ∧
      Gain B D fun i => bv i 0 := by
  have e1 : pyStop (M + 1) (some 1) - pyStart (M + 1) none = 1 := by rw [pyStop_one, pyStart_none]; omega
  have e2 : pyStop (M + 1) none - pyStart (M + 1) (some 1) = M := by rw [pyStop_none, pyStart_one]; omega
  have e3 : pyStart (M + 1) (some 1) = 1 := by rw [pyStart_one]; omega
  have e4 : pyStart (M + 1) none = 0 := pyStart_none _
  cases hb with
  | shared f =>
    cases ha with
    | shared g =>
      refine ⟨t1 M fun m => f (m + 1) - f 0 * g m, t0 (f 0), ?_, .shared _, .shared _⟩
      unfold outputCoefs
      refine bind_step (slice_t1_n1 _ _ _ _) (bind_step (slice_t1_n1 _ _ _ _) ?_)
      rw [e1, e2, e3, e4]
      exact bind_step (zipWith_1_n _ _ _ _) (bind_step (zipWith_n_n _ _ _ _) (bind_step (select_t1_n1_0 _ _ (by omega)) rfl))
    | batched g =>
      refine ⟨t2 B M fun i m => f (m + 1) - f 0 * av i m, t0 (f 0), ?_, .batched _, .shared _⟩
      unfold outputCoefs
      refine bind_step (slice_t1_n1 _ _ _ _) (bind_step (slice_t1_n1 _ _ _ _) ?_)
      rw [e1, e2, e3, e4]
      exact bind_step (zipWith_1_nm _ _ _ _ _) (bind_step (zipWith_m_nm _ _ _ _ _)
        (bind_step (select_t1_n1_0 _ _ (by omega)) rfl))
  | batched f =>
    cases ha with
    | shared g =>
      refine ⟨t2 B M fun i m => bv i (m + 1) - bv i 0 * g m, t1 B fun i => bv i 0, ?_, .batched _, .batched _⟩
      unfold outputCoefs
      refine bind_step (slice_t2_n1 _ _ _ _ _) (bind_step (slice_t2_n1 _ _ _ _ _) ?_)
      rw [e1, e2, e3, e4]
      exact bind_step (zipWith_n1_m _ _ _ _ _) (bind_step (zipWith_nm_nm _ _ _ _ _)
        (bind_step (select_t2_n1_0 _ _ _ (by omega)) rfl))
    | batched g =>
      refine ⟨t2 B M fun i m => bv i (m + 1) - bv i 0 * av i m, t1 B fun i => bv i 0, ?_, .batched _, .batched _⟩
      unfold outputCoefs
      refine bind_step (slice_t2_n1 _ _ _ _ _) (bind_step (slice_t2_n1 _ _ _ _ _) ?_)
      rw [e1, e2, e3, e4]
      exact bind_step (zipWith_n1_nm _ _ _ _ _) (bind_step (zipWith_nm_nm _ _ _ _ _)
        (bind_step (select_t2_n1_0 _ _ _ (by omega)) rfl))

theorem mT_conj {B R Q : Nat} {A : Tensor α} {f : Nat → Nat → Nat → α} (h : MatVals B R Q A f) :
    ∃ A', mT A = .ok A' ∧ MatVals B Q R (conj A') fun i j k => star (f i k j) := by
  cases h with
  | shared f => exact ⟨_, transpose_t2_n2_n1 _ _ _, by rw [conj_t2]; exact .shared _⟩
  | batched f => exact ⟨_, transpose_t3_n2_n1 _ _ _ _, by rw [conj_t3]; exact .batched _⟩

theorem star_comp (a : Nat → α) (i j : Nat) : star (comp a i j) = comp (fun k => star (a k)) i j := by
  unfold comp
  split
  · exact star_neg _
  · split <;> simp

omit [StarRing α] in
theorem size_mat {B M : Nat} {A : Tensor α} {f : Nat → Nat → Nat → α} (h : MatVals B M M A f) : A.size (-1) = M := by
  cases h <;> simp

/-- Direct form II. -/
theorem ssmLfilter_df2 {B N K P : Nat} {b a : Tensor α} {bv av : Nat → Nat → α} (hb : Rows B K b bv) (ha : Rows B P a av)
    (x : Nat → Nat → α) {zi : Option (Tensor α)} {z : Nat → Nat → α} (hz : InitState B (max P (K - 1)) zi z) (hK : 0 < K)
    (hM : 0 < max P (K - 1)) (hN : 0 < N) {u : Option Int} (hu : ∀ i, u = some i → 1 ≤ i) :
    ssmLfilter b a (t2 B N x) zi .df2 u =
      .ok (t2 B N fun i t => taps K (bv i) (dfSignal (max P (K - 1)) (zext P (av i)) (z i) (x i)) t,
        if zi.isSome then some (t2 B (max P (K - 1)) fun i m =>
          dfSignal (max P (K - 1)) (zext P (av i)) (z i) (x i) ((N : Int) - 1 - m)) else none) := by
  obtain ⟨b', a', e, hb', ha'⟩ := padOrders_eq hb ha hK
  obtain ⟨A, eA, hA⟩ := companion_rows ha' hM
  obtain ⟨C, D, eC, hC, hD⟩ := outputCoefs_eq hb' ha'
  unfold ssmLfilter
  refine bind_step e (bind_step eA (bind_step eC ?_))
  rw [stateSpace_eq hA (.none (.scalar x)) (readout_rows hC) (feed_gain hD x) hz hM hN hu, signal]
  refine ok_pair (t2_congr rfl rfl fun i t hi ht => ?_) ?_
  · rw [← taps_zext (M := max P (K - 1) + 1) (by omega)]
    exact df_output hM _ _ _ _ _
  · cases zi.isSome with
    | false => rfl
    | true =>
      refine congrArg some (t2_congr rfl rfl fun i m hi hm => ?_)
      exact df_state _ _ _ _ hm

/-- Transposed direct form II: coefficients conjugated. -/
theorem ssmLfilter_tdf2 {B N K P : Nat} {b a : Tensor α} {bv av : Nat → Nat → α} (hb : Rows B K b bv) (ha : Rows B P a av)
    (x : Nat → Nat → α) {zi : Option (Tensor α)} {z : Nat → Nat → α} (hz : InitState B (max P (K - 1)) zi z) (hK : 0 < K)
    (hM : 0 < max P (K - 1)) (hN : 0 < N) {u : Option Int} (hu : ∀ i, u = some i → 1 ≤ i) :
    ssmLfilter b a (t2 B N x) zi .tdf2 u =
      .ok (t2 B N fun i t => tdf2Out (max P (K - 1)) (fun k => star (zext K (bv i) k)) (fun k => star (zext P (av i) k))
          (z i) (x i) t,
        if zi.isSome then some (t2 B (max P (K - 1)) fun i m => tdf2State (max P (K - 1)) (fun k => star (zext K (bv i) k))
          (fun k => star (zext P (av i) k)) (z i) (x i) N m) else none) := by
  obtain ⟨b', a', e, hb', ha'⟩ := padOrders_eq hb ha hK
  obtain ⟨A, eA, hA⟩ := companion_rows ha' hM
  obtain ⟨C, D, eC, hC, hD⟩ := outputCoefs_eq hb' ha'
  obtain ⟨A', eA', hA'⟩ := mT_conj hA
  unfold ssmLfilter
  refine bind_step e (bind_step eA (bind_step eC (bind_step eA' ?_)))
  have hu' : 1 ≤ u.getD (roundSqrt N) := by
    cases u with
    | none => have := Lti.roundSqrt_pos hN; simp only [Option.getD_none]; omega
    | some i => exact hu i rfl
  simp only [star_comp] at hA'
  have hC' := conj_rows hC
  simp only [star_sub, star_mul'] at hC'
  have hi : -((max P (K - 1) : Nat) : Int) ≤ 0 ∧ (0 : Int) < (max P (K - 1) : Nat) := by omega
  refine Lti.stateSpaceWith_idx hA' (input_rows hC' x) (feed_gain (conj_gain hD) x) hz hN hi
    (fun i => tdf2State (max P (K - 1)) (fun k => star (zext K (bv i) k)) (fun k => star (zext P (av i) k)) (z i) (x i))
    (fun _ _ => rfl) (fun Bx hBx => ?_) fun Bx hBx => ?_
  · exact Lti.stateSpaceRecursion_layout hA' hBx z _ none trivial hM hN hu'
  · exact Lti.stateSpaceRecursion_layout hA' hBx z _ (some 0) hi hM hN hu'

/-- Direct form I: the numerator is conjugated. -/
theorem ssmLfilter_df1 {B N K P : Nat} {b a : Tensor α} {bv av : Nat → Nat → α} (hb : Rows B K b bv) (ha : Rows B P a av)
    (x : Nat → Nat → α) (zi : Option (Tensor α)) (hB : 0 < B) (hK : 0 < K)
    (hM : 0 < max P (K - 1)) (hN : 0 < N) {u : Option Int} (hu : ∀ i, u = some i → 1 ≤ i) :
    ssmLfilter b a (t2 B N x) zi .df1 u =
      .ok (t2 B N fun i t => dfSignal (max P (K - 1)) (zext P (av i)) (fun _ => 0)
        (fun t => taps K (fun k => star (bv i k)) (causal (x i)) t) t, none) := by
  obtain ⟨b', a', e, hb', ha'⟩ := padOrders_eq hb ha hK
  obtain ⟨A, eA, hA⟩ := companion_rows ha' hM
  unfold ssmLfilter
  refine bind_step e (bind_step eA ?_)
  rw [size_t2_0, size_mat hA]
  refine bind_step (expand_rows hb') (bind_step (fir_transpose_none _ _ hB hN hM) ?_)
  rw [zeros, full_t2]
  have hi : -((max P (K - 1) : Nat) : Int) ≤ 0 ∧ (0 : Int) < (max P (K - 1) : Nat) := by omega
  have hu' : 1 ≤ u.getD 1 := by
    cases u with
    | none => simp
    | some i => exact hu i rfl
  refine bind_step (stateSpaceRecursion_layout hA (.scalar _) (fun _ _ => 0) _ (some 0) hi hM hN hu') ?_
  rw [OT]
  refine ok_pair (t2_congr rfl rfl fun i t hi ht => ?_) rfl
  have h : ∀ t, taps (max P (K - 1) + 1) (fun k => star (zext K (bv i) k)) (causal (x i)) t =
      taps K (fun k => star (bv i k)) (causal (x i)) t := by
    intro t
    rw [← taps_zext (K := K) (M := max P (K - 1) + 1) (by omega) fun k => star (bv i k)]
    refine sum_congr rfl fun k _ => congrArg₂ (· * ·) ?_ rfl
    unfold zext
    by_cases hk : k < K
    · simp only [if_pos hk]
    · simp only [if_neg hk, star_zero]
  rw [dfSignal, withPast, if_neg (by omega)]
  simp only [h]
  rfl

/-- Transposed direct form I: the denominator is conjugated. -/
theorem ssmLfilter_tdf1 {B N K P : Nat} {b a : Tensor α} {bv av : Nat → Nat → α} (hb : Rows B K b bv) (ha : Rows B P a av)
    (x : Nat → Nat → α) (zi : Option (Tensor α)) (hB : 0 < B) (hK : 0 < K)
    (hM : 0 < max P (K - 1)) (hN : 0 < N) {u : Option Int} (hu : ∀ i, u = some i → 1 ≤ i) :
    ssmLfilter b a (t2 B N x) zi .tdf1 u =
      .ok (t2 B N fun i t => taps K (bv i) (causal fun t => vecRec (max P (K - 1))
        (fun _ k j => comp (fun m => star (zext P (av i) m)) j k) (fun _ => 0) (first (x i)) (t + 1) 0) t, none) := by
  obtain ⟨b', a', e, hb', ha'⟩ := padOrders_eq hb ha hK
  obtain ⟨A, eA, hA⟩ := companion_rows ha' hM
  obtain ⟨A', eA', hA'⟩ := mT_conj hA
  unfold ssmLfilter
  refine bind_step e (bind_step eA ?_)
  rw [size_t2_0, size_mat hA]
  refine bind_step (expand_rows (conj_rows hb')) (bind_step eA' ?_)
  rw [zeros, full_t2]
  have hi : -((max P (K - 1) : Nat) : Int) ≤ 0 ∧ (0 : Int) < (max P (K - 1) : Nat) := by omega
  have hu' : 1 ≤ u.getD 1 := by
    cases u with
    | none => simp
    | some i => exact hu i rfl
  simp only [star_comp] at hA'
  refine bind_step (stateSpaceRecursion_layout hA' (.scalar _) (fun _ _ => 0) _ (some 0) hi hM hN hu') ?_
  rw [OT]
  refine (fir_transpose_none _ _ hB hN hM).trans (ok_pair (t2_congr rfl rfl fun i t hi ht => ?_) rfl)
  rw [← taps_zext (K := K) (M := max P (K - 1) + 1) (by omega) (bv i)]
  simp only [star_star]
  rfl

theorem squeeze_packed {N : Nat} (y : Nat → Nat → α) : squeeze (t2 1 N y) 0 = .ok (t1 N (y 0)) := squeeze_t2_0 _ _

/-- `lfilter` around a backend that is right on batched signals. -/
theorem lfilterWith_eq {backend : Tensor α → Tensor α → Tensor α → Option (Tensor α) → Res (Tensor α × Option (Tensor α))}
    {B N M K P : Nat} {b a X : Tensor α} {bv av x y zf : Nat → Nat → α} {zi : Option (Tensor α)} {c : Bool}
    (hb : Rows B K b bv) (ha : Rows B P a av) (hx : Sig N B X x)
    (h : backend b a (t2 B N x) zi = .ok (t2 B N y, if c then some (t2 B M zf) else none)) :
    lfilterWith backend b a X zi = .ok (packed (allFlat X b a zi) B N y,
      if c then some (packed (allFlat X b a zi) B M zf) else none) := by
  unfold lfilterWith
  refine bind_step (v := t2 B N x) ?_ (check_step (rank_rows hb) (check_step (rank_rows ha) (bind_step h ?_)))
  · cases hx with
    | flat x => rw [if_pos (rank_t1 _ _)]; exact unsqueeze_t1_0 _ _
    | batched B x => rw [if_neg (by simp), if_neg (by simp)]; rfl
  by_cases hf : X.rank = 1 ∧ b.rank = 1 ∧ a.rank = 1 ∧ ∀ z, zi = some z → z.rank = 1
  · have hB : B = 1 := by
      cases hx with
      | flat x => rfl
      | batched B x => simp at hf
    subst hB
    rw [if_pos hf, show allFlat X b a zi = true from decide_eq_true hf]
    refine bind_step (squeeze_packed y) ?_
    cases c with
    | false => rfl
    | true => exact bind_step (squeeze_packed zf) rfl
  · rw [if_neg hf, show allFlat X b a zi = false from decide_eq_false hf]
    rfl

/-- Which forms filter with conjugated numerator coefficients. -/
def conjB : Form → Bool
  | .df1 | .tdf2 => true
  | _ => false

/-- Which forms filter with conjugated denominator coefficients. -/
def conjA : Form → Bool
  | .tdf1 | .tdf2 => true
  | _ => false

/-- Conjugate the row if asked to. -/
def conjIf (c : Bool) (f : Nat → α) : Nat → α := if c then fun k => star (f k) else f

theorem ssmLfilter_diff {B N K P : Nat} {b a : Tensor α} {bv av : Nat → Nat → α} {zi : Option (Tensor α)} {form : Form}
    (hb : Rows B K b bv) (ha : Rows B P a av) (x : Nat → Nat → α) (hf : form ≠ .other)
    (hzi : zi = none ∨ form = .df1 ∨ form = .tdf1) (hB : 0 < B) (hK : 0 < K) (hM : 0 < max P (K - 1)) (hN : 0 < N)
    {u : Option Int} (hu : ∀ i, u = some i → 1 ≤ i) :
    ∃ y : Nat → Int → α, (∀ i n, n < 0 → y i n = 0) ∧
      (∀ i n, y i n = taps K (conjIf (conjB form) (bv i)) (causal (x i)) n -
        taps P (conjIf (conjA form) (av i)) (y i) (n - 1)) ∧
      ssmLfilter b a (t2 B N x) zi form u = .ok (t2 B N fun i t => y i t, none) := by
  have hP : P ≤ max P (K - 1) := by omega
  have h0 : ∀ a x : Nat → α, ∀ n : Int, n < 0 → dfSignal (max P (K - 1)) (zext P a) (fun _ => 0) x n = 0 :=
    fun a x n hn => by rw [dfSignal, withPast, if_pos hn]
  cases form with
  | other => exact absurd rfl hf
  | df2 =>
    have hzi : zi = none := by rcases hzi with h | h | h <;> first | exact h | cases h
    subst hzi
    refine ⟨_, fun i n hn => taps_neg (h0 (av i) (x i)) hn, fun i n => ?_, ssmLfilter_df2 hb ha x .zero hK hM hN hu⟩
    exact taps_allpole (df_rest hM hP (av i) (x i)) n
  | df1 =>
    refine ⟨_, fun i n hn => h0 (av i) _ n hn, fun i n => ?_, ssmLfilter_df1 hb ha x zi hB hK hM hN hu⟩
    by_cases hn : n < 0
    · rw [h0 _ _ n hn, taps_neg (h0 _ _) (by omega), taps_neg (fun m hm => causal_neg hm) hn, sub_zero]
    · rw [df_rest hM hP]
      refine congrArg₂ (· - ·) ?_ rfl
      lift n to ℕ using by omega
      rw [causal_nat]; rfl
  | tdf1 =>
    refine ⟨_, fun i n hn => taps_neg (fun m hm => causal_neg hm) hn, fun i n => ?_, ssmLfilter_tdf1 hb ha x zi hB hK hM hN hu⟩
    refine taps_allpole (fun n => ?_) n
    by_cases hn : n < 0
    · rw [causal_neg hn, causal_neg hn, taps_neg (fun m hm => causal_neg hm) (by omega), sub_zero]
    · lift n to ℕ using by omega
      rw [causal_nat, causal_nat, zext_star, tallpole hM, taps_zext hP]
      rfl
  | tdf2 =>
    have hzi : zi = none := by rcases hzi with h | h | h <;> first | exact h | cases h
    subst hzi
    refine ⟨fun i => causal (tdf2Out (max P (K - 1)) (zext K fun k => star (bv i k)) (zext P fun k => star (av i k))
      (fun _ => 0) (x i)), fun i n hn => causal_neg hn, fun i n => ?_, ?_⟩
    · beta_reduce
      by_cases hn : n < 0
      · rw [causal_neg hn, taps_neg (fun m hm => causal_neg hm) hn, taps_neg (fun m hm => causal_neg hm) (by omega), sub_zero]
      · lift n to ℕ using by omega
        rw [causal_nat, tdf2_diff hM, taps_zext (by omega), taps_zext hP]
        rfl
    · rw [ssmLfilter_tdf2 hb ha x .zero hK hM hN hu]
      refine ok_pair (t2_congr rfl rfl fun i t _ _ => ?_) rfl
      beta_reduce
      rw [causal_nat, zext_star, zext_star]

/-- Each form of `lfilter` computes a difference equation. -/
theorem lfilter_diff {B N K P : Nat} {b a X : Tensor α} {bv av x : Nat → Nat → α} {zi : Option (Tensor α)} {form : Form}
    (hb : Rows B K b bv) (ha : Rows B P a av) (hx : Sig N B X x) (hf : form ≠ .other)
    (hzi : zi = none ∨ form = .df1 ∨ form = .tdf1) (hB : 0 < B) (hK : 0 < K) (hM : 0 < max P (K - 1)) (hN : 0 < N)
    {u : Option Int} (hu : ∀ i, u = some i → 1 ≤ i) :
    ∃ y : Nat → Int → α, (∀ i n, n < 0 → y i n = 0) ∧
      (∀ i n, y i n = taps K (conjIf (conjB form) (bv i)) (causal (x i)) n -
        taps P (conjIf (conjA form) (av i)) (y i) (n - 1)) ∧
      lfilter b a X zi form u = .ok (packed (allFlat X b a zi) B N (fun i t => y i t), none) := by
  obtain ⟨y, h1, h2, h3⟩ := ssmLfilter_diff hb ha x hf hzi hB hK hM hN hu
  exact ⟨y, h1, h2, lfilterWith_eq (c := false) (M := 0) (zf := fun _ _ => 0) hb ha hx h3⟩

theorem lfilter_df2 {B N K P : Nat} {b a X zi : Tensor α} {bv av x z : Nat → Nat → α} {u : Option Int}
    (hb : Rows B K b bv) (ha : Rows B P a av) (hx : Sig N B X x) (hz : InitState B (max P (K - 1)) (some zi) z)
    (hK : 0 < K) (hM : 0 < max P (K - 1)) (hN : 0 < N) (hu : ∀ i, u = some i → 1 ≤ i) :
    lfilter b a X (some zi) .df2 u =
      .ok (packed (allFlat X b a (some zi)) B N fun i t =>
        taps K (bv i) (dfSignal (max P (K - 1)) (zext P (av i)) (z i) (x i)) t,
        some (packed (allFlat X b a (some zi)) B (max P (K - 1)) fun i m =>
          dfSignal (max P (K - 1)) (zext P (av i)) (z i) (x i) ((N : Int) - 1 - m))) :=
  lfilterWith_eq (c := true) (backend := fun b a x zi => ssmLfilter b a x zi .df2 u) hb ha hx
    (ssmLfilter_df2 hb ha x hz hK hM hN hu)

theorem lfilter_tdf2 {B N K P : Nat} {b a X zi : Tensor α} {bv av x z : Nat → Nat → α} {u : Option Int}
    (hb : Rows B K b bv) (ha : Rows B P a av) (hx : Sig N B X x) (hz : InitState B (max P (K - 1)) (some zi) z)
    (hK : 0 < K) (hM : 0 < max P (K - 1)) (hN : 0 < N) (hu : ∀ i, u = some i → 1 ≤ i) :
    lfilter b a X (some zi) .tdf2 u =
      .ok (packed (allFlat X b a (some zi)) B N fun i t =>
        tdf2Out (max P (K - 1)) (fun k => star (zext K (bv i) k)) (fun k => star (zext P (av i) k)) (z i) (x i) t,
        some (packed (allFlat X b a (some zi)) B (max P (K - 1)) fun i m =>
          tdf2State (max P (K - 1)) (fun k => star (zext K (bv i) k)) (fun k => star (zext P (av i) k)) (z i) (x i) N m)) :=
  lfilterWith_eq (c := true) (backend := fun b a x zi => ssmLfilter b a x zi .tdf2 u) hb ha hx
    (ssmLfilter_tdf2 hb ha x hz hK hM hN hu)

end Phil.Lti
