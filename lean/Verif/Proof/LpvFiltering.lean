import Verif.Proof.LtiFiltering
import Verif.Proof.LpvFir
import Verif.Proof.LpvAllpole
import Verif.Proof.StateSpace
import Verif.Spec.Unroll

/-! # Correctness of the model of `lfilter` (time-varying) -/

namespace Spec
open Torch Torch.Tensor Finset
variable {α : Type} [CommRing α]

/-- Transposed direct form II with time-varying coefficients: delay line. -/
def tvTdf2State (M : Nat) (b a : Nat → Nat → α) (z x : Nat → α) : Nat → Nat → α :=
  vecRec M (fun t i j => comp (a t) j i) z fun t i => (b t (i + 1) - b t 0 * a t i) * x t

/-- Transposed direct form II with time-varying coefficients: output. -/
def tvTdf2Out (M : Nat) (b a : Nat → Nat → α) (z x : Nat → α) (n : Nat) : α :=
  tvTdf2State M b a z x n 0 + b n 0 * x n

theorem tvTdf2_step {M : Nat} (b a : Nat → Nat → α) (z x : Nat → α) (t : Nat) {i : Nat} (hi : i < M) :
    tvTdf2State M b a z x (t + 1) i = (b t (i + 1) * x t - a t i * tvTdf2Out M b a z x t) +
      if i + 1 < M then tvTdf2State M b a z x t (i + 1) else 0 := by
  unfold tvTdf2Out
  conv_lhs => rw [tvTdf2State]; simp only [vecRec]
  rw [← tvTdf2State, comp_mv_transpose (a t) _ hi]
  ring

theorem tv_output {M : Nat} (hM : 0 < M) (b a : Nat → Nat → α) (z x : Nat → α) (n : Nat) :
    ∑ m ∈ range M, (b n (m + 1) - b n 0 * a n m) * vecRec M (fun t => comp (a t)) z (first x) n m + b n 0 * x n =
      taps (M + 1) (b n) (tvSignal M a z x) n := by
  rw [taps_succ, tv_signal hM, sum_congr rfl fun m hm => by rw [tv_state a z x n (mem_range.1 hm)]]
  simp only [sub_mul, sum_sub_distrib, mul_sub, mul_sum, mul_assoc]
  ring

/-- The transposed companion recursion: the coefficient fed back is the one in force when it is used for the first time,
one step after the fed-back value was produced. -/
theorem tv_tallpole {M : Nat} (hM : 0 < M) (a : Nat → Nat → α) (x : Nat → α) (n : Nat) :
    vecRec M (fun t i j => comp (a t) j i) (fun _ => 0) (first x) (n + 1) 0 =
      x n - ∑ k ∈ range M, if k < n then
        a (n - k) k * vecRec M (fun t i j => comp (a t) j i) (fun _ => 0) (first x) (n - k) 0 else 0 := by
  set s := vecRec M (fun t i j => comp (a t) j i) (fun _ => 0) (first x) with hs
  have step : ∀ t i, i < M → s (t + 1) i = (-(a t i * s t 0) + first x t i) + if i + 1 < M then s t (i + 1) else 0 := by
    intro t i hi
    rw [hs]
    conv_lhs => simp only [vecRec]
    rw [comp_mv_transpose (a t) _ hi]
    ring
  have h0 : ∀ i, s 0 i = 0 := fun _ => rfl
  have h := chain_state step (n + 1) hM
  rw [h, h0, ite_self, add_zero]
  simp only [zero_add]
  have e : ∀ m ∈ range (n + 1), (if m < M then -(a (n + 1 - 1 - m) m * s (n + 1 - 1 - m) 0) +
      first x (n + 1 - 1 - m) m else 0) =
      (if m < M then -(a (n - m) m * s (n - m) 0) else 0) + if m = 0 then x n else 0 := by
    intro m hm
    rw [Nat.add_sub_cancel]
    by_cases h : m < M
    · rw [if_pos h, if_pos h, first]
      by_cases h' : m = 0
      · subst h'; rw [if_pos rfl, if_pos rfl, Nat.sub_zero]
      · rw [if_neg h', if_neg h']
    · rw [if_neg h, if_neg h, if_neg (by omega), zero_add]
  rw [sum_congr rfl e, sum_add_distrib, sum_ite_eq' (range (n + 1)) 0, if_pos (by simp), sum_range_succ]
  rw [Nat.sub_self, h0, mul_zero, neg_zero, ite_self, add_zero, sum_window, add_comm, sub_eq_add_neg, ← sum_neg_distrib]
  refine congrArg₂ (· + ·) rfl (sum_congr rfl fun m _ => ?_)
  by_cases h : m < n
  · rw [if_pos h, if_pos h]
  · rw [if_neg h, if_neg h, neg_zero]

end Spec

namespace Phil.Lpv
open Torch Torch.Tensor Finset Spec Phil.Mat
open Phil.Lti (ok_pair conj_t1 conj_t2 conj_t3 conj_t4 conj_t0 add_eq mul_eq sub_eq padOrders outputCoefs star_comp Form)
variable {α : Type} [CommRing α] [StarRing α]
set_option linter.unusedSectionVars false

theorem size_seq {B N K : Nat} {X : Tensor α} {f : Nat → Nat → Nat → α} (h : MatVals B N K X f) : X.size (-1) = K := by
  cases h <;> simp

theorem rank_seq {B N K : Nat} {X : Tensor α} {f : Nat → Nat → Nat → α} (h : MatVals B N K X f) :
    X.rank = 2 ∨ X.rank = 3 := by
  cases h <;> simp

theorem conj_seq {B N K : Nat} {X : Tensor α} {f : Nat → Nat → Nat → α} (h : MatVals B N K X f) :
    MatVals B N K (conj X) (fun i t j => star (f i t j)) ∧ (conj X).rank = X.rank := by
  cases h with
  | shared f => rw [conj_t2]; exact ⟨.shared _, by simp⟩
  | batched f => rw [conj_t3]; exact ⟨.batched _, by simp⟩

theorem zext_seq {B N K : Nat} {X : Tensor α} {f : Nat → Nat → Nat → α} (h : MatVals B N K X f) :
    MatVals B N K X fun i t => zext K (f i t) := by
  cases h with
  | shared f =>
    rw [show t2 N K f = t2 N K fun t => zext K (f t) from t2_congr rfl rfl fun t j _ hj => (zext_lt (f t) hj).symm]
    exact .shared _
  | batched f =>
    rw [show t3 B N K f = t3 B N K fun i t => zext K (f i t) from
      t3_congr rfl rfl rfl fun i t j _ _ hj => (zext_lt (f i t) hj).symm]
    exact .batched _

theorem pad_seq {B N K : Nat} {X : Tensor α} {f : Nat → Nat → Nat → α} (h : MatVals B N K X f) (c : Nat) :
    ∃ X', padDim X (-1) 0 (c : Int) 0 = .ok X' ∧ MatVals B N (K + c) X' (fun i t => zext K (f i t)) ∧
      X'.rank = X.rank := by
  cases h with
  | shared f => exact ⟨_, padDim_t2_n1_right _ _ _ _ _, .shared _, by simp⟩
  | batched f => exact ⟨_, padDim_t3_n1_right _ _ _ _ _ _, .batched _, by simp⟩

theorem padOrders_seq {B N K P : Nat} {b a : Tensor α} {bv av : Nat → Nat → Nat → α} (hb : MatVals B N K b bv)
    (ha : MatVals B N P a av) (hK : 0 < K) : ∃ b' a', padOrders b a = .ok (b', a') ∧
      MatVals B N (max P (K - 1) + 1) b' (fun i t => zext K (bv i t)) ∧
      MatVals B N (max P (K - 1)) a' (fun i t => zext P (av i t)) ∧ b'.rank = b.rank ∧ a'.rank = a.rank := by
  unfold padOrders
  rw [size_seq hb, size_seq ha]
  by_cases h1 : K < P + 1
  · obtain ⟨b', e, hb', hr⟩ := pad_seq hb (P + 1 - K)
    rw [if_pos h1, e, show max P (K - 1) = P by omega]
    rw [show K + (P + 1 - K) = P + 1 by omega] at hb'
    exact ⟨b', a, rfl, hb', zext_seq ha, hr, rfl⟩
  rw [if_neg h1]
  by_cases h2 : P + 1 < K
  · obtain ⟨a', e, ha', hr⟩ := pad_seq ha (K - P - 1)
    rw [if_pos h2, e, show max P (K - 1) = K - 1 by omega]
    rw [show P + (K - P - 1) = K - 1 by omega] at ha'
    have hb' := zext_seq hb
    refine ⟨b, a', rfl, ?_, ha', rfl, hr⟩
    rw [show K - 1 + 1 = K by omega]; exact hb'
  · rw [if_neg h2, show max P (K - 1) = P by omega]
    refine ⟨b, a, rfl, ?_, zext_seq ha, rfl, rfl⟩
    rw [show P + 1 = K by omega]; exact zext_seq hb

theorem companion_seq {B N M : Nat} {a : Tensor α} {av : Nat → Nat → Nat → α} (ha : MatVals B N M a av) (hM : 0 < M) :
    ∃ A, companion a = .ok A ∧ MatSeq B N M M A fun i t => comp (av i t) := by
  cases ha with
  | shared f => exact ⟨_, companion_t2 _ hM, .shared _⟩
  | batched f => exact ⟨_, companion_t3 _ hM, .batched _⟩

theorem expand_seq {B N K : Nat} {X : Tensor α} {f : Nat → Nat → Nat → α} (h : MatVals B N K X f) :
    expand X [some B, none, none] = .ok (t3 B N K f) := by
  cases h with
  | shared f => exact expand_mp_nXX _ _ _ _
  | batched f => exact expand_nmp_nXX _ _ _ _

theorem size_matSeq {B N M : Nat} {A : Tensor α} {f : Nat → Nat → Nat → Nat → α} (h : MatSeq B N M M A f) :
    A.size (-1) = M := by
  cases h <;> simp

theorem mT_conj_seq {B N R Q : Nat} {A : Tensor α} {f : Nat → Nat → Nat → Nat → α} (h : MatSeq B N R Q A f) :
    ∃ A', mT A = .ok A' ∧ MatSeq B N Q R (conj A') fun i t j k => star (f i t k j) := by
  cases h with
  | shared f => exact ⟨_, transpose_t3_n2_n1 _ _ _ _, by rw [conj_t3]; exact .shared _⟩
  | batched f => exact ⟨_, transpose_t4_n2_n1 _ _ _ _ _, by rw [conj_t4]; exact .batched _⟩

/-- One number per time step, or one per batch item and time step. -/
inductive TvGain (B N : Nat) : Tensor α → (Nat → Nat → α) → Prop
  | shared (d : Nat → α) : TvGain B N (t1 N d) fun _ => d
  | batched (d : Nat → Nat → α) : TvGain B N (t2 B N d) d

theorem conj_tvGain {B N : Nat} {X : Tensor α} {d : Nat → Nat → α} (h : TvGain B N X d) :
    TvGain B N (conj X) (fun i t => star (d i t)) ∧ (conj X).rank = X.rank := by
  cases h with
  | shared d => rw [conj_t1]; exact ⟨.shared _, by simp⟩
  | batched d => rw [conj_t2]; exact ⟨.batched _, by simp⟩

theorem feed_tvGain {B N : Nat} {X : Tensor α} {d : Nat → Nat → α} (h : TvGain B N X d) (x : Nat → Nat → α)
    (hB : X.rank = 1 ∨ B ≠ N) : LpvFeed B N (some X) (t2 B N x) none fun i t _ => d i t * x i t := by
  cases h with
  | shared d => exact .time _ _
  | batched d => exact .batchTime _ _ (by simpa using hB)

theorem readout_seq {B N M : Nat} {C : Tensor α} {c : Nat → Nat → Nat → α} (h : MatVals B N M C c)
    (hB : C.rank = 2 ∨ B ≠ N) : LpvReadout B N M (some C) none fun i t h _ => ∑ m ∈ range M, c i t m * h m := by
  cases h with
  | shared f => exact .timeVec _
  | batched f => exact .batchTimeVec _ (by simpa using hB)

theorem input_seq {B N M : Nat} {C : Tensor α} {c : Nat → Nat → Nat → α} (h : MatVals B N M C c) (x : Nat → Nat → α) :
    LpvInput B N M (some C) (t2 B N x) fun i t k => c i t k * x i t := by
  cases h with
  | shared f => exact .timeVec _ _
  | batched f => exact .batchTimeVec _ _

theorem zipWith_m1_nmp (m n p : Nat) (h : α → α → α) (f : Nat → Nat → α) (g : Nat → Nat → Nat → α) :
    zipWith h (t2 m 1 f) (t3 n m p g) = .ok (t3 n m p fun i j k => h (f j 0) (g i j k)) := by
  tev_zip3

theorem outputCoefs_seq {B N M : Nat} {b a : Tensor α} {bv av : Nat → Nat → Nat → α} (hb : MatVals B N (M + 1) b bv)
    (ha : MatVals B N M a av) : ∃ C D, outputCoefs b a = .ok (C, D) ∧
      MatVals B N M C (fun i t m => bv i t (m + 1) - bv i t 0 * av i t m) ∧ TvGain B N D (fun i t => bv i t 0) ∧
      (b.rank = 2 → a.rank = 2 → C.rank = 2) ∧ (b.rank = 2 → D.rank = 1) := by
  have e1 : pyStop (M + 1) (some 1) - pyStart (M + 1) none = 1 := by rw [pyStop_one, pyStart_none]; omega
  have e2 : pyStop (M + 1) none - pyStart (M + 1) (some 1) = M := by rw [pyStop_none, pyStart_one]; omega
  have e3 : pyStart (M + 1) (some 1) = 1 := by rw [pyStart_one]; omega
  have e4 : pyStart (M + 1) none = 0 := pyStart_none _
  cases hb with
  | shared f =>
    cases ha with
    | shared g =>
      refine ⟨t2 N M fun t m => f t (m + 1) - f t 0 * g t m, t1 N fun t => f t 0, ?_, .shared _, .shared _, by simp, by simp⟩
      unfold outputCoefs
      refine bind_step (slice_t2_n1 _ _ _ _ _) (bind_step (slice_t2_n1 _ _ _ _ _) ?_)
      rw [e1, e2, e3, e4]
      exact bind_step (zipWith_n1_nm _ _ _ _ _) (bind_step (zipWith_nm_nm _ _ _ _ _)
        (bind_step (select_t2_n1_0 _ _ _ (by omega)) rfl))
    | batched g =>
      refine ⟨t3 B N M fun i t m => f t (m + 1) - f t 0 * av i t m, t1 N fun t => f t 0, ?_, .batched _, .shared _,
        by simp, by simp⟩
      unfold outputCoefs
      refine bind_step (slice_t2_n1 _ _ _ _ _) (bind_step (slice_t2_n1 _ _ _ _ _) ?_)
      rw [e1, e2, e3, e4]
      exact bind_step (zipWith_m1_nmp _ _ _ _ _ _) (bind_step (zipWith_mp_nmp _ _ _ _ _ _)
        (bind_step (select_t2_n1_0 _ _ _ (by omega)) rfl))
  | batched f =>
    cases ha with
    | shared g =>
      refine ⟨t3 B N M fun i t m => bv i t (m + 1) - bv i t 0 * g t m, t2 B N fun i t => bv i t 0, ?_, .batched _,
        .batched _, by simp, by simp⟩
      unfold outputCoefs
      refine bind_step (slice_t3_n1 _ _ _ _ _ _) (bind_step (slice_t3_n1 _ _ _ _ _ _) ?_)
      rw [e1, e2, e3, e4]
      exact bind_step (zipWith_nm1_mp _ _ _ _ _ _) (bind_step (zipWith_nmp_nmp _ _ _ _ _ _)
        (bind_step (select_t3_n1_0 _ _ _ _ (by omega)) rfl))
    | batched g =>
      refine ⟨t3 B N M fun i t m => bv i t (m + 1) - bv i t 0 * av i t m, t2 B N fun i t => bv i t 0, ?_, .batched _,
        .batched _, by simp, by simp⟩
      unfold outputCoefs
      refine bind_step (slice_t3_n1 _ _ _ _ _ _) (bind_step (slice_t3_n1 _ _ _ _ _ _) ?_)
      rw [e1, e2, e3, e4]
      exact bind_step (zipWith_nm1_nmp _ _ _ _ _ _) (bind_step (zipWith_nmp_nmp _ _ _ _ _ _)
        (bind_step (select_t3_n1_0 _ _ _ _ (by omega)) rfl))

/-- The recursion is right for the matrices `Av`, the initial states `z` and the unroll factor `u`. -/
def RecOn (B N M : Nat) (Av : Nat → Nat → Nat → Nat → α) (z : Nat → Nat → α) (u : Int) : Prop :=
  ∀ ⦃A x : Tensor α⦄ ⦃xv : Nat → Nat → Nat → α⦄, MatSeq B N M M A Av → Drive B N M x xv → ∀ o, Lti.OV M o →
    stateSpaceRecursion A (t2 B M z) x u o = .ok (Lti.OT o B N M fun b t m => vecRec M (Av b) (z b) (xv b) (t + 1) m)

omit [StarRing α] in
theorem recOn_good {B N M : Nat} (Av : Nat → Nat → Nat → Nat → α) (z : Nat → Nat → α) {u : Int} (hB : 0 < B) (hM : 0 < M)
    (hN : 0 < N) (hu : Props.GoodUnroll N (some u)) : RecOn B N M Av z u :=
  fun _ _ _ hA hx o ho => stateSpaceRecursion_layout hA hx z u o ho hB hM hN hu.1 hu.2

/-- Direct form II. -/
theorem ssmLfilter_tvdf2_of {B N K P : Nat} {b a : Tensor α} {bv av : Nat → Nat → Nat → α} (hb : MatVals B N K b bv)
    (ha : MatVals B N P a av) (x : Nat → Nat → α) {zi : Option (Tensor α)} {z : Nat → Nat → α}
    (hz : InitState B (max P (K - 1)) zi z) (hBN : b.rank = 2 ∧ a.rank = 2 ∨ B ≠ N) (hK : 0 < K)
    (hM : 0 < max P (K - 1)) (hN : 0 < N) {u : Option Int} (hu : RecOn B N (max P (K - 1)) (fun i t => comp (zext P (av i t))) z (u.getD (roundSqrt N))) :
    ssmLfilter b a (t2 B N x) zi .df2 u =
      .ok (t2 B N fun i t => taps K (bv i t) (tvSignal (max P (K - 1)) (fun t => zext P (av i t)) (z i) (x i)) t,
        if zi.isSome then some (t2 B (max P (K - 1)) fun i m =>
          tvSignal (max P (K - 1)) (fun t => zext P (av i t)) (z i) (x i) ((N : Int) - 1 - m)) else none) := by
  obtain ⟨b', a', e, hb', ha', rb, ra⟩ := padOrders_seq hb ha hK
  obtain ⟨A, eA, hA⟩ := companion_seq ha' hM
  obtain ⟨C, D, eC, hC, hD, rC, rD⟩ := outputCoefs_seq hb' ha'
  rw [rb, ra] at rC
  rw [rb] at rD
  unfold ssmLfilter
  refine bind_step e (bind_step eA (bind_step eC ?_))
  refine (Lpv.stateSpaceWith_eq hA (.none (.scalar x)) (readout_seq hC (hBN.imp (fun h => rC h.1 h.2) id))
    (feed_tvGain hD x (hBN.imp (fun h => rD h.1) id)) hz hN
    (fun i => vecRec (max P (K - 1)) (fun t => comp (zext P (av i t))) (z i) (first (x i))) (fun _ _ => rfl)
    fun Bx hBx => hu hA hBx none trivial).trans ?_
  rw [signal]
  refine ok_pair (t2_congr rfl rfl fun i t hi ht => ?_) ?_
  · rw [← taps_zext (M := max P (K - 1) + 1) (by omega)]
    exact tv_output hM (fun t => zext K (bv i t)) (fun t => zext P (av i t)) _ _ t
  · cases zi.isSome with
    | false => rfl
    | true =>
      refine congrArg some (t2_congr rfl rfl fun i m hi hm => ?_)
      exact tv_state _ _ _ _ hm

theorem ssmLfilter_tvdf2 {B N K P : Nat} {b a : Tensor α} {bv av : Nat → Nat → Nat → α} (hb : MatVals B N K b bv)
    (ha : MatVals B N P a av) (x : Nat → Nat → α) {zi : Option (Tensor α)} {z : Nat → Nat → α}
    (hz : InitState B (max P (K - 1)) zi z) (hBN : b.rank = 2 ∧ a.rank = 2 ∨ B ≠ N) (hB : 0 < B) (hK : 0 < K)
    (hM : 0 < max P (K - 1)) (hN : 0 < N) {u : Option Int} (hu : Props.GoodUnroll N u) :
    ssmLfilter b a (t2 B N x) zi .df2 u =
      .ok (t2 B N fun i t => taps K (bv i t) (tvSignal (max P (K - 1)) (fun t => zext P (av i t)) (z i) (x i)) t,
        if zi.isSome then some (t2 B (max P (K - 1)) fun i m =>
          tvSignal (max P (K - 1)) (fun t => zext P (av i t)) (z i) (x i) ((N : Int) - 1 - m)) else none) :=
  ssmLfilter_tvdf2_of hb ha x hz hBN hK hM hN (recOn_good _ _ hB hM hN hu)

/-- Transposed direct form II: coefficients conjugated. -/
theorem ssmLfilter_tvtdf2_of {B N K P : Nat} {b a : Tensor α} {bv av : Nat → Nat → Nat → α} (hb : MatVals B N K b bv)
    (ha : MatVals B N P a av) (x : Nat → Nat → α) {zi : Option (Tensor α)} {z : Nat → Nat → α}
    (hz : InitState B (max P (K - 1)) zi z) (hBN : b.rank = 2 ∨ B ≠ N) (hK : 0 < K)
    (hM : 0 < max P (K - 1)) (hN : 0 < N) {u : Option Int} (hu : RecOn B N (max P (K - 1)) (fun i t k j => comp (fun m => star (zext P (av i t) m)) j k) z (u.getD (roundSqrt N))) :
    ssmLfilter b a (t2 B N x) zi .tdf2 u =
      .ok (t2 B N fun i t => tvTdf2Out (max P (K - 1)) (fun t k => star (zext K (bv i t) k))
          (fun t k => star (zext P (av i t) k)) (z i) (x i) t,
        if zi.isSome then some (t2 B (max P (K - 1)) fun i m => tvTdf2State (max P (K - 1))
          (fun t k => star (zext K (bv i t) k)) (fun t k => star (zext P (av i t) k)) (z i) (x i) N m) else none) := by
  obtain ⟨b', a', e, hb', ha', rb, ra⟩ := padOrders_seq hb ha hK
  obtain ⟨A, eA, hA⟩ := companion_seq ha' hM
  obtain ⟨C, D, eC, hC, hD, rC, rD⟩ := outputCoefs_seq hb' ha'
  obtain ⟨A', eA', hA'⟩ := mT_conj_seq hA
  rw [rb] at rD
  unfold ssmLfilter
  refine bind_step e (bind_step eA (bind_step eC (bind_step eA' ?_)))
  simp only [star_comp] at hA'
  have hC' := (conj_seq hC).1
  simp only [star_sub, star_mul'] at hC'
  obtain ⟨hD', rD'⟩ := conj_tvGain hD
  have hi : -((max P (K - 1) : Nat) : Int) ≤ 0 ∧ (0 : Int) < (max P (K - 1) : Nat) := by omega
  refine Lpv.stateSpaceWith_idx hA' (input_seq hC' x)
    (feed_tvGain hD' x (hBN.imp (fun h => rD'.trans (rD h)) id)) hz hN hi
    (fun i => tvTdf2State (max P (K - 1)) (fun t k => star (zext K (bv i t) k)) (fun t k => star (zext P (av i t) k))
      (z i) (x i))
    (fun _ _ => rfl) (fun Bx hBx => ?_) fun Bx hBx => ?_
  · exact hu hA' hBx none trivial
  · exact hu hA' hBx (some 0) hi

theorem ssmLfilter_tvtdf2 {B N K P : Nat} {b a : Tensor α} {bv av : Nat → Nat → Nat → α} (hb : MatVals B N K b bv)
    (ha : MatVals B N P a av) (x : Nat → Nat → α) {zi : Option (Tensor α)} {z : Nat → Nat → α}
    (hz : InitState B (max P (K - 1)) zi z) (hBN : b.rank = 2 ∨ B ≠ N) (hB : 0 < B) (hK : 0 < K)
    (hM : 0 < max P (K - 1)) (hN : 0 < N) {u : Option Int} (hu : Props.GoodUnroll N u) :
    ssmLfilter b a (t2 B N x) zi .tdf2 u =
      .ok (t2 B N fun i t => tvTdf2Out (max P (K - 1)) (fun t k => star (zext K (bv i t) k))
          (fun t k => star (zext P (av i t) k)) (z i) (x i) t,
        if zi.isSome then some (t2 B (max P (K - 1)) fun i m => tvTdf2State (max P (K - 1))
          (fun t k => star (zext K (bv i t) k)) (fun t k => star (zext P (av i t) k)) (z i) (x i) N m) else none) :=
  ssmLfilter_tvtdf2_of hb ha x hz hBN hK hM hN (recOn_good _ _ hB hM hN hu)

/-- `fir` without state, direct form. -/
theorem fir_direct_none {B M N : Nat} (b : Nat → Nat → Nat → α) (x : Nat → Nat → α) (hN : 0 < N) :
    fir (t3 B N (M + 1) b) (t2 B N x) none false =
      .ok (t2 B N fun i n => taps (M + 1) (b i n) (causal (x i)) n, none) := by
  rw [fir_none_eq _ _ _ (by omega), if_neg (by simp), Nat.add_sub_cancel]
  refine (firDirect_eq b x (fun _ _ => 0) false hN).trans ?_
  simp only [Bool.false_eq_true, if_false]
  rfl

/-- `fir` with state, direct form. -/
theorem fir_direct_some {B M N : Nat} (b : Nat → Nat → Nat → α) (x z : Nat → Nat → α) (hN : 0 < N) :
    fir (t3 B N (M + 1) b) (t2 B N x) (some (t2 B M z)) false =
      .ok (t2 B N fun i n => taps (M + 1) (b i n) (withPast (z i) (x i)) n,
        some (t2 B M fun i m => withPast (z i) (x i) ((N : Int) - 1 - m))) := by
  rw [fir_some_eq, if_neg (by simp), firDirect_eq b x z true hN]
  simp only [if_true]
  rfl

/-- Direct form I. -/
theorem ssmLfilter_tvdf1_of {B N K P : Nat} {b a : Tensor α} {bv av : Nat → Nat → Nat → α} (hb : MatVals B N K b bv)
    (ha : MatVals B N P a av) (x : Nat → Nat → α) (zi : Option (Tensor α)) (hK : 0 < K)
    (hM : 0 < max P (K - 1)) (hN : 0 < N) {u : Option Int} (hu : RecOn B N (max P (K - 1)) (fun i t => comp (zext P (av i t))) (fun _ _ => 0) (u.getD 1)) :
    ssmLfilter b a (t2 B N x) zi .df1 u =
      .ok (t2 B N fun i t => tvSignal (max P (K - 1)) (fun t => zext P (av i t)) (fun _ => 0)
        (fun t => taps K (bv i t) (causal (x i)) t) t, none) := by
  obtain ⟨b', a', e, hb', ha', -, -⟩ := padOrders_seq hb ha hK
  obtain ⟨A, eA, hA⟩ := companion_seq ha' hM
  unfold ssmLfilter
  refine bind_step e (bind_step eA ?_)
  rw [size_t2_0, size_matSeq hA]
  refine bind_step (expand_seq hb') (bind_step (fir_direct_none _ _ hN) ?_)
  rw [zeros, full_t2]
  have hi : -((max P (K - 1) : Nat) : Int) ≤ 0 ∧ (0 : Int) < (max P (K - 1) : Nat) := by omega
  refine bind_step (hu hA (.scalar _) (some 0) hi) ?_
  rw [Lti.OT]
  refine ok_pair (t2_congr rfl rfl fun i t hi ht => ?_) rfl
  rw [tvSignal, withPast, if_neg (by omega)]
  simp only [taps_zext (K := K) (M := max P (K - 1) + 1) (by omega)]
  rfl

theorem ssmLfilter_tvdf1 {B N K P : Nat} {b a : Tensor α} {bv av : Nat → Nat → Nat → α} (hb : MatVals B N K b bv)
    (ha : MatVals B N P a av) (x : Nat → Nat → α) (zi : Option (Tensor α)) (hB : 0 < B) (hK : 0 < K)
    (hM : 0 < max P (K - 1)) (hN : 0 < N) {u : Option Int} (hu : Props.GoodUnroll N (some (u.getD 1))) :
    ssmLfilter b a (t2 B N x) zi .df1 u =
      .ok (t2 B N fun i t => tvSignal (max P (K - 1)) (fun t => zext P (av i t)) (fun _ => 0)
        (fun t => taps K (bv i t) (causal (x i)) t) t, none) :=
  ssmLfilter_tvdf1_of hb ha x zi hK hM hN (recOn_good _ _ hB hM hN hu)

/-- Transposed direct form I: the denominator is conjugated. -/
theorem ssmLfilter_tvtdf1_of {B N K P : Nat} {b a : Tensor α} {bv av : Nat → Nat → Nat → α} (hb : MatVals B N K b bv)
    (ha : MatVals B N P a av) (x : Nat → Nat → α) (zi : Option (Tensor α)) (hK : 0 < K)
    (hM : 0 < max P (K - 1)) (hN : 0 < N) {u : Option Int} (hu : RecOn B N (max P (K - 1)) (fun i t k j => comp (fun m => star (zext P (av i t) m)) j k) (fun _ _ => 0) (u.getD 1)) :
    ssmLfilter b a (t2 B N x) zi .tdf1 u =
      .ok (t2 B N fun i n => tvConv N (max P (K - 1)) (fun t => zext K (bv i t)) (fun t => vecRec (max P (K - 1))
        (fun t k j => comp (fun m => star (zext P (av i t) m)) j k) (fun _ => 0) (first (x i)) (t + 1) 0) n, none) := by
  obtain ⟨b', a', e, hb', ha', -, -⟩ := padOrders_seq hb ha hK
  obtain ⟨A, eA, hA⟩ := companion_seq ha' hM
  obtain ⟨A', eA', hA'⟩ := mT_conj_seq hA
  unfold ssmLfilter
  refine bind_step e (bind_step eA ?_)
  rw [size_t2_0, size_matSeq hA]
  refine bind_step (expand_seq (conj_seq hb').1) (bind_step eA' ?_)
  rw [zeros, full_t2]
  have hi : -((max P (K - 1) : Nat) : Int) ≤ 0 ∧ (0 : Int) < (max P (K - 1) : Nat) := by omega
  simp only [star_comp] at hA'
  refine bind_step (hu hA' (.scalar _) (some 0) hi) ?_
  rw [Lti.OT]
  refine (fir_transposed_none _ _ hM hN).trans (ok_pair (t2_congr rfl rfl fun i t hi ht => ?_) rfl)
  simp only [star_star]
  rfl

theorem ssmLfilter_tvtdf1 {B N K P : Nat} {b a : Tensor α} {bv av : Nat → Nat → Nat → α} (hb : MatVals B N K b bv)
    (ha : MatVals B N P a av) (x : Nat → Nat → α) (zi : Option (Tensor α)) (hB : 0 < B) (hK : 0 < K)
    (hM : 0 < max P (K - 1)) (hN : 0 < N) {u : Option Int} (hu : Props.GoodUnroll N (some (u.getD 1))) :
    ssmLfilter b a (t2 B N x) zi .tdf1 u =
      .ok (t2 B N fun i n => tvConv N (max P (K - 1)) (fun t => zext K (bv i t)) (fun t => vecRec (max P (K - 1))
        (fun t k j => comp (fun m => star (zext P (av i t) m)) j k) (fun _ => 0) (first (x i)) (t + 1) 0) n, none) :=
  ssmLfilter_tvtdf1_of hb ha x zi hK hM hN (recOn_good _ _ hB hM hN hu)

/-! ## The backend `torchlpc` -/

theorem withBatchAxis_seq {B N K : Nat} {X : Tensor α} {f : Nat → Nat → Nat → α} (h : MatVals B N K X f) :
    ∃ X', withBatchAxis X = .ok X' ∧ expand X' [some B, none, none] = .ok (t3 B N K f) ∧
      (X'.size 0 = 1 ∨ X'.size 0 = B) ∧ X'.size 1 = N ∧ X'.size 2 = K := by
  unfold withBatchAxis
  cases h with
  | shared f =>
    refine ⟨t3 1 N K fun _ => f, ?_, expand_1mp_nXX _ _ _ _, by simp, by simp, by simp⟩
    rw [if_pos (rank_t2 _ _ _)]
    exact unsqueeze_t2_0 _ _ _
  | batched f =>
    refine ⟨_, ?_, expand_nmp_nXX _ _ _ _, by simp, by simp, by simp⟩
    rw [if_neg (by simp), if_pos (rank_t3 _ _ _ _)]
    rfl

theorem torchlpcState_eq {B M : Nat} {zi : Option (Tensor α)} {z : Nat → Nat → α} (h : InitState B M zi z) :
    torchlpcState zi B M = .ok (B, t2 B M z) := by
  unfold torchlpcState
  cases h with
  | zero => exact congrArg Except.ok (congrArg (Prod.mk B) (full_t2 _ _ 0))
  | shared z =>
    simp only [rank_t1, if_true]
    exact check_step (size_t1_0 _ _) (bind_step (unsqueeze_t1_0 _ _) (bind_step (expand_1m_nX _ _ _) rfl))
  | full z =>
    simp only [rank_t2, size_t2_0, size_t2_1, max_self]
    exact check_step trivial (bind_step (expand_nm_nX _ _ _) rfl)

theorem torchlpcLfilter_eq {B N K P : Nat} {b a : Tensor α} {bv av : Nat → Nat → Nat → α} (lpc : Lpc α)
    (hb : MatVals B N K b bv) (ha : MatVals B N P a av) (x : Nat → Nat → α) {zi : Option (Tensor α)} {z : Nat → Nat → α}
    (hz : InitState B (max P (K - 1)) zi z) (hB : 0 < B) (form : Form) :
    torchlpcLfilter lpc b a (t2 B N x) zi form =
      torchlpcForms lpc (t3 B N K bv) (t3 B N P av) (t2 B N x) (t2 B (max P (K - 1)) z) zi.isSome form := by
  obtain ⟨b', eb, eb', sb0, sb1, sb2⟩ := withBatchAxis_seq hb
  obtain ⟨a', ea, ea', sa0, sa1, sa2⟩ := withBatchAxis_seq ha
  unfold torchlpcLfilter
  refine check_step (rank_t2 _ _ _) (bind_step eb (bind_step ea (check_step ⟨by omega, by simp [sa1]⟩ ?_)))
  rw [sa2, sb2, size_t2_0, show max (max (b'.size 0) (a'.size 0)) B = B by omega]
  exact bind_step (torchlpcState_eq hz) (bind_step eb' (bind_step ea' (bind_step (expand_nm_nX _ _ _) rfl)))

/-- Direct form II.  `w` is the intermediate signal. -/
theorem torchlpc_df2 {B N K P : Nat} {lpc : Lpc α} (hl : IsLpc lpc) (b a : Nat → Nat → Nat → α) (x z : Nat → Nat → α)
    (c : Bool) (hK : 0 < K) (hP : 0 < P) (hN : 0 < N) : ∃ (w : Nat → Nat → α) (zf : Tensor α),
      (∀ i, AllPole N P (a i) (z i) (x i) (w i)) ∧
      (P ≤ N → zf = t2 B (max P (K - 1)) fun i m => withPast (z i) (w i) ((N : Int) - 1 - m)) ∧
      torchlpcForms lpc (t3 B N K b) (t3 B N P a) (t2 B N x) (t2 B (max P (K - 1)) z) c .df2 =
        .ok (t2 B N fun i n => taps K (b i n) (withPast (z i) (w i)) n, if c then some zf else none) := by
  obtain ⟨M, rfl⟩ : ∃ M, K = M + 1 := ⟨K - 1, by omega⟩
  rw [Nat.add_sub_cancel]
  obtain ⟨w, zf, e, hw, hf⟩ := hl B N P x a _ _ hN hP (.given z)
  refine ⟨w, if zf.size 1 < M then t2 B M (fun i m => withPast (z i) (w i) ((N : Int) - 1 - m)) else zf, hw, fun h => ?_, ?_⟩
  · rw [hf h, size_t2_1]
    by_cases h' : P < M
    · rw [if_pos h', Nat.max_eq_right h'.le]
    · rw [if_neg h', Nat.max_eq_left (by omega)]
  · unfold torchlpcForms
    rw [size_t3_2, size_t3_2, Lti.order_cast]
    refine bind_step (v := t2 B P z) ?_ (bind_step (v := t2 B M z) ?_ (bind_step (v := (t2 B N w, some zf)) ?_
      (bind_step (fir_direct_some b w z hN) ?_)))
    · rw [slice_t2_1, pyStop_nat, pyStart_none]
      refine congrArg Except.ok (t2_congr rfl (by omega) fun i j hi hj => rfl)
    · rw [slice_t2_1, pyStop_nat, pyStart_none]
      refine congrArg Except.ok (t2_congr rfl (by omega) fun i j hi hj => rfl)
    · rw [allpole_some_eq, if_neg (by simp)]
      exact bind_step e rfl
    · simp only [size_t2_1]
      rfl

/-- Direct form I. -/
theorem torchlpc_df1 {B N K P : Nat} {lpc : Lpc α} (hl : IsLpc lpc) (b a : Nat → Nat → Nat → α) (x : Nat → Nat → α)
    (z : Tensor α) (c : Bool) (hK : 0 < K) (hP : 0 < P) (hN : 0 < N) : ∃ y : Nat → Nat → α,
      (∀ i, AllPole N P (a i) (fun _ => 0) (fun n => taps K (b i n) (causal (x i)) n) (y i)) ∧
      torchlpcForms lpc (t3 B N K b) (t3 B N P a) (t2 B N x) z c .df1 = .ok (t2 B N y, none) := by
  obtain ⟨M, rfl⟩ : ∃ M, K = M + 1 := ⟨K - 1, by omega⟩
  obtain ⟨y, zf, e, hy, _⟩ := hl B N P (fun i n => taps (M + 1) (b i n) (causal (x i)) n) a _ _ hN hP
    (.given fun _ _ => 0)
  refine ⟨y, hy, ?_⟩
  unfold torchlpcForms
  refine bind_step (fir_direct_none b x hN) ?_
  rw [allpole_none_eq, if_neg (by simp)]
  exact bind_step e rfl

/-! ## `lfilter` -/

theorem lfilterWith_seq
    {backend : Tensor α → Tensor α → Tensor α → Option (Tensor α) → Res (Tensor α × Option (Tensor α))}
    {B N M K P : Nat} {b a X : Tensor α} {bv av : Nat → Nat → Nat → α} {x y zf : Nat → Nat → α} {zi : Option (Tensor α)}
    {c : Bool} (hb : MatVals B N K b bv) (ha : MatVals B N P a av) (hx : Sig N B X x)
    (h : backend b a (t2 B N x) zi = .ok (t2 B N y, if c then some (t2 B M zf) else none)) :
    lfilterWith backend b a X zi = .ok (packed (allFlatTv X b a zi) B N y,
      if c then some (packed (allFlatTv X b a zi) B M zf) else none) := by
  unfold lfilterWith
  refine bind_step (v := t2 B N x) ?_ (check_step (rank_seq hb) (check_step (rank_seq ha) (bind_step h ?_)))
  · cases hx with
    | flat x => rw [if_pos (rank_t1 _ _)]; exact unsqueeze_t1_0 _ _
    | batched B x => rw [if_neg (by simp), if_neg (by simp)]; rfl
  by_cases hf : X.rank = 1 ∧ b.rank = 2 ∧ a.rank = 2 ∧ ∀ z, zi = some z → z.rank = 1
  · have hB : B = 1 := by
      cases hx with
      | flat x => rfl
      | batched B x => simp at hf
    subst hB
    rw [if_pos hf, show allFlatTv X b a zi = true from decide_eq_true hf]
    refine bind_step (Lti.squeeze_packed y) ?_
    cases c with
    | false => rfl
    | true => exact bind_step (Lti.squeeze_packed zf) rfl
  · rw [if_neg hf, show allFlatTv X b a zi = false from decide_eq_false hf]
    rfl

end Phil.Lpv
