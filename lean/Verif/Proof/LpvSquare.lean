import Verif.Proof.LpvFiltering

/-!
# `lpv.lfilter` when there are as many signals as time steps

Helper lemmas for `C30_square_df2`: the output coefficients of per-item numerators and how `state_space` reads them.
-/

namespace Phil.Lpv
open Torch Torch.Tensor Spec Finset
open Phil.Lti (ok_pair Form outputCoefs)
variable {α : Type} [CommRing α]

omit [CommRing α] in
theorem matVals_rank3 [Zero α] {B R Q : Nat} {X : Tensor α} {f : Nat → Nat → Nat → α} (h : MatVals B R Q X f) (r : X.rank = 3) :
    X = t3 B R Q f := by
  cases h with
  | shared g => simp at r
  | batched => rfl

theorem outputCoefs_items {B N M : Nat} {a : Tensor α} {av : Nat → Nat → Nat → α} (b : Nat → Nat → Nat → α)
    (ha : MatVals B N M a av) : outputCoefs (t3 B N (M + 1) b) a =
      .ok (t3 B N M (fun i t m => b i t (m + 1) - b i t 0 * av i t m), t2 B N fun i t => b i t 0) := by
  have e1 : pyStop (M + 1) (some 1) - pyStart (M + 1) none = 1 := by rw [pyStop_one, pyStart_none]; omega
  have e2 : pyStop (M + 1) none - pyStart (M + 1) (some 1) = M := by rw [pyStop_none, pyStart_one]; omega
  have e3 : pyStart (M + 1) (some 1) = 1 := by rw [pyStart_one]; omega
  have e4 : pyStart (M + 1) none = 0 := pyStart_none _
  cases ha with
  | shared g =>
    unfold outputCoefs
    refine bind_step (slice_t3_n1 _ _ _ _ _ _) (bind_step (slice_t3_n1 _ _ _ _ _ _) ?_)
    rw [e1, e2, e3, e4]
    exact bind_step (zipWith_nm1_mp _ _ _ _ _ _) (bind_step (zipWith_nmp_nmp _ _ _ _ _ _)
      (bind_step (select_t3_n1_0 _ _ _ _ (by omega)) rfl))
  | batched g =>
    unfold outputCoefs
    refine bind_step (slice_t3_n1 _ _ _ _ _ _) (bind_step (slice_t3_n1 _ _ _ _ _ _) ?_)
    rw [e1, e2, e3, e4]
    exact bind_step (zipWith_nm1_nmp _ _ _ _ _ _) (bind_step (zipWith_nmp_nmp _ _ _ _ _ _)
      (bind_step (select_t3_n1_0 _ _ _ _ (by omega)) rfl))

/-- Direct form II with one numerator per item and as many items as time steps: the output coefficients are read as
`(time, features, M)`. -/
theorem ssmLfilter_df2_square [StarRing α] {N K P : Nat} {a : Tensor α} {av : Nat → Nat → Nat → α} (b : Nat → Nat → Nat → α)
    (ha : MatVals N N P a av) (x : Nat → Nat → α) {zi : Option (Tensor α)} {z : Nat → Nat → α}
    (hz : InitState N (max P (K - 1)) zi z) (hK : 0 < K) (hM : 0 < max P (K - 1)) (hN : 0 < N) {u : Option Int}
    (hu : RecOn N N (max P (K - 1)) (fun i t => comp (zext P (av i t))) z (u.getD (roundSqrt N))) :
    ∃ zf, ssmLfilter (t3 N N K b) a (t2 N N x) zi .df2 u =
      .ok (t3 N N N fun i t p => ∑ m ∈ range (max P (K - 1)), (zext K (b t p) (m + 1) - zext K (b t p) 0 * zext P (av t p) m) *
        tvSignal (max P (K - 1)) (fun t => zext P (av i t)) (z i) (x i) ((t : Int) - 1 - m) + zext K (b t p) 0 * x i t, zf) := by
  obtain ⟨b', a', e, hb', ha', rb, ra⟩ := padOrders_seq (MatVals.batched (B := N) (R := N) (Q := K) b) ha hK
  obtain ⟨A, eA, hA⟩ := companion_seq ha' hM
  obtain rfl := matVals_rank3 hb' (rb.trans (by simp))
  refine ⟨if zi.isSome then some (t2 N (max P (K - 1)) fun i m => vecRec (max P (K - 1)) (fun t => comp (zext P (av i t)))
    (z i) (first (x i)) N m) else none, ?_⟩
  unfold ssmLfilter
  refine bind_step e (bind_step eA (bind_step (outputCoefs_items _ ha') ?_))
  refine (Lpv.stateSpaceWith_eq hA (.none (.scalar x)) (.timeMat N _) (.timeColumn N _ x) hz hN
    (fun i => vecRec (max P (K - 1)) (fun t => comp (zext P (av i t))) (z i) (first (x i))) (fun _ _ => rfl)
    fun Bx hBx => hu hA hBx none trivial).trans ?_
  rw [signal]
  refine ok_pair (t3_congr rfl rfl rfl fun i t p hi ht hp => ?_) rfl
  rw [sum_congr rfl fun m hm => by rw [tv_state _ _ _ _ (mem_range.1 hm)]]

end Phil.Lpv
