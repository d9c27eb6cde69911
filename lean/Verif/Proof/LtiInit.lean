import Verif.Model.LtiInit
import Verif.Proof.FilterInit
import Verif.Proof.LtiFiltering

/-! # Proofs about `lfiltic` and `lfilter_zi` -/

namespace Phil.Lti
open Torch Torch.Tensor Spec Finset

section
variable {α : Type} [CommRing α]

theorem sub_rows {B K : Nat} {X Y : Tensor α} {f g : Nat → Nat → α} (hx : Rows B K X f) (hy : Rows B K Y g) :
    ∃ Z, sub X Y = .ok Z ∧ Rows B K Z fun i j => f i j - g i j := by
  cases hx with
  | shared f =>
    cases hy with
    | shared g => exact ⟨_, zipWith_n_n _ _ _ _, .shared _⟩
    | batched g => exact ⟨_, zipWith_m_nm _ _ _ _ _, .batched _⟩
  | batched f =>
    cases hy with
    | shared g => exact ⟨_, zipWith_nm_m _ _ _ _ _, .batched _⟩
    | batched g => exact ⟨_, zipWith_nm_nm _ _ _ _ _, .batched _⟩

theorem hankel_rows {B n : Nat} {c s : Tensor α} {cv sv : Nat → Nat → α} (hc : Rows B n c cv) (hs : Rows B n s sv)
    (hn : 0 < n) : ∃ v, hankelApply c s = .ok v ∧
      Rows B n v fun i m => ∑ j ∈ range n, zext n (cv i) (m + j) * sv i j := by
  have e : ((n : Nat) : Int) - 1 = ((n - 1 : Nat) : Int) := by omega
  have e2 : n + (n - 1) - n + 1 = n := by omega
  have size : c.size (-1) = n := by cases hc <;> simp
  unfold hankelApply
  rw [size, e]
  cases hc with
  | shared f =>
    cases hs with
    | shared g =>
      refine ⟨_, bind_step (padDim_t1_n1_right _ _ _ _) (bind_step (unfold_t1_n1 _ _ _ (by omega)) ?_), .shared _⟩
      rw [e2]
      exact bind_step (unsqueeze_t1_n1 _ _) (bind_step (matmul_nm_mp _ _ _ _ _) (squeeze_t2_n1 _ _))
    | batched g =>
      refine ⟨_, bind_step (padDim_t1_n1_right _ _ _ _) (bind_step (unfold_t1_n1 _ _ _ (by omega)) ?_), .batched _⟩
      rw [e2]
      exact bind_step (unsqueeze_t2_n1 _ _ _) (bind_step (matmul_mp_npq _ _ _ _ _ _) (squeeze_t3_n1 _ _ _))
  | batched f =>
    cases hs with
    | shared g =>
      refine ⟨_, bind_step (padDim_t2_n1_right _ _ _ _ _) (bind_step (unfold_t2_n1 _ _ _ _ (by omega)) ?_), .batched _⟩
      rw [e2]
      exact bind_step (unsqueeze_t1_n1 _ _) (bind_step (matmul_nmp_pq _ _ _ _ _ _) (squeeze_t3_n1 _ _ _))
    | batched g =>
      refine ⟨_, bind_step (padDim_t2_n1_right _ _ _ _ _) (bind_step (unfold_t2_n1 _ _ _ _ (by omega)) ?_), .batched _⟩
      rw [e2]
      exact bind_step (unsqueeze_t2_n1 _ _ _) (bind_step (matmul_nmp_npq _ _ _ _ _ _) (squeeze_t3_n1 _ _ _))

theorem hankel_empty (c : Nat → α) (s : Tensor α) : Fails (hankelApply (t1 0 c) s) := by
  unfold hankelApply
  refine fails_left ?_
  unfold padDim
  rw [rank_t1]
  refine fails_bind fun v hv => fails_check fun h => ?_
  have : v = 0 := by cases hv; rfl
  subst this
  simp at h

theorem padTo_rows {B n k : Nat} {v : Tensor α} {f : Nat → Nat → α} (h : Rows B n v f) (hk : n ≤ k) :
    ∃ v', padTo v k = .ok v' ∧ Rows B k v' fun i => zext n (f i) := by
  unfold padTo
  rw [size_rows h]
  by_cases hlt : n < k
  · obtain ⟨v', e, h'⟩ := pad_rows h (k - n)
    rw [if_pos hlt, e]
    rw [show n + (k - n) = k by omega] at h'
    exact ⟨_, rfl, h'⟩
  · have : n = k := by omega
    subst this
    rw [if_neg hlt]
    exact ⟨_, rfl, zext_rows h⟩

theorem tail_rows {B K : Nat} {b : Tensor α} {bv : Nat → Nat → α} (h : Rows B K b bv) :
    ∃ b', slice b (-1) (some 1) none = .ok b' ∧ Rows B (K - 1) b' fun i j => bv i (j + 1) := by
  by_cases hK : 0 < K
  · have e2 : pyStop K none - pyStart K (some 1) = K - 1 := by rw [pyStop_none, pyStart_one]; omega
    have e3 : pyStart K (some 1) = 1 := by rw [pyStart_one]; omega
    cases h with
    | shared f => exact ⟨_, by rw [slice_t1_n1, e2, e3], .shared _⟩
    | batched f => exact ⟨_, by rw [slice_t2_n1, e2, e3], .batched _⟩
  · have : K = 0 := by omega
    subst this
    cases h with
    | shared f =>
      refine ⟨_, ?_, .shared fun j => f (j + 1)⟩
      rw [slice_t1_n1]
      exact congrArg Except.ok (t1_congr (by simp [pyStop_none]) fun i hi => by simp [pyStop_none] at hi)
    | batched f =>
      refine ⟨_, ?_, .batched fun i j => bv i (j + 1)⟩
      rw [slice_t2_n1]
      exact congrArg Except.ok (t2_congr rfl (by simp [pyStop_none]) fun i j _ hi => by simp [pyStop_none] at hi)

/-- Past inputs: given, or zero. -/
inductive PastRows (B K : Nat) : Option (Tensor α) → (Nat → Nat → α) → Prop
  | zero {f : Nat → Nat → α} (h : ∀ i j, j < K → f i j = 0) : PastRows B K none f
  | given {X : Tensor α} {f : Nat → Nat → α} (h : Rows B K X f) : PastRows B K (some X) f

theorem lfiltic_eq {B K P : Nat} {b a y : Tensor α} {x : Option (Tensor α)} {bv av xv yv : Nat → Nat → α}
    (hb : Rows B K b bv) (ha : Rows B P a av) (hy : Rows B P y yv) (hx : PastRows B (K - 1) x xv) (hK : 1 < K) (hP : 0 < P) :
    ∃ zi z, lfiltic b a y x = .ok zi ∧ Rows B (max P (K - 1)) zi z ∧ ∀ i m, m < max P (K - 1) →
      z i m = ∑ j ∈ range (max P (K - 1)), (zext K (bv i) (m + 1 + j) * xv i j - zext P (av i) (m + j) * yv i j) := by
  obtain ⟨bt, e1, hbt⟩ := tail_rows hb
  obtain ⟨x', hx', ex', hxv⟩ : ∃ x', Rows B (K - 1) (x.getD (t1 (K - 1) fun _ => 0)) x' ∧ True ∧
      ∀ i j, j < K - 1 → x' i j = xv i j := by
    cases hx with
    | zero h => exact ⟨fun _ _ => 0, Rows.shared fun _ => 0, trivial, fun i j hj => (h i j hj).symm⟩
    | given h => exact ⟨_, h, trivial, fun _ _ _ => rfl⟩
  obtain ⟨zb, e2, hzb⟩ := hankel_rows hbt hx' (by omega)
  obtain ⟨za, e3, hza⟩ := hankel_rows ha hy hP
  obtain ⟨zb', e4, hzb'⟩ := padTo_rows hzb (k := max P (K - 1)) (by omega)
  obtain ⟨za', e5, hza'⟩ := padTo_rows hza (k := max P (K - 1)) (by omega)
  obtain ⟨zi, e6, hzi⟩ := sub_rows hzb' hza'
  refine ⟨zi, _, ?_, hzi, fun i m hm => ?_⟩
  · unfold lfiltic
    rw [size_rows hb, size_rows ha]
    refine check_step ?_ (check_step ?_ (bind_step e1 (bind_step e2 (bind_step e3 (bind_step e4 (bind_step e5 e6))))))
    · rcases rank_rows hb with h | h <;> omega
    · rcases rank_rows ha with h | h <;> omega
  · rw [sum_sub_distrib]
    refine congrArg₂ (· - ·) ?_ ?_
    · unfold zext
      split
      · rw [← sum_subset (range_subset_range.2 (show K - 1 ≤ max P (K - 1) by omega))]
        · refine sum_congr rfl fun j hj => ?_
          rw [hxv i j (mem_range.1 hj)]
          by_cases h : m + j < K - 1
          · rw [if_pos h, if_pos (by omega), show m + 1 + j = m + j + 1 by ring]
          · rw [if_neg h, if_neg (by omega)]
        · intro j _ hj
          rw [mem_range] at hj
          rw [if_neg (by omega), zero_mul]
      · refine (sum_eq_zero fun j _ => ?_).symm
        rw [if_neg (by omega), zero_mul]
    · unfold zext
      split
      · refine sum_subset (range_subset_range.2 (show P ≤ max P (K - 1) by omega)) ?_
        intro j _ hj
        rw [mem_range] at hj
        rw [if_neg (by omega), zero_mul]
      · refine (sum_eq_zero fun j _ => ?_).symm
        rw [if_neg (by omega), zero_mul]

theorem rows_init {B K : Nat} {X : Tensor α} {f : Nat → Nat → α} (h : Rows B K X f) : InitState B K (some X) f := by
  cases h with
  | shared f => exact .shared _
  | batched f => exact .full _

end

variable {α : Type} [Field α] [StarRing α]

omit [StarRing α] in
theorem solveSteady_eq {B M : Nat} {A C : Tensor α} {Av : Nat → Nat → Nat → α} {cv : Nat → Nat → α}
    (hA : MatVals B M M A Av) (hC : Rows B M C cv)
    (hdet : ∀ i, (mat M M fun j k => (if j = k then 1 else 0) - Av i j k).det ≠ 0) :
    ∃ zi z, solveSteady A C M = .ok zi ∧ Rows B M zi z ∧ ∀ i m, m < M → z i m = ∑ j ∈ range M, Av i m j * z i j + cv i m := by
  have key : ∀ i m, m < M → (∑ k ∈ range M, fm (mat M M fun j k => (if j = k then 1 else 0) - Av i j k)⁻¹ m k * cv i k) =
      ∑ j ∈ range M, Av i m j * (∑ k ∈ range M, fm (mat M M fun j k => (if j = k then 1 else 0) - Av i j k)⁻¹ j k * cv i k)
        + cv i m := by
    intro i m hm
    have h := solve_spec _ (cv i) (hdet i) hm
    simp only [sub_mul, sum_sub_distrib, ite_mul, one_mul, zero_mul] at h
    rw [sum_ite_eq, if_pos (mem_range.2 hm)] at h
    linear_combination h
  unfold solveSteady
  cases hA with
  | shared f =>
    cases hC with
    | shared g =>
      refine ⟨_, _, bind_step (zipWith_nm_nm _ _ _ _ _) (bind_step ?_ (linalgSolve_t2 _ _ (hdet 0))), .shared _, key⟩
      rw [if_neg (by simp)]; rfl
    | batched g =>
      refine ⟨_, _, bind_step (zipWith_nm_nm _ _ _ _ _) (bind_step (v := t3 B M M _) ?_ (linalgSolve_t3_t2 _ _ fun i _ => hdet i)),
        .batched _, key⟩
      rw [if_pos (by simp), shape_t2]
      exact expand_mp_nXX _ _ _ _
  | batched f =>
    cases hC with
    | shared g =>
      refine ⟨_, _, bind_step (zipWith_mp_nmp _ _ _ _ _ _) (bind_step ?_ (linalgSolve_t3_t1 _ _ fun i _ => hdet i)), .batched _, key⟩
      rw [if_neg (by simp)]; rfl
    | batched g =>
      refine ⟨_, _, bind_step (zipWith_mp_nmp _ _ _ _ _ _) (bind_step ?_ (linalgSolve_t3_t2 _ _ fun i _ => hdet i)), .batched _, key⟩
      rw [if_neg (by simp)]; rfl

omit [StarRing α] in
theorem sum_zext_one {P M : Nat} (h : P ≤ M) (f : Nat → α) : ∑ m ∈ range M, zext P f m = ∑ m ∈ range P, f m := by
  have := sum_zext h f fun _ => 1
  simpa using this

/-- `lfilter_zi` for transposed direct form II solves the fixed-point equations (without conjugation of `b`). -/
theorem lfilterZi_tdf2 {B K P : Nat} {b a : Tensor α} {bv av : Nat → Nat → α} (hb : Rows B K b bv) (ha : Rows B P a av)
    (hK : 0 < K) (hM : 0 < max P (K - 1)) (hs : ∀ i, 1 + ∑ k ∈ range P, star (av i k) ≠ 0) :
    ∃ zi z, lfilterZi a (some b) true = .ok zi ∧ Rows B (max P (K - 1)) zi z ∧ ∀ i m, m < max P (K - 1) →
      z i m = ∑ j ∈ range (max P (K - 1)), comp (fun k => star (zext P (av i) k)) j m * z i j +
        (zext K (bv i) (m + 1) - zext K (bv i) 0 * zext P (av i) m) := by
  obtain ⟨b', a', e1, hb', ha'⟩ := padOrders_eq hb ha hK
  obtain ⟨A, e2, hA⟩ := companion_rows ha' hM
  obtain ⟨AT, e3, hAT⟩ := mT_conj hA
  obtain ⟨C, D, e4, hC, hD⟩ := outputCoefs_eq hb' ha'
  have e5 : ∀ i j k, star (comp (zext P (av i)) k j) = comp (fun k => star (zext P (av i) k)) k j := fun i j k => star_comp _ _ _
  simp only [e5] at hAT
  obtain ⟨zi, z, e6, hz, h⟩ := solveSteady_eq hAT hC fun i => det_comp_transpose _ (by
    rw [zext_star, sum_zext_one (by omega)]; exact hs i)
  refine ⟨zi, z, ?_, hz, h⟩
  unfold lfilterZi
  rw [if_pos rfl]
  refine check_step ?_ (check_step ?_ (bind_step e1 (bind_step e2 (bind_step e3 (bind_step e4 ?_)))))
  · rcases rank_rows ha with h | h <;> omega
  · rcases rank_rows hb with h | h <;> omega
  · simp only [size_rows ha']; exact e6

/-- `lfilter_zi` for direct form II. -/
theorem lfilterZi_df2 {B P : Nat} {a : Tensor α} {b : Option (Tensor α)} {av : Nat → Nat → α} (ha : Rows B P a av)
    (hP : 0 < P) (hs : ∀ i, 1 + ∑ k ∈ range P, av i k ≠ 0) :
    ∃ zi z, lfilterZi a b false = .ok zi ∧ Rows B P zi z ∧ ∀ i m, m < P →
      z i m = ∑ j ∈ range P, comp (av i) m j * z i j + if m = 0 then 1 else 0 := by
  obtain ⟨A, e2, hA⟩ := companion_rows ha hP
  obtain ⟨zi, z, e6, hz, h⟩ := solveSteady_eq hA (.shared fun m => if m = 0 then 1 else 0) fun i => det_comp _ (hs i)
  refine ⟨zi, z, ?_, hz, h⟩
  unfold lfilterZi
  rw [if_neg (by simp), size_rows ha]
  refine check_step ?_ (bind_step e2 (check_step hP e6))
  rcases rank_rows ha with h | h <;> omega

end Phil.Lti
