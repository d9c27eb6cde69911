import Verif.Model.Mat

/-! # Correctness of the matrix helpers -/

namespace Phil.Mat
open Torch Torch.Tensor Finset

theorem accumulate_range {σ : Type} (op : σ → σ → Res σ) (S X : Nat → σ) (N : Nat) (h0 : S 0 = X 0)
    (h : ∀ t, t < N → op (S t) (X (t + 1)) = .ok (S (t + 1))) :
    accumulate op ((List.range (N + 1)).map X) = .ok ((List.range (N + 1)).map S) := by
  rw [List.range_succ_eq_map]
  simp only [List.map_cons, List.map_map, accumulate]
  rw [← h0]
  have := scanM_range op S (fun t => X (t + 1)) N h
  simp only [Function.comp_def, Nat.succ_eq_add_one] at this ⊢
  rw [this, ok_bind, pure_eq_ok]

variable {α : Type} [CommRing α]

theorem matmul_fm {M : Nat} (A B : Matrix (Fin M) (Fin M) α) :
    matmul (t2 M M (fm A)) (t2 M M (fm B)) = .ok (t2 M M (fm (A * B))) := by
  rw [matmul_nm_mp]
  refine congrArg Except.ok (t2_congr rfl rfl fun i j _ _ => fm_mul A B i j)

theorem matmul_fm3 {B M : Nat} (X Y : Nat → Matrix (Fin M) (Fin M) α) :
    matmul (t3 B M M fun b => fm (X b)) (t3 B M M fun b => fm (Y b)) = .ok (t3 B M M fun b => fm (X b * Y b)) := by
  rw [matmul_nmp_npq]
  refine congrArg Except.ok (t3_congr rfl rfl rfl fun b i j _ _ _ => fm_mul (X b) (Y b) i j)

theorem accumulate_pow {M : Nat} (A : Matrix (Fin M) (Fin M) α) (f : Nat) (hf : 0 < f) :
    accumulate matmul (List.replicate f (t2 M M (fm A))) =
      .ok ((List.range f).map fun k => t2 M M (fm (A ^ (k + 1)))) := by
  obtain ⟨n, rfl⟩ : ∃ n, f = n + 1 := ⟨f - 1, by omega⟩
  have : List.replicate (n + 1) (t2 M M (fm A)) = (List.range (n + 1)).map fun _ => t2 M M (fm A) := by
    simp
  rw [this]
  refine accumulate_range _ (fun k => t2 M M (fm (A ^ (k + 1)))) _ n (by simp) fun t _ => ?_
  rw [matmul_fm, pow_succ A (t + 1)]

theorem accumulate_pow3 {B M : Nat} (A : Nat → Matrix (Fin M) (Fin M) α) (f : Nat) (hf : 0 < f) :
    accumulate matmul (List.replicate f (t3 B M M fun b => fm (A b))) =
      .ok ((List.range f).map fun k => t3 B M M fun b => fm (A b ^ (k + 1))) := by
  obtain ⟨n, rfl⟩ : ∃ n, f = n + 1 := ⟨f - 1, by omega⟩
  have : List.replicate (n + 1) (t3 B M M fun b => fm (A b)) = (List.range (n + 1)).map fun _ => t3 B M M fun b => fm (A b) := by
    simp
  rw [this]
  refine accumulate_range _ (fun k => t3 B M M fun b => fm (A b ^ (k + 1))) _ n (by simp) fun t _ => ?_
  rw [matmul_fm3]
  simp only [pow_succ _ (t + 1)]

/-- Position of block `k`, element `j` in the accumulated list. -/
theorem pow_index {f P t : Nat} (ht : t < (P - 1) * f) :
    t / f < P - 1 ∧ f * (t / f + 1) + t % f = f + t := by
  constructor
  · exact Nat.div_lt_of_lt_mul (by rwa [Nat.mul_comm])
  · have := Nat.div_add_mod t f
    rw [Nat.mul_add]; omega

theorem runner_t2 {M : Nat} (fs : List Nat) (hne : fs ≠ []) (hpos : ∀ f ∈ fs, 0 < f) (A : Matrix (Fin M) (Fin M) α) :
    matPwrAccumRunner (t2 M M (fm A)) fs = .ok (t3 fs.prod M M fun k => fm (A ^ (k + 1))) := by
  induction fs generalizing A with
  | nil => exact absurd rfl hne
  | cons f fs ih =>
    have hf : 0 < f := hpos f (by simp)
    rw [matPwrAccumRunner]
    refine bind_step (accumulate_pow A f hf) (bind_step (stack_t2_n3 M M f (fun k => fm (A ^ (k + 1))) hf) ?_)
    by_cases hfs : fs = []
    · subst hfs
      simp [pure_eq_ok]
    rw [if_neg (by simpa using hfs)]
    have hP : 0 < fs.prod := List.prod_pos (fun x hx => hpos x (by simp [hx]))
    generalize hPd : fs.prod = P at hP
    refine bind_step (v := t2 M M (fm (A ^ f))) ?_ ?_
    · rw [select_t3_n3_last _ _ _ _ hf, Nat.sub_add_cancel hf]
    refine bind_step (v := t3 P M M fun k => fm (A ^ (f * (k + 1)))) ?_ ?_
    · rw [ih hfs (fun x hx => hpos x (by simp [hx])), hPd]
      simp only [pow_mul]
    refine bind_step (v := t3 (f - 1) M M fun k => fm (A ^ (k + 1))) (by tens1; rfl) ?_
    refine bind_step (unsqueeze_t3_n4 _ _ _ _) ?_
    refine bind_step (v := t3 (P - 1) M M fun k => fm (A ^ (f * (k + 1)))) (by tens1; rfl) ?_
    refine bind_step (unsqueeze_t3_n3 _ _ _ _) ?_
    refine bind_step (v := t4 (P - 1) (f - 1) M M fun k j => fm (A ^ (f * (k + 1) + (j + 1)))) ?_ ?_
    · rw [matmul_1npq_m1qr]
      refine congrArg Except.ok (t4_congr rfl rfl rfl rfl fun k j i o _ _ _ _ => ?_)
      rw [fm_mul, ← pow_add, Nat.add_comm]
    refine bind_step (v := t3 (P - 1) M M fun k => fm (A ^ (f * (k + 2)))) ?_ ?_
    · tens1; rw [show min 1 P = 1 by omega]
    refine bind_step (unsqueeze_t3_n3 _ _ _ _) ?_
    refine bind_step (v := t4 (P - 1) f M M fun k j => fm (A ^ (f * (k + 1) + (j + 1)))) ?_ ?_
    · rw [cat2_t4_n3]
      refine congrArg Except.ok (t4_congr rfl (by omega) rfl rfl fun k j i o _ hj _ _ => ?_)
      split
      · rfl
      · rw [show j + 1 = f by omega, show f * (k + 2) = f * (k + 1) + f by ring]
    refine bind_step (v := t3 ((P - 1) * f) M M fun t => fm (A ^ (f + t + 1))) ?_ ?_
    · rw [flatten_t4_n4_n3]
      refine congrArg Except.ok (t3_congr rfl rfl rfl fun t i j ht _ _ => ?_)
      rw [← (pow_index ht).2]; rfl
    rw [cat2_t3_n3]
    have hlen : f + (P - 1) * f = f * P := by
      obtain ⟨p, rfl⟩ : ∃ p, P = p + 1 := ⟨P - 1, by omega⟩
      simp; ring
    refine congrArg Except.ok (t3_congr (by rw [List.prod_cons, hPd, hlen]) rfl rfl fun t i j _ _ _ => ?_)
    split
    · rfl
    · rw [show f + (t - f) + 1 = t + 1 by omega]

theorem runner_t3 {B M : Nat} (fs : List Nat) (hne : fs ≠ []) (hpos : ∀ f ∈ fs, 0 < f)
    (A : Nat → Matrix (Fin M) (Fin M) α) :
    matPwrAccumRunner (t3 B M M fun b => fm (A b)) fs = .ok (t4 B fs.prod M M fun b k => fm (A b ^ (k + 1))) := by
  induction fs generalizing A with
  | nil => exact absurd rfl hne
  | cons f fs ih =>
    have hf : 0 < f := hpos f (by simp)
    rw [matPwrAccumRunner]
    refine bind_step (accumulate_pow3 A f hf)
      (bind_step (stack_t3_n3 B M M f (fun k b => fm (A b ^ (k + 1))) hf) ?_)
    by_cases hfs : fs = []
    · subst hfs
      simp [pure_eq_ok]
    rw [if_neg (by simpa using hfs)]
    have hP : 0 < fs.prod := List.prod_pos (fun x hx => hpos x (by simp [hx]))
    generalize hPd : fs.prod = P at hP
    refine bind_step (v := t3 B M M fun b => fm (A b ^ f)) ?_ ?_
    · rw [select_t4_n3_last _ _ _ _ _ hf, Nat.sub_add_cancel hf]
    refine bind_step (v := t4 B P M M fun b k => fm (A b ^ (f * (k + 1)))) ?_ ?_
    · rw [ih hfs (fun x hx => hpos x (by simp [hx])), hPd]
      simp only [pow_mul]
    refine bind_step (v := t4 B (f - 1) M M fun b k => fm (A b ^ (k + 1))) (by tens1; rfl) ?_
    refine bind_step (unsqueeze_t4_n4 _ _ _ _ _) ?_
    refine bind_step (v := t4 B (P - 1) M M fun b k => fm (A b ^ (f * (k + 1)))) (by tens1; rfl) ?_
    refine bind_step (unsqueeze_t4_n3 _ _ _ _ _) ?_
    refine bind_step (v := t5 B (P - 1) (f - 1) M M fun b k j => fm (A b ^ (f * (k + 1) + (j + 1)))) ?_ ?_
    · rw [matmul_n1pqr_nm1rs]
      refine congrArg Except.ok (t5_congr rfl rfl rfl rfl rfl fun b k j i o _ _ _ _ _ => ?_)
      rw [fm_mul, ← pow_add, Nat.add_comm]
    refine bind_step (v := t4 B (P - 1) M M fun b k => fm (A b ^ (f * (k + 2)))) ?_ ?_
    · tens1; rw [show min 1 P = 1 by omega]
    refine bind_step (unsqueeze_t4_n3 _ _ _ _ _) ?_
    refine bind_step (v := t5 B (P - 1) f M M fun b k j => fm (A b ^ (f * (k + 1) + (j + 1)))) ?_ ?_
    · rw [cat2_t5_n3]
      refine congrArg Except.ok (t5_congr rfl rfl (by omega) rfl rfl fun b k j i o _ _ hj _ _ => ?_)
      split
      · rfl
      · rw [show j + 1 = f by omega, show f * (k + 2) = f * (k + 1) + f by ring]
    refine bind_step (v := t4 B ((P - 1) * f) M M fun b t => fm (A b ^ (f + t + 1))) ?_ ?_
    · rw [flatten_t5_n4_n3]
      refine congrArg Except.ok (t4_congr rfl rfl rfl rfl fun b t i j _ ht _ _ => ?_)
      rw [← (pow_index ht).2]; rfl
    rw [cat2_t4_n3]
    have hlen : f + (P - 1) * f = f * P := by
      obtain ⟨p, rfl⟩ : ∃ p, P = p + 1 := ⟨P - 1, by omega⟩
      simp; ring
    refine congrArg Except.ok (t4_congr rfl (by rw [List.prod_cons, hPd, hlen]) rfl rfl fun b t i j _ _ _ _ => ?_)
    split
    · rfl
    · rw [show f + (t - f) + 1 = t + 1 by omega]

theorem powerNat_t2 {M : Nat} (factorint : Nat → List Nat) (A : Matrix (Fin M) (Fin M) α) (n : Nat) (hn : 1 ≤ n)
    (hne : factorint n ≠ []) (hpos : ∀ f ∈ factorint n, 0 < f) (hprod : (factorint n).prod = n) :
    matrixPowerAccumulateNat factorint (t2 M M (fm A)) n = .ok (t3 n M M fun k => fm (A ^ (k + 1))) := by
  unfold matrixPowerAccumulateNat
  refine check_step (by simp) (check_step (by simp) ?_)
  rw [if_neg (by omega)]
  split
  · rename_i h
    subst h
    rw [unsqueeze_t2_n3]
    exact congrArg Except.ok (t3_congr rfl rfl rfl fun k i j hk _ _ => by
      rw [show k = 0 by omega, zero_add, pow_one])
  · rw [runner_t2 _ hne hpos, hprod]

theorem powerNat_t3 {B M : Nat} (factorint : Nat → List Nat) (A : Nat → Matrix (Fin M) (Fin M) α) (n : Nat) (hn : 1 ≤ n)
    (hne : factorint n ≠ []) (hpos : ∀ f ∈ factorint n, 0 < f) (hprod : (factorint n).prod = n) :
    matrixPowerAccumulateNat factorint (t3 B M M fun b => fm (A b)) n =
      .ok (t4 B n M M fun b k => fm (A b ^ (k + 1))) := by
  unfold matrixPowerAccumulateNat
  refine check_step (by simp) (check_step (by simp) ?_)
  rw [if_neg (by omega)]
  split
  · rename_i h
    subst h
    rw [unsqueeze_t3_n3]
    exact congrArg Except.ok (t4_congr rfl rfl rfl rfl fun b k i j _ hk _ _ => by
      rw [show k = 0 by omega, zero_add, pow_one])
  · rw [runner_t3 _ hne hpos, hprod]

theorem powerNat_t2_zero {M : Nat} (factorint : Nat → List Nat) (A : Matrix (Fin M) (Fin M) α) :
    matrixPowerAccumulateNat factorint (t2 M M (fm A)) 0 =
      .ok (t3 1 M M fun _ => fm (1 : Matrix (Fin M) (Fin M) α)) := by
  unfold matrixPowerAccumulateNat
  refine check_step (by simp) (check_step (by simp) ?_)
  rw [if_pos rfl]
  refine bind_step (v := t2 M M (fm (1 : Matrix (Fin M) (Fin M) α))) ?_ (unsqueeze_t2_n3 _ _ _)
  rw [size_t2_n1, eye]
  refine (expand_nm_nm M M _).trans ?_
  exact congrArg Except.ok (t2_congr rfl rfl fun i j hi _ => (fm_one i j hi).symm)

theorem powerNat_t3_zero {B M : Nat} (factorint : Nat → List Nat) (A : Nat → Matrix (Fin M) (Fin M) α) :
    matrixPowerAccumulateNat factorint (t3 B M M fun b => fm (A b)) 0 =
      .ok (t4 B 1 M M fun _ _ => fm (1 : Matrix (Fin M) (Fin M) α)) := by
  unfold matrixPowerAccumulateNat
  refine check_step (by simp) (check_step (by simp) ?_)
  rw [if_pos rfl]
  refine bind_step (v := t3 B M M fun _ => fm (1 : Matrix (Fin M) (Fin M) α)) ?_ (unsqueeze_t3_n3 _ _ _ _)
  rw [size_t3_n1, eye]
  refine (expand_mp_nmp M M B _).trans ?_
  exact congrArg Except.ok (t3_congr rfl rfl rfl fun b i j _ hi _ => (fm_one i j hi).symm)

/-- Product of the first matrices of a sequence. -/
theorem prod_range_succ_list {G : Type} [Monoid G] (A : Nat → G) (k : Nat) :
    ((List.range (k + 1)).map A).prod = ((List.range k).map A).prod * A k := by
  rw [List.range_succ, List.map_append, List.prod_append]; simp

theorem cumdot_t3 {P M : Nat} (A : Nat → Matrix (Fin M) (Fin M) α) (hP : P.Prime ∨ P = 1) :
    matricesCumdot (t3 P M M fun k => fm (A k)) =
      .ok (t3 P M M fun k => fm ((List.range (k + 1)).map A).prod) := by
  unfold matricesCumdot matricesCumdotWith
  simp only [size_t3_n3, size_t3_n2, size_t3_n1, rank_t3]
  refine check_step (by omega) (check_step trivial ?_)
  split
  · rename_i h
    subst h
    exact congrArg Except.ok (t3_congr rfl rfl rfl fun k i j hk _ _ => by
      rw [show k = 0 by omega]; simp)
  rename_i hP1
  have hp : P.Prime := by tauto
  have hP0 : 0 < P := hp.pos
  rw [factorint_eq, Nat.primeFactorsList_prime hp]
  refine bind_step (unflatten_t3_n3_c _ _ _ _) ?_
  rw [rank_t3]
  refine bind_step (v := t3 P M M fun k => fm ((List.range (k + 1)).map A).prod) ?_ (flatten_t3_0_n3 _ _ _ _)
  rw [matCumdotRunner]
  refine bind_step (unbind_t3_n3 _ _ _ _) ?_
  refine bind_step (v := (List.range P).map fun k => t2 M M (fm ((List.range (k + 1)).map A).prod)) ?_ ?_
  · obtain ⟨n, rfl⟩ : ∃ n, P = n + 1 := ⟨P - 1, by omega⟩
    refine accumulate_range _ (fun k => t2 M M (fm ((List.range (k + 1)).map A).prod)) _ n (by simp) fun t _ => ?_
    rw [prod_range_succ_list A (t + 1)]
    exact matmul_fm _ _
  refine bind_step (stack_t2_n3 M M P (fun k => fm ((List.range (k + 1)).map A).prod) hP0) ?_
  rw [if_pos (by simp), pure_eq_ok]

theorem matmul_fm4 {B K M : Nat} (X Y : Nat → Nat → Matrix (Fin M) (Fin M) α) :
    matmul (t4 B K M M fun b k => fm (X b k)) (t4 B K M M fun b k => fm (Y b k)) =
      .ok (t4 B K M M fun b k => fm (X b k * Y b k)) := by
  rw [matmul_nmpq_nmqr]
  exact congrArg Except.ok (t4_congr rfl rfl rfl rfl fun b k i j _ _ _ _ => fm_mul (X b k) (Y b k) i j)

theorem cumdot_t4 {K P M : Nat} (A : Nat → Nat → Matrix (Fin M) (Fin M) α) (hP : P.Prime ∨ P = 1) :
    matricesCumdot (t4 K P M M fun b k => fm (A b k)) =
      .ok (t4 K P M M fun b k => fm ((List.range (k + 1)).map (A b)).prod) := by
  unfold matricesCumdot matricesCumdotWith
  simp only [size_t4_n3, size_t4_n2, size_t4_n1, rank_t4]
  refine check_step (by omega) (check_step trivial ?_)
  split
  · rename_i h
    subst h
    exact congrArg Except.ok (t4_congr rfl rfl rfl rfl fun b k i j _ hk _ _ => by
      rw [show k = 0 by omega]; simp)
  rename_i hP1
  have hp : P.Prime := by tauto
  have hP0 : 0 < P := hp.pos
  rw [factorint_eq, Nat.primeFactorsList_prime hp]
  refine bind_step (unflatten_t4_n3_c _ _ _ _ _) ?_
  rw [rank_t4]
  refine bind_step (v := t4 K P M M fun b k => fm ((List.range (k + 1)).map (A b)).prod) ?_ (flatten_t4_1_n3 _ _ _ _ _)
  rw [matCumdotRunner]
  refine bind_step (unbind_t4_n3 _ _ _ _ _) ?_
  refine bind_step (v := (List.range P).map fun k => t3 K M M fun b => fm ((List.range (k + 1)).map (A b)).prod) ?_ ?_
  · obtain ⟨n, rfl⟩ : ∃ n, P = n + 1 := ⟨P - 1, by omega⟩
    refine accumulate_range _ (fun k => t3 K M M fun b => fm ((List.range (k + 1)).map (A b)).prod) _ n (by simp)
      fun t _ => ?_
    simp only [prod_range_succ_list _ (t + 1)]
    exact matmul_fm3 _ _
  refine bind_step (stack_t3_n3 K M M P (fun k b => fm ((List.range (k + 1)).map (A b)).prod) hP0) ?_
  rw [if_pos (by simp), pure_eq_ok]

theorem cumdot_t5 {B K P M : Nat} (A : Nat → Nat → Nat → Matrix (Fin M) (Fin M) α) (hP : P.Prime ∨ P = 1) :
    matricesCumdot (t5 B K P M M fun b c k => fm (A b c k)) =
      .ok (t5 B K P M M fun b c k => fm ((List.range (k + 1)).map (A b c)).prod) := by
  unfold matricesCumdot matricesCumdotWith
  simp only [size_t5_n3, size_t5_n2, size_t5_n1, rank_t5]
  refine check_step (by omega) (check_step trivial ?_)
  split
  · rename_i h
    subst h
    exact congrArg Except.ok (t5_congr rfl rfl rfl rfl rfl fun b c k i j _ _ hk _ _ => by
      rw [show k = 0 by omega]; simp)
  rename_i hP1
  have hp : P.Prime := by tauto
  have hP0 : 0 < P := hp.pos
  rw [factorint_eq, Nat.primeFactorsList_prime hp]
  refine bind_step (unflatten_t5_n3_c _ _ _ _ _ _) ?_
  rw [rank_t5]
  refine bind_step (v := t5 B K P M M fun b c k => fm ((List.range (k + 1)).map (A b c)).prod) ?_
    (flatten_t5_2_n3 _ _ _ _ _ _)
  rw [matCumdotRunner]
  refine bind_step (unbind_t5_n3 _ _ _ _ _ _) ?_
  refine bind_step (v := (List.range P).map fun k => t4 B K M M fun b c =>
    fm ((List.range (k + 1)).map (A b c)).prod) ?_ ?_
  · obtain ⟨n, rfl⟩ : ∃ n, P = n + 1 := ⟨P - 1, by omega⟩
    refine accumulate_range _ (fun k => t4 B K M M fun b c => fm ((List.range (k + 1)).map (A b c)).prod) _ n (by simp)
      fun t _ => ?_
    simp only [prod_range_succ_list _ (t + 1)]
    exact matmul_fm4 _ _
  refine bind_step (stack_t4_n3 B K M M P (fun k b c => fm ((List.range (k + 1)).map (A b c)).prod) hP0) ?_
  rw [if_pos (by simp), pure_eq_ok]

end Phil.Mat
