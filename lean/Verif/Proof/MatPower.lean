import Verif.Proof.MatGeneral

/-!
# `matrix_power_accumulate` for tensors of matrices with any number of leading axes
-/

namespace Torch.Tensor
variable {α : Type}

theorem bshapeR_outer (s : List Nat) (p q : Nat) : bshape (s ++ [1, q]) (s ++ [p, 1]) = some (s ++ [p, q]) := by
  unfold bshape
  rw [List.reverse_append, List.reverse_append]
  change Option.map _ (bshapeR (q :: 1 :: s.reverse) (1 :: p :: s.reverse)) = _
  rw [bshapeR, bshapeR, bshapeR_self]
  have h1 : bdim q 1 = some q := by
    unfold bdim
    by_cases h : q = 1
    · rw [if_pos h, h]
    · rw [if_neg h, if_neg h, if_pos rfl]
  have h2 : bdim 1 p = some p := by
    unfold bdim
    by_cases h : 1 = p
    · rw [if_pos h]
    · rw [if_neg h, if_pos rfl]
  rw [h1, h2]
  simp

theorem bidxAux_append {s u o l k : List Nat} (h : l.length = s.length) : bidxAux (s ++ u) (s ++ o) (l ++ k) = l ++ bidxAux u o k := by
  induction s generalizing l with
  | nil => rw [List.length_eq_zero_iff.1 h]; rfl
  | cons n s ih =>
    cases l with
    | nil => simp at h
    | cons i l =>
      rw [List.cons_append, List.cons_append, List.cons_append, bidxAux, if_pos rfl, ih (by simpa using h)]
      rfl

theorem bidx_append2 {s l : List Nat} (a b c d i j : Nat) (h : l.length = s.length) :
    bidx (s ++ [a, b]) (s ++ [c, d]) (l ++ [i, j]) = l ++ [if a = c then i else 0, if b = d then j else 0] := by
  unfold bidx
  have h0 : (s ++ [c, d]).length - (s ++ [a, b]).length = 0 := by simp
  rw [h0, List.drop_zero, List.drop_zero, bidxAux_append h]
  rfl

end Torch.Tensor

namespace Phil.Mat
open Torch Torch.Tensor Finset
variable {α : Type} [CommRing α] {M : Nat}

theorem tm1_congr {s : List Nat} {n : Nat} {f g : List Nat → Nat → Matrix (Fin M) (Fin M) α}
    (h : ∀ lb k, inB lb s = true → k < n → f lb k = g lb k) : tm1 s n M f = tm1 s n M g := by
  refine tmat_eq_tm1 fun lb k h1 hk => ?_
  rw [getD_at (inB_length h1), take_at (inB_length h1)]
  exact h lb k h1 hk

theorem tm1_unsqueeze4 (s : List Nat) (n : Nat) (g : List Nat → Nat → Matrix (Fin M) (Fin M) α) :
    unsqueeze (tm1 s n M g) (-4) = .ok (tm2 s 1 n M fun lb _ k => g lb k) := by
  unfold unsqueeze tm1
  rw [tmat_rank, List.length_append, show s.length + [n].length + 2 + 1 = s.length + 4 from rfl, wrapDim_neg4, ok_bind, tmat_shape,
    List.append_assoc, insertIdx_at _ rfl]
  refine congrArg Except.ok (eq_tmat (s := s ++ [1, n]) (by simp) fun lb i j hl hi hj => ?_)
  have hin := inB_mat hl hi hj
  obtain ⟨lb, t, rfl, h1, h2⟩ := inB_split hl
  obtain ⟨m, k, rfl, hm, hk⟩ := inB2 h2
  have hlen := inB_length h1
  rw [List.append_assoc s] at hin
  rw [show s ++ 1 :: ([n] ++ [M, M]) = s ++ ([1, n] ++ [M, M]) from rfl, get_in _ hin, List.append_assoc lb, List.cons_append,
    eraseIdx_at hlen]
  have := tmat_get (fun l => g (l.take s.length) (l.getD s.length 0)) (inB_snoc h1 hk) i j
  rw [List.append_assoc] at this
  rw [take_at hlen, getD_at' hlen]
  refine this.trans ?_
  rw [take_at hlen, getD_at hlen]

theorem tm2_matmul_outer (s : List Nat) (p q : Nat) (g h : List Nat → Nat → Nat → Matrix (Fin M) (Fin M) α) :
    matmul (tm2 s 1 q M g) (tm2 s p 1 M h) = .ok (tm2 s p q M fun lb m k => g lb 0 k * h lb m 0) := by
  unfold tm2
  have e1 : ∀ lb m k, inB lb s = true → m < p → k < q → bidx (s ++ [1, q]) (s ++ [p, q]) (lb ++ [m, k]) = lb ++ [0, k] := by
    intro lb m k h1 hm hk
    rw [bidx_append2 _ _ _ _ _ _ (inB_length h1), if_pos rfl]
    by_cases h : 1 = p
    · rw [if_pos h, show m = 0 by omega]
    · rw [if_neg h]
  have e2 : ∀ lb m k, inB lb s = true → m < p → k < q → bidx (s ++ [p, 1]) (s ++ [p, q]) (lb ++ [m, k]) = lb ++ [m, 0] := by
    intro lb m k h1 hm hk
    rw [bidx_append2 _ _ _ _ _ _ (inB_length h1), if_pos rfl]
    by_cases h : 1 = q
    · rw [if_pos h, show k = 0 by omega]
    · rw [if_neg h]
  rw [matmul_core_tmat (bshapeR_outer s p q)]
  · refine congrArg Except.ok (tmat_eq_tm2 (g := fun lb m k => g lb 0 k * h lb m 0) fun lb m k h1 hm hk => ?_)
    have hl := inB_length h1
    rw [e1 _ _ _ h1 hm hk, e2 _ _ _ h1 hm hk, take_at hl, take_at hl, getD_at hl, getD_at hl, getD_at' hl, getD_at' hl]
  · intro l hl
    obtain ⟨lb, t, rfl, h1, h2⟩ := inB_split hl
    obtain ⟨m, k, rfl, hm, hk⟩ := inB2 h2
    rw [e1 _ _ _ h1 hm hk, inB_append (inB_length h1), h1]
    simp [inB, hk]
  · intro l hl
    obtain ⟨lb, t, rfl, h1, h2⟩ := inB_split hl
    obtain ⟨m, k, rfl, hm, hk⟩ := inB2 h2
    rw [e2 _ _ _ h1 hm hk, inB_append (inB_length h1), h1]
    simp [inB, hm]

theorem tm2_flatten (s : List Nat) (n q : Nat) (g : List Nat → Nat → Nat → Matrix (Fin M) (Fin M) α) :
    flatten (tm2 s n q M g) (-4) (-3) = .ok (tm1 s (n * q) M fun lb t => g lb (t / q) (t % q)) := by
  have h : flatten (tm2 s n q M g) (-4) (-3) = flatten (tm2 s n q M g) ((s.length : Nat) : Int) (-3) := by
    unfold flatten
    have hr : (tm2 s n q M g).rank = s.length + 4 := by
      unfold tm2; rw [tmat_rank, List.length_append]; rfl
    rw [hr, wrapDim_neg4]
    have : wrapDim (s.length + 4) ((s.length : Nat) : Int) = .ok s.length := by
      unfold wrapDim
      rw [if_pos (by constructor <;> omega)]
      rfl
    rw [this]
  rw [h]
  unfold tm2
  rw [flatten_tmat s [n, q] (by simp)]
  simp only [List.prod_cons, List.prod_nil, mul_one]
  refine congrArg Except.ok (tmat_eq_tm1 (g := fun lb t => g lb (t / q) (t % q)) fun lb t h1 ht => ?_)
  have hl := inB_length h1
  rw [take_at hl, getD_at hl]
  have e : unravel [n, q] t = [t / q, t % q] := by simp [unravel]
  rw [e, take_at hl, getD_at hl, getD_at' hl]

theorem tm1_cat (s : List Nat) (n m : Nat) (g h : List Nat → Nat → Matrix (Fin M) (Fin M) α) :
    cat2 (tm1 s n M g) (tm1 s m M h) (-3) = .ok (tm1 s (n + m) M fun lb k => if k < n then g lb k else h lb (k - n)) := by
  unfold tm1
  rw [cat3_tmat]
  refine congrArg Except.ok (tmat_eq_tm1 (g := fun lb k => if k < n then g lb k else h lb (k - n)) fun lb k h1 _ => ?_)
  have hl := inB_length h1
  rw [take_at hl, getD_at hl, take_at hl, getD_at hl]

theorem accumulate_pow_tmat (s : List Nat) (A : List Nat → Matrix (Fin M) (Fin M) α) (f : Nat) (hf : 0 < f) :
    accumulate matmul (List.replicate f (tmat s M A)) = .ok ((List.range f).map fun k => tmat s M fun l => A l ^ (k + 1)) := by
  obtain ⟨n, rfl⟩ : ∃ n, f = n + 1 := ⟨f - 1, by omega⟩
  have : List.replicate (n + 1) (tmat s M A) = (List.range (n + 1)).map fun _ => tmat s M A := by
    simp
  rw [this]
  refine accumulate_range _ (fun k => tmat s M fun l => A l ^ (k + 1)) _ n (by simp) fun t _ => ?_
  rw [matmul_tmat]
  simp only [pow_succ _ (t + 1)]

theorem power_runner_tmat (s fs : List Nat) (hne : fs ≠ []) (hpos : ∀ f ∈ fs, 0 < f) (A : List Nat → Matrix (Fin M) (Fin M) α) :
    matPwrAccumRunner (tmat s M A) fs = .ok (tm1 s fs.prod M fun lb k => A lb ^ (k + 1)) := by
  induction fs generalizing A with
  | nil => exact absurd rfl hne
  | cons f fs ih =>
    have hf : 0 < f := hpos f (by simp)
    rw [matPwrAccumRunner]
    refine bind_step (accumulate_pow_tmat s A f hf) (bind_step (v := tm1 s f M fun lb k => A lb ^ (k + 1)) ?_ ?_)
    · rw [stack_tmat s f hf]; rfl
    by_cases hfs : fs = []
    · subst hfs
      simp [pure_eq_ok]
    rw [if_neg (by simpa using hfs)]
    have hP : 0 < fs.prod := List.prod_pos (fun x hx => hpos x (by simp [hx]))
    generalize hPd : fs.prod = P at hP
    refine bind_step (v := tmat s M fun l => A l ^ f) ?_ ?_
    · unfold tm1
      rw [select_last_tmat s f hf]
      refine congrArg Except.ok (tmat_congr fun lb h1 => ?_)
      have hl := inB_length h1
      rw [take_at hl, getD_at hl]
      beta_reduce
      rw [Nat.sub_add_cancel hf]
    refine bind_step (v := tm1 s P M fun lb k => A lb ^ (f * (k + 1))) ?_ ?_
    · rw [ih hfs (fun x hx => hpos x (by simp [hx])), hPd]
      simp only [pow_mul]
    refine bind_step (tm1_init s f _) ?_
    refine bind_step (tm1_unsqueeze4 s (f - 1) _) ?_
    refine bind_step (tm1_init s P _) ?_
    refine bind_step (tm1_unsqueeze s (P - 1) _) ?_
    refine bind_step (v := tm2 s (P - 1) (f - 1) M fun lb k j => A lb ^ (f * (k + 1) + (j + 1))) ?_ ?_
    · rw [tm2_matmul_outer]
      refine congrArg Except.ok (tm2_congr fun lb m k _ _ _ => ?_)
      rw [← pow_add, Nat.add_comm]
    refine bind_step (tm1_tail s P hP _) ?_
    refine bind_step (tm1_unsqueeze s (P - 1) _) ?_
    refine bind_step (v := tm2 s (P - 1) f M fun lb k j => A lb ^ (f * (k + 1) + (j + 1))) ?_ ?_
    · rw [tm2_cat3, Nat.sub_add_cancel hf]
      refine congrArg Except.ok (tm2_congr fun lb k j _ _ hj => ?_)
      split
      · rfl
      · rw [show j + 1 = f by omega, show f * (k + 1 + 1) = f * (k + 1) + f by ring]
    refine bind_step (v := tm1 s ((P - 1) * f) M fun lb t => A lb ^ (f + t + 1)) ?_ ?_
    · rw [tm2_flatten]
      refine congrArg Except.ok (tm1_congr fun lb t _ ht => ?_)
      rw [← (pow_index ht).2]; rfl
    rw [tm1_cat]
    have hlen : f + (P - 1) * f = f * P := by
      obtain ⟨p, rfl⟩ : ∃ p, P = p + 1 := ⟨P - 1, by omega⟩
      simp; ring
    rw [hlen, List.prod_cons, hPd]
    refine congrArg Except.ok (tm1_congr fun lb t _ _ => ?_)
    split
    · rfl
    · rw [show f + (t - f) + 1 = t + 1 by omega]

theorem powerNat_tmat (factorint : Nat → List Nat) (s : List Nat) (A : List Nat → Matrix (Fin M) (Fin M) α) (n : Nat) (hn : 1 ≤ n)
    (hf : 2 ≤ n → factorint n ≠ [] ∧ (∀ f ∈ factorint n, 0 < f) ∧ (factorint n).prod = n) :
    matrixPowerAccumulateNat factorint (tmat s M A) n = .ok (tm1 s n M fun lb k => A lb ^ (k + 1)) := by
  unfold matrixPowerAccumulateNat
  refine check_step (by rw [tmat_rank]; omega) (check_step (by rw [tmat_size1, tmat_size2]) ?_)
  rw [if_neg (by omega)]
  split
  · rename_i h
    subst h
    rw [unsqueeze_tmat]
    refine congrArg Except.ok (tmat_eq_tm1 (g := fun lb k => A lb ^ (k + 1)) fun lb k h1 hk => ?_)
    rw [take_at (inB_length h1), show k = 0 by omega, zero_add, pow_one]
  · obtain ⟨h1, h2, h3⟩ := hf (by omega)
    rw [power_runner_tmat _ _ h1 h2, h3]

/-- A tensor of square matrices. -/
theorem tmat_of {A : Tensor α} (h : 2 ≤ A.rank) (hs : A.size (-2) = A.size (-1)) :
    ∃ s M f, A = tmat (α := α) s M f := by
  have hr : A.shape.length = A.rank := rfl
  have hd : A.shape = A.shape.take (A.rank - 2) ++ [A.size (-2), A.size (-1)] := by
    have h1 : A.size (-2) = A.shape.getD (A.rank - 2) 0 := by
      unfold size; rw [if_neg (by omega), if_pos (by omega)]; congr 1; omega
    have h2 : A.size (-1) = A.shape.getD (A.rank - 1) 0 := by
      unfold size; rw [if_neg (by omega), if_pos (by omega)]; congr 1; omega
    rw [h1, h2]
    refine List.ext_getElem (by simp; omega) fun i hi hi' => ?_
    by_cases hc : i < A.rank - 2
    · rw [List.getElem_append_left (by simp; omega)]; simp
    · rw [List.getElem_append_right (by simp; omega)]
      simp only [List.length_take]
      have : i = A.rank - 2 ∨ i = A.rank - 1 := by omega
      rcases this with rfl | rfl
      · simp [show A.rank - 2 - min (A.rank - 2) A.shape.length = 0 by omega, List.getElem?_eq_getElem hi]
      · have e : A.rank - 1 - min (A.rank - 2) A.shape.length = 1 := by omega
        simp only [e]
        simp [List.getElem?_eq_getElem hi]
  rw [hs] at hd
  refine ⟨_, A.size (-1), fun l i j => A.get (l ++ [i.1, j.1]), eq_tmat hd fun lb i j _ hi hj => ?_⟩
  unfold fm
  rw [dif_pos ⟨hi, hj⟩]

theorem powerNat_tmat_zero (factorint : Nat → List Nat) (s : List Nat) (A : List Nat → Matrix (Fin M) (Fin M) α) :
    matrixPowerAccumulateNat factorint (tmat s M A) 0 = .ok (tm1 s 1 M fun _ _ => 1) := by
  unfold matrixPowerAccumulateNat
  refine check_step (by rw [tmat_rank]; omega) (check_step (by rw [tmat_size1, tmat_size2]) ?_)
  rw [if_pos rfl, tmat_size1]
  refine bind_step (v := tmat s M fun _ => 1) ?_ ?_
  · unfold expand
    have hr : (eye M : Tensor α).rank = 2 := rfl
    have hsh : (eye M : Tensor α).shape = [M, M] := rfl
    have hm : (tmat s M A).shape.map some = s.map some ++ [some M, some M] := by rw [tmat_shape]; simp
    rw [hm, hr, List.length_append, List.length_map, show s.length + [some M, some M].length - 2 = s.length from rfl, hsh]
    have e1 : (s.map some ++ [some M, some M]).take s.length = s.map some := by
      rw [List.take_append_of_le_length (by simp)]; simp
    have e2 : (s.map some ++ [some M, some M]).drop s.length = [some M, some M] := by
      rw [List.drop_append_of_le_length (by simp)]; simp
    refine check_step (by simp) (check_step ?_ ?_)
    · rw [e1]; simp
    have e3 : (s.map some).map (fun n => n.getD 0) ++ List.zipWith (fun (n : Option Nat) (k : Nat) => n.getD k) [some M, some M] [M, M] =
        s ++ [M, M] := by simp
    rw [e1, e2]
    dsimp only
    rw [e3]
    refine check_step ?_ ?_
    · unfold bshape
      rw [List.reverse_append]
      show Option.map _ (bshapeR [M, M] (M :: M :: s.reverse)) = _
      simp [bshapeR, bdim]
    · refine congrArg Except.ok (eq_tmat rfl fun lb i j hl hi hj => ?_)
      rw [get_in _ (inB_mat hl hi hj)]
      have e4 : bidx [M, M] (s ++ [M, M]) (lb ++ [i, j]) = [i, j] := by
        unfold bidx
        have : (s ++ [M, M]).length - [M, M].length = s.length := by simp
        rw [this, List.drop_left, ← inB_length hl, List.drop_left]
        simp [bidxAux]
      rw [e4, eye, get_t2, fm_one i j hi]
      all_goals first | exact hj | simp [hi]
  · rw [unsqueeze_tmat]; rfl

end Phil.Mat

namespace Torch.Tensor
variable {α : Type} [Field α] {M : Nat}

theorem matAt_tmat {s lb : List Nat} (A : List Nat → Matrix (Fin M) (Fin M) α) (h : inB lb s = true) :
    matAt (tmat s M A) M M lb = A lb := by
  ext i j
  show (tmat s M A).get (lb ++ [i.1, j.1]) = _
  rw [tmat_get _ h, fm, dif_pos ⟨i.2, j.2⟩]

theorem linalgInv_tmat (s : List Nat) (A : List Nat → Matrix (Fin M) (Fin M) α) (hA : ∀ l, inB l s = true → (A l).det ≠ 0) :
    linalgInv (tmat s M A) = .ok (tmat s M fun l => (A l)⁻¹) := by
  unfold linalgInv linalgInvAux
  rw [tmat_rank, tmat_size1, tmat_size2, tmat_shape, Nat.add_sub_cancel, take_at rfl]
  refine check_step ⟨by omega, rfl⟩ (check_step (fun l hl => ?_) ?_)
  · rw [matAt_tmat A hl]; exact hA l hl
  · refine congrArg Except.ok (eq_tmat rfl fun lb i j hl hi hj => ?_)
    rw [get_in _ (inB_mat hl hi hj), take_at (inB_length hl), getD_at (inB_length hl), getD_at' (inB_length hl), matAt_tmat A hl]

theorem linalgInv_tmat_singular (s : List Nat) (A : List Nat → Matrix (Fin M) (Fin M) α) {l : List Nat} (hl : inB l s = true)
    (hA : (A l).det = 0) : Fails (linalgInv (tmat s M A)) := by
  unfold linalgInv linalgInvAux
  refine fails_check fun _ => fails_check fun h => ?_
  rw [tmat_rank, tmat_size1, tmat_shape, Nat.add_sub_cancel, take_at rfl] at h
  exact absurd hA (by have := h l hl; rwa [matAt_tmat A hl] at this)

end Torch.Tensor
