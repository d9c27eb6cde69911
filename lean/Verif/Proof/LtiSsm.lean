import Verif.Proof.VecRec
import Verif.Proof.Layout
import Verif.Proof.LtiRecur
import Verif.Proof.Mat
import Verif.Model.LtiSsm
import Verif.Spec.Layout

/-! # Correctness of the model of philtorch/lti/ssm.py: the state recursion -/

namespace Phil.Lti
open Torch Torch.Tensor Finset Spec Phil.Mat
variable {α : Type} [CommRing α]

/-- Input of the state recursion: `(B, N, M)`, or `(B, N)` driving the first state only. -/
def XT : Bool → (B N M : Nat) → (Nat → Nat → Nat → α) → Tensor α
  | true, B, N, M, x => t3 B N M x
  | false, B, N, _, x => t2 B N fun b t => x b t 0

/-- The state input that an input tensor stands for. -/
def xe : Bool → (Nat → Nat → α) → Nat → Nat → α
  | true, x, t, k => x t k
  | false, x, t, k => if k = 0 then x t 0 else 0

/-- Output of the state recursion: all states, or one component. -/
def OT : Option Int → (B N M : Nat) → (Nat → Nat → Nat → α) → Tensor α
  | none, B, N, M, y => t3 B N M y
  | some i, B, N, M, y => t2 B N fun b t => y b t (nidx M i)

/-- The selected index is inside the state. -/
def OV (M : Nat) : Option Int → Prop
  | none => True
  | some i => -(M : Int) ≤ i ∧ i < M

theorem OT_congr {o : Option Int} {B B' N N' M : Nat} {y z : Nat → Nat → Nat → α} (ho : OV M o) (hB : B = B') (hN : N = N')
    (h : ∀ b t m, b < B → t < N → m < M → y b t m = z b t m) : OT o B N M y = OT o B' N' M z := by
  cases o with
  | none => exact t3_congr hB hN rfl fun b t m hb ht hm => h b t m hb ht hm
  | some i => exact t2_congr hB hN fun b t hb ht => h b t _ hb ht (nidx_lt ho)

theorem firstComponent_t2 (B N M : Nat) (hM : 0 < M) (f : Nat → Nat → α) :
    firstComponent (t2 B N f) M = .ok (t3 B N M fun b t k => if k = 0 then f b t else 0) := by
  unfold firstComponent
  refine check_step hM (bind_step (unsqueeze_t2_n1 _ _ _) ?_)
  rw [zeros, show (t2 B N f).shape ++ [M - 1] = [B, N, M - 1] from rfl, full_t3, cat2_t3_n1]
  refine congrArg Except.ok (t3_congr rfl rfl (by omega) fun b t k _ _ _ => ?_)
  by_cases hk : k = 0
  · rw [if_pos (by omega), if_pos hk]
  · rw [if_neg (by omega), if_neg hk]

/-- The loop receives a full-rank input. -/
theorem input3 (d : Bool) (B N M : Nat) (hM : 0 < M) (x : Nat → Nat → Nat → α) :
    (if (XT d B N M x).rank = 2 then firstComponent (XT d B N M x) M else pure (XT d B N M x)) =
      .ok (t3 B N M fun b => xe d (x b)) := by
  cases d
  · exact firstComponent_t2 _ _ _ hM _
  · rfl

theorem recursionLoop_eq (s d : Bool) {B N M : Nat} (A : Nat → Matrix (Fin M) (Fin M) α) (zi : Nat → Nat → α)
    (x : Nat → Nat → Nat → α) (o : Option Int) (ho : OV M o) (hM : 0 < M) (hN : 0 < N) :
    recursionLoop (MT s B M M fun b => fm (A b)) (t2 B M zi) (XT d B N M x) o =
      .ok (OT o B N M fun b t m => vecRec M (fun _ => fm (A (sel s b))) (zi b) (xe d (x b)) (t + 1) m) := by
  unfold recursionLoop
  refine bind_step (mT_MT s B M M _) ?_
  rw [size_MT_n1]
  refine bind_step (input3 d B N M hM x) ?_
  cases s with
  | false =>
    rw [if_pos (show (MT false B M M fun b => fm (A b)).rank = 2 from rfl)]
    refine bind_step (unbind_t3_1 _ _ _ _) ?_
    refine bind_step (scanM_range _ (fun t => t2 B M fun b i =>
      vecRec M (fun _ => fm (A 0)) (zi b) (xe d (x b)) t i) _ N fun t ht => ?_) ?_
    · simp only [MT]
      rw [addmm_t2]
      refine congrArg Except.ok (t2_congr rfl rfl fun b i _ _ => ?_)
      simp only [vecRec]
      rw [add_comm]
      exact congrArg (· + _) (sum_congr rfl fun k _ => mul_comm _ _)
    cases o with
    | none =>
      refine bind_step (mapM_range _ _ (fun t => t2 B M fun b i =>
        vecRec M (fun _ => fm (A 0)) (zi b) (xe d (x b)) (t + 1) i) N fun t _ => rfl) ?_
      exact stack_t2_1 B M N (fun t b i => vecRec M (fun _ => fm (A 0)) (zi b) (xe d (x b)) (t + 1) i) hN
    | some o =>
      refine bind_step (mapM_range _ _ (fun t => t1 B fun b =>
        vecRec M (fun _ => fm (A 0)) (zi b) (xe d (x b)) (t + 1) (nidx M o)) N fun t _ => ?_) ?_
      · exact select_t2_1_idx _ _ _ _ ho
      exact stack_t1_1 B N (fun t b => vecRec M (fun _ => fm (A 0)) (zi b) (xe d (x b)) (t + 1) (nidx M o)) hN
  | true =>
    rw [if_neg (show ¬ (MT true B M M fun b => fm (A b)).rank = 2 by simp [MT])]
    refine bind_step (unsqueeze_t2_1 _ _ _) ?_
    refine bind_step (unbind_t3_1 _ _ _ _) ?_
    refine bind_step (scanM_range _ (fun t => t3 B 1 M fun b _ i =>
      vecRec M (fun _ => fm (A b)) (zi b) (xe d (x b)) t i) _ N fun t ht => ?_) ?_
    · refine bind_step (unsqueeze_t2_1 _ _ _) ?_
      simp only [MT]
      rw [baddbmm_t3]
      refine congrArg Except.ok (t3_congr rfl rfl rfl fun b _ i _ _ _ => ?_)
      simp only [vecRec]
      rw [add_comm]
      exact congrArg (· + _) (sum_congr rfl fun k _ => mul_comm _ _)
    cases o with
    | none =>
      refine bind_step (mapM_range _ _ (fun t => t3 B 1 M fun b _ i =>
        vecRec M (fun _ => fm (A b)) (zi b) (xe d (x b)) (t + 1) i) N fun t _ => rfl) ?_
      exact cat_cols3 B M N hN fun b t i => vecRec M (fun _ => fm (A b)) (zi b) (xe d (x b)) (t + 1) i
    | some o =>
      refine bind_step (mapM_range _ _ (fun t => t2 B 1 fun b _ =>
        vecRec M (fun _ => fm (A b)) (zi b) (xe d (x b)) (t + 1) (nidx M o)) N fun t _ => ?_) ?_
      · exact select_t3_2_idx _ _ _ _ _ ho
      exact cat_cols2 B N hN fun b t => vecRec M (fun _ => fm (A b)) (zi b) (xe d (x b)) (t + 1) (nidx M o)

/-! ### the blocked algorithm -/

/-- Number of columns of `K` blocks of input, and what a column stands for. -/
def dQ : Bool → Nat → Nat → Nat
  | true, K, M => K * M
  | false, K, _ => K
def dW : Bool → Nat → Nat → Nat
  | true, M, q => q / M
  | false, _, q => q
def dK : Bool → Nat → Nat → Nat
  | true, M, q => q % M
  | false, _, _ => 0

/-- Number of rows of `K` outputs, and what a row stands for. -/
def oR : Option Int → Nat → Nat → Nat
  | none, K, M => K * M
  | some _, K, _ => K
def oI : Option Int → Nat → Nat → Nat
  | none, M, r => r / M
  | some _, _, r => r
def oM : Option Int → Nat → Nat → Nat
  | none, M, r => r % M
  | some i, M, _ => nidx M i

theorem oM_lt {o : Option Int} {M : Nat} (ho : OV M o) (hM : 0 < M) (r : Nat) : oM o M r < M := by
  cases o with
  | none => exact Nat.mod_lt _ hM
  | some i => exact nidx_lt ho

theorem oI_lt {o : Option Int} {K M r : Nat} (hr : r < oR o K M) : oI o M r < K := by
  cases o with
  | none => exact Nat.div_lt_of_lt_mul (by rw [Nat.mul_comm]; exact hr)
  | some i => exact hr

theorem sum_dQ (d : Bool) (K M : Nat) (hM : 0 < M) (X G : Nat → Nat → α) :
    ∑ q ∈ range (dQ d K M), X (dW d M q) (dK d M q) * G (dW d M q) (dK d M q) =
      ∑ w ∈ range K, ∑ k ∈ range M, xe d X w k * G w k := by
  cases d
  · refine sum_congr rfl fun w _ => ?_
    rw [sum_eq_single 0]
    · rfl
    · intro k _ hk; simp [xe, hk]
    · intro h; exact absurd (mem_range.mpr hM) h
  · exact sum_range_mul_div K M fun w k => X w k * G w k

theorem xe_shift (d : Bool) (X : Nat → Nat → α) (s : Nat) (w k : Nat) :
    xe d (fun w k => X (s + w) k) w k = xe d X (s + w) k := by
  cases d <;> rfl

theorem xe_pad (d : Bool) (x : Nat → Nat → α) (N t k : Nat) (ht : t < N) :
    xe d (fun t k => if t < N then x t k else 0) t k = xe d x t k := by
  cases d <;> simp [xe, ht]

theorem padBlocksXT (d : Bool) {B N M u : Nat} (x : Nat → Nat → Nat → α) (hu : 1 < u) (huN : u < N) :
    ∃ K, 0 < K ∧ K < N ∧ N ≤ K * u ∧ (N % u = 0 → K * u = N) ∧ (N % u ≠ 0 → K * u = N + (u - N % u)) ∧
    (if N % u ≠ 0 then padDim (XT d B N M x) 1 0 ((u - N % u : Nat) : Int) 0 else pure (XT d B N M x)) =
      .ok (XT d B (K * u) M fun b t k => if t < N then x b t k else 0) := by
  obtain ⟨K, h1, h2, h3, h4, h5, _⟩ := padBlocks (B := B) (fun b t => x b t 0) hu huN
  refine ⟨K, h1, h2, h3, h4, h5, ?_⟩
  by_cases h : N % u = 0
  · rw [if_neg (by omega), pure_eq_ok, h4 h]
    cases d <;> simp only [XT]
    · refine congrArg Except.ok (t2_congr rfl rfl fun b t _ ht => ?_)
      rw [if_pos ht]
    · refine congrArg Except.ok (t3_congr rfl rfl rfl fun b t k _ ht _ => ?_)
      rw [if_pos ht]
  · rw [if_pos h, h5 h]
    cases d
    · exact padDim_t2_1_right _ _ _ _ _
    · exact padDim_t3_1_right _ _ _ _ _ _

theorem unrolled (d : Bool) {B K u M : Nat} (hu : 0 < u) (x : Nat → Nat → Nat → α) :
    (do let ux ← unflatten (XT d B (K * u) M x) 1 [none, some u]; flatten ux 2 (-1)) =
      Except.ok (t3 B K (dQ d u M) fun b k q => x b (k * u + dW d M q) (dK d M q)) := by
  have hKu : K * u % u = 0 := Nat.mul_mod_left K u
  cases d
  · simp only [XT]
    rw [unflatten_t2_1_m1_c _ _ _ _ hu hKu, Nat.mul_div_cancel _ hu, ok_bind, flatten_t3_2_n1]
    rfl
  · simp only [XT]
    rw [unflatten_t3_1_m1_c _ _ _ _ _ hu hKu, Nat.mul_div_cancel _ hu, ok_bind, flatten_t4_2_n1]
    rfl

theorem powers_eq (s : Bool) (B : Nat) {M : Nat} (A : Nat → Matrix (Fin M) (Fin M) α) (u : Nat) (hu : 1 < u) :
    matrixPowerAccumulateNat factorint (MT s B M M fun b => fm (A b)) u =
      .ok (MT3 s B u M M fun b k => fm (A b ^ (k + 1))) := by
  have h1 : factorint u ≠ [] := by
    rw [factorint_eq, Ne, Nat.primeFactorsList_eq_nil]; omega
  have h2 : ∀ f ∈ factorint u, 0 < f := fun f hf =>
    (Nat.prime_of_mem_primeFactorsList (by rw [factorint_eq] at hf; exact hf)).pos
  have h3 : (factorint u).prod = u := by
    rw [factorint_eq]; exact Nat.prod_primeFactorsList (by omega)
  cases s
  · exact powerNat_t2 _ (A 0) u (by omega) h1 h2 h3
  · exact powerNat_t3 _ A u (by omega) h1 h2 h3

theorem powered_eq (s : Bool) (B : Nat) {M : Nat} (A : Nat → Matrix (Fin M) (Fin M) α) (u : Nat) (hu : 1 < u) :
    select (MT3 s B u M M fun b k => fm (A b ^ (k + 1))) (-3) (-1) = .ok (MT s B M M fun b => fm (A b ^ u)) := by
  cases s <;> simp only [MT3, MT] <;> tens1 <;> rw [Nat.sub_add_cancel (by omega)]

theorem powersPlusI_eq (s : Bool) (B : Nat) {M : Nat} (A : Nat → Matrix (Fin M) (Fin M) α) (u : Nat) (hu : 1 < u) :
    ssrPowersPlusI (MT s B M M fun b => fm (A b)) (MT3 s B u M M fun b k => fm (A b ^ (k + 1))) M =
      .ok (MT3 s B u M M fun b w => fm (A b ^ (u - 1 - w))) := by
  unfold ssrPowersPlusI
  cases s
  · simp only [MT3, MT]
    refine bind_step (v := t3 (u - 1) M M fun k => fm (A 0 ^ (k + 1))) (by tens1; rfl) ?_
    refine bind_step (flip_t3_n3 _ _ _ _) ?_
    refine bind_step (v := t2 M M (fm (1 : Matrix (Fin M) (Fin M) α))) ?_ ?_
    · rw [eye]
      refine (expand_nm_nm _ _ _).trans (congrArg Except.ok (t2_congr rfl rfl fun i j hi hj => (fm_one i j hi).symm))
    refine bind_step (unsqueeze_t2_n3 _ _ _) ?_
    rw [cat2_t3_n3]
    refine congrArg Except.ok (t3_congr (by omega) rfl rfl fun k i j _ _ _ => ?_)
    split
    · congr 2; omega
    · rw [show u - 1 - k = 0 by omega, pow_zero]
  · simp only [MT3, MT]
    refine bind_step (v := t4 B (u - 1) M M fun b k => fm (A b ^ (k + 1))) (by tens1; rfl) ?_
    refine bind_step (flip_t4_n3 _ _ _ _ _) ?_
    refine bind_step (v := t3 B M M fun _ => fm (1 : Matrix (Fin M) (Fin M) α)) ?_ ?_
    · rw [eye]
      refine (expand_mp_nmp _ _ _ _).trans (congrArg Except.ok (t3_congr rfl rfl rfl fun _ i j _ hi hj => (fm_one i j hi).symm))
    refine bind_step (unsqueeze_t3_n3 _ _ _ _) ?_
    rw [cat2_t4_n3]
    refine congrArg Except.ok (t4_congr rfl (by omega) rfl rfl fun b k i j _ _ _ _ => ?_)
    split
    · congr 2; omega
    · rw [show u - 1 - k = 0 by omega, pow_zero]

/-- The number of axes of an input. -/
def dR : Bool → Nat
  | true => 3
  | false => 2

theorem rank_XT (d : Bool) (B N M : Nat) (x : Nat → Nat → Nat → α) : (XT d B N M x).rank = dR d := by cases d <;> rfl
theorem size_XT_0 (d : Bool) (B N M : Nat) (x : Nat → Nat → Nat → α) : (XT d B N M x).size 0 = B := by cases d <;> rfl
theorem size_XT_1 (d : Bool) (B N M : Nat) (x : Nat → Nat → Nat → α) : (XT d B N M x).size 1 = N := by cases d <;> rfl

theorem mat1_eq (s d : Bool) (B : Nat) {M : Nat} (hM : 0 < M) (A : Nat → Matrix (Fin M) (Fin M) α) (u : Nat) :
    ssrMat1 (MT3 s B u M M fun b w => fm (A b ^ (u - 1 - w))) (dR d) =
      .ok (MT s B (dQ d u M) M fun b q i => fm (A b ^ (u - 1 - dW d M q)) i (dK d M q)) := by
  unfold ssrMat1
  cases d <;> cases s <;> simp only [MT3, MT, dR, if_true, Nat.reduceEqDiff, if_false, dW, dK, dQ]
  · tens1
  · tens1
  · refine bind_step (transpose_t3_n2_n1 _ _ _ _) ?_
    rw [flatten_t3_n3_n2]
  · refine bind_step (transpose_t4_n2_n1 _ _ _ _ _) ?_
    rw [flatten_t4_n3_n2]

theorem mat2_eq (s : Bool) (B : Nat) {M : Nat} (A : Nat → Matrix (Fin M) (Fin M) α) (u : Nat) (o : Option Int) (ho : OV M o) :
    ssrMat2 (MT3 s B u M M fun b k => fm (A b ^ (k + 1))) o =
      .ok (MT s B (oR o (u - 1) M) M fun b r k => fm (A b ^ (oI o M r + 1)) (oM o M r) k) := by
  unfold ssrMat2
  refine bind_step (v := MT3 s B (u - 1) M M fun b k => fm (A b ^ (k + 1))) (by cases s <;> simp only [MT3] <;> tens1 <;> rfl) ?_
  cases o <;> cases s <;> simp only [MT3, MT]
  · exact flatten_t3_n3_n2 _ _ _ _
  · exact flatten_t4_n3_n2 _ _ _ _ _
  · exact select_t3_n2_idx _ _ _ _ _ ho
  · exact select_t4_n2_idx _ _ _ _ _ _ ho

/-- Block `(i, w)` of the inner-block response. -/
def coef {M : Nat} (A : Matrix (Fin M) (Fin M) α) (i m w k : Nat) : α := if w ≤ i then fm (A ^ (i - w)) m k else 0

theorem coef_eq {M : Nat} (A : Matrix (Fin M) (Fin M) α) (u i m w k : Nat) (hi : i < u - 1) (hw : w < u - 1) :
    (if (u - 1 - 1 - i + w) < u - 1 then fm (A ^ (u - 1 - (u - 1 - 1 - i + w + 1))) m k else 0) = coef A i m w k := by
  unfold coef
  by_cases h : w ≤ i
  · rw [if_pos h, if_pos (by omega)]; congr 2; omega
  · rw [if_neg h, if_neg (by omega)]

theorem mat3_eq (s d : Bool) (B : Nat) {M : Nat} (hM : 0 < M) (A : Nat → Matrix (Fin M) (Fin M) α) (u : Nat) (hu : 1 < u)
    (o : Option Int) (ho : OV M o) :
    ssrMat3 (MT3 s B u M M fun b w => fm (A b ^ (u - 1 - w))) u M (dR d) o =
      .ok (MT s B (oR o (u - 1) M) (dQ d (u - 1) M) fun b r q =>
        coef (A b) (oI o M r) (oM o M r) (dW d M q) (dK d M q)) := by
  unfold ssrMat3
  refine bind_step (v := MT3 s B (u - 1) M M fun b w => fm (A b ^ (u - 1 - (w + 1)))) ?_ ?_
  · cases s <;> simp only [MT3] <;> tens1
    · refine congrArg Except.ok (t3_congr (by omega) rfl rfl fun w i j _ _ _ => ?_)
      rw [show min 1 u = 1 by omega]
    · refine congrArg Except.ok (t4_congr rfl (by omega) rfl rfl fun b w i j _ _ _ _ => ?_)
      rw [show min 1 u = 1 by omega]
  have hlen : u - 1 + (u - 2) - (u - 1) + 1 = u - 1 := by omega
  have hle : u - 1 ≤ u - 1 + (u - 2) := by omega
  have hdm : ∀ r, r < (u - 1) * M → r / M < u - 1 := fun r hr => Nat.div_lt_of_lt_mul (by rw [Nat.mul_comm]; exact hr)
  cases o with
  | none =>
    cases d <;> cases s <;> simp only [MT3, MT, dR, if_true, Nat.reduceEqDiff, if_false, dW, dK, dQ, oR, oI, oM]
    · refine bind_step (select_t3_n1_0 _ _ _ _ hM) ?_
      refine bind_step (v := t2 (u - 1 + (u - 2)) M fun w m => if w < u - 1 then fm (A 0 ^ (u - 1 - (w + 1))) m 0 else 0) ?_ ?_
      · refine (congrArg (cat2 _ · (-2)) (full_t2 (u - 2) M 0)).trans ?_
        rw [cat2_t2_n2]
      refine bind_step (unfold_t2_n2 _ _ _ _ hle) ?_
      rw [hlen]
      refine bind_step (flip_t3_n3 _ _ _ _) ?_
      rw [flatten_t3_n3_n2]
      exact congrArg Except.ok (t2_congr rfl rfl fun r q hr hq => coef_eq (A 0) u _ _ _ _ (hdm r hr) hq)
    · refine bind_step (select_t4_n1_0 _ _ _ _ _ hM) ?_
      refine bind_step (v := t3 B (u - 1 + (u - 2)) M fun b w m =>
        if w < u - 1 then fm (A b ^ (u - 1 - (w + 1))) m 0 else 0) ?_ ?_
      · refine (congrArg (cat2 _ · (-2)) (full_t3 B (u - 2) M 0)).trans ?_
        rw [cat2_t3_n2]
      refine bind_step (unfold_t3_n2 _ _ _ _ _ hle) ?_
      rw [hlen]
      refine bind_step (flip_t4_n3 _ _ _ _ _) ?_
      rw [flatten_t4_n3_n2]
      exact congrArg Except.ok (t3_congr rfl rfl rfl fun b r q _ hr hq => coef_eq (A b) u _ _ _ _ (hdm r hr) hq)
    · refine bind_step (v := t3 (u - 1 + (u - 2)) M M fun w m k => if w < u - 1 then fm (A 0 ^ (u - 1 - (w + 1))) m k else 0) ?_ ?_
      · refine (congrArg (cat2 _ · (-3)) (full_t3 (u - 2) M M 0)).trans ?_
        rw [cat2_t3_n3]
      refine bind_step (unfold_t3_n3 _ _ _ _ _ hle) ?_
      rw [hlen]
      refine bind_step (transpose_t4_n2_n1 _ _ _ _ _) ?_
      refine bind_step (flip_t4_n4 _ _ _ _ _) ?_
      refine bind_step (flatten_t4_n4_n3 _ _ _ _ _) ?_
      rw [flatten_t3_n2_n1]
      exact congrArg Except.ok (t2_congr rfl rfl fun r q hr hq => coef_eq (A 0) u _ _ _ _ (hdm r hr) (hdm q hq))
    · refine bind_step (v := t4 B (u - 1 + (u - 2)) M M fun b w m k =>
        if w < u - 1 then fm (A b ^ (u - 1 - (w + 1))) m k else 0) ?_ ?_
      · refine (congrArg (cat2 _ · (-3)) (full_t4 B (u - 2) M M 0)).trans ?_
        rw [cat2_t4_n3]
      refine bind_step (unfold_t4_n3 _ _ _ _ _ _ hle) ?_
      rw [hlen]
      refine bind_step (transpose_t5_n2_n1 _ _ _ _ _ _) ?_
      refine bind_step (flip_t5_n4 _ _ _ _ _ _) ?_
      refine bind_step (flatten_t5_n4_n3 _ _ _ _ _ _) ?_
      rw [flatten_t4_n2_n1]
      exact congrArg Except.ok (t3_congr rfl rfl rfl fun b r q _ hr hq => coef_eq (A b) u _ _ _ _ (hdm r hr) (hdm q hq))
  | some o =>
    cases d <;> cases s <;> simp only [MT3, MT, dR, if_true, Nat.reduceEqDiff, if_false, dW, dK, dQ, oR, oI, oM]
    · refine bind_step (select_t3_n2_idx _ _ _ _ _ ho) ?_
      refine bind_step (select_t2_n1_0 _ _ _ hM) ?_
      refine bind_step (v := t1 (u - 1 + (u - 2)) fun w => if w < u - 1 then fm (A 0 ^ (u - 1 - (w + 1))) (nidx M o) 0 else 0) ?_ ?_
      · refine (congrArg (cat2 _ · (-1)) (full_t1 (u - 2) 0)).trans ?_
        rw [cat2_t1_n1]
      refine bind_step (unfold_t1_n1 _ _ _ hle) ?_
      rw [hlen, flip_t2_n2]
      exact congrArg Except.ok (t2_congr rfl rfl fun r q hr hq => coef_eq (A 0) u _ _ _ _ hr hq)
    · refine bind_step (select_t4_n2_idx _ _ _ _ _ _ ho) ?_
      refine bind_step (select_t3_n1_0 _ _ _ _ hM) ?_
      refine bind_step (v := t2 B (u - 1 + (u - 2)) fun b w =>
        if w < u - 1 then fm (A b ^ (u - 1 - (w + 1))) (nidx M o) 0 else 0) ?_ ?_
      · refine (congrArg (cat2 _ · (-1)) (full_t2 B (u - 2) 0)).trans ?_
        rw [cat2_t2_n1]
      refine bind_step (unfold_t2_n1 _ _ _ _ hle) ?_
      rw [hlen, flip_t3_n2]
      exact congrArg Except.ok (t3_congr rfl rfl rfl fun b r q _ hr hq => coef_eq (A b) u _ _ _ _ hr hq)
    · refine bind_step (select_t3_n2_idx _ _ _ _ _ ho) ?_
      refine bind_step (v := t2 (u - 1 + (u - 2)) M fun w k =>
        if w < u - 1 then fm (A 0 ^ (u - 1 - (w + 1))) (nidx M o) k else 0) ?_ ?_
      · refine (congrArg (cat2 _ · (-2)) (full_t2 (u - 2) M 0)).trans ?_
        rw [cat2_t2_n2]
      refine bind_step (unfold_t2_n2 _ _ _ _ hle) ?_
      rw [hlen]
      refine bind_step (transpose_t3_n2_n1 _ _ _ _) ?_
      refine bind_step (flip_t3_n3 _ _ _ _) ?_
      rw [flatten_t3_n2_n1]
      exact congrArg Except.ok (t2_congr rfl rfl fun r q hr hq => coef_eq (A 0) u _ _ _ _ hr (hdm q hq))
    · refine bind_step (select_t4_n2_idx _ _ _ _ _ _ ho) ?_
      refine bind_step (v := t3 B (u - 1 + (u - 2)) M fun b w k =>
        if w < u - 1 then fm (A b ^ (u - 1 - (w + 1))) (nidx M o) k else 0) ?_ ?_
      · refine (congrArg (cat2 _ · (-2)) (full_t3 B (u - 2) M 0)).trans ?_
        rw [cat2_t3_n2]
      refine bind_step (unfold_t3_n2 _ _ _ _ _ hle) ?_
      rw [hlen]
      refine bind_step (transpose_t4_n2_n1 _ _ _ _ _) ?_
      refine bind_step (flip_t4_n3 _ _ _ _ _) ?_
      rw [flatten_t4_n2_n1]
      exact congrArg Except.ok (t3_congr rfl rfl rfl fun b r q _ hr hq => coef_eq (A b) u _ _ _ _ hr (hdm q hq))

theorem assemble_eq {B K u M : Nat} (hu : 1 < u) (hM : 0 < M) (o : Option Int) (ho : OV M o)
    (y : Nat → Nat → Nat → α) :
    ssrAssemble (t3 B K (oR o (u - 1) M) fun b k r => y b (k * u + (oI o M r + 1)) (oM o M r))
      (t3 B (K + 1) M fun b k m => y b (k * u) m) M o =
      .ok (OT o B (K * u) M fun b t m => y b (t + 1) m) := by
  unfold ssrAssemble
  refine bind_step (v := t3 B K M fun b k m => y b ((k + 1) * u) m) ?_ ?_
  · tens1
    refine congrArg Except.ok (t3_congr rfl (by omega) rfl fun b k m hb hk _ => ?_)
    rw [show min 1 (K + 1) = 1 by omega]
  cases o with
  | none =>
    simp only [oR, oI, oM, OT]
    refine bind_step (v := t3 B K (u * M) fun b k r => y b (k * u + (r / M + 1)) (r % M)) ?_ ?_
    · rw [cat2_t3_2]
      have hsz : (u - 1) * M + M = u * M := by
        rw [← Nat.succ_mul, show (u - 1).succ = u by omega]
      refine congrArg Except.ok (t3_congr rfl rfl hsz fun b k r _ _ hr => ?_)
      split
      · rfl
      · rename_i h
        obtain ⟨m, rfl⟩ : ∃ m, r = (u - 1) * M + m := ⟨r - (u - 1) * M, by omega⟩
        have hm : m < M := by omega
        rw [Nat.add_sub_cancel_left, Nat.add_comm ((u - 1) * M) m, Nat.add_mul_div_right _ _ hM, Nat.div_eq_of_lt hm,
          Nat.add_mul_mod_self_right, Nat.mod_eq_of_lt hm, Nat.succ_mul, show 0 + (u - 1) + 1 = u by omega]
    refine bind_step (unflatten_t3_2_m1_c _ _ _ _ _ hM (Nat.mul_mod_left u M)) ?_
    rw [Nat.mul_div_cancel _ hM, flatten_t4_1_2]
    refine congrArg Except.ok (t3_congr rfl rfl rfl fun b t m _ ht hm => ?_)
    rw [Nat.add_comm (t % u * M) m, Nat.add_mul_div_right _ _ hM, Nat.div_eq_of_lt hm,
      Nat.add_mul_mod_self_right, Nat.mod_eq_of_lt hm, Nat.zero_add, ← Nat.add_assoc, Nat.mul_comm, Nat.div_add_mod]
  | some i =>
    simp only [oR, oI, oM, OT]
    refine bind_step (select_t3_2_idx _ _ _ _ _ ho) ?_
    refine bind_step (unsqueeze_t2_n1 _ _ _) ?_
    refine bind_step (v := t3 B K u fun b k r => y b (k * u + (r + 1)) (nidx M i)) ?_ ?_
    · rw [cat2_t3_2]
      refine congrArg Except.ok (t3_congr rfl rfl (by omega) fun b k r _ _ hr => ?_)
      split
      · rfl
      · rw [Nat.succ_mul, show r + 1 = u by omega]
    rw [flatten_t3_1_2]
    refine congrArg Except.ok (t2_congr rfl rfl fun b t _ ht => ?_)
    rw [← Nat.add_assoc, Nat.mul_comm, Nat.div_add_mod]

theorem blocked_eq (rec : Tensor α → Tensor α → Tensor α → Res (Tensor α)) (s d : Bool) {B N M u : Nat}
    (A : Nat → Matrix (Fin M) (Fin M) α) (zi : Nat → Nat → α) (x : Nat → Nat → Nat → α) (o : Option Int)
    (ho : OV M o) (hM : 0 < M) (hu : 1 < u) (huN : u < N)
    (hrec : ∀ K, 0 < K → K < N → ∀ (A : Nat → Matrix (Fin M) (Fin M) α) (z : Nat → Nat → Nat → α),
      rec (MT s B M M fun b => fm (A b)) (t2 B M zi) (t3 B K M z) =
        .ok (t3 B K M fun b t m => vecRec M (fun _ => fm (A (sel s b))) (zi b) (z b) (t + 1) m)) :
    ssrBlocked rec (MT s B M M fun b => fm (A b)) (t2 B M zi) (XT d B N M x) u N M o =
      .ok (OT o B N M fun b t m => vecRec M (fun _ => fm (A (sel s b))) (zi b) (xe d (x b)) (t + 1) m) := by
  unfold ssrBlocked
  obtain ⟨K, hK0, hKN, hNK, hK1, hK2, hpad⟩ := padBlocksXT d (B := B) (M := M) x hu huN
  refine bind_step hpad ?_
  generalize hxp : (fun (b t k : Nat) => if t < N then x b t k else 0) = xp
  have hxe : ∀ b t k, t < N → xe d (xp b) t k = xe d (x b) t k := by
    intro b t k ht; rw [← hxp]; exact xe_pad d (x b) N t k ht
  clear hxp hpad
  have hun := unrolled d (B := B) (K := K) (u := u) (M := M) (by omega) xp
  obtain ⟨ux, hux, hux'⟩ : ∃ v, unflatten (XT d B (K * u) M xp) 1 [none, some u] = .ok v ∧ flatten v 2 (-1) =
      Except.ok (t3 B K (dQ d u M) fun b k q => xp b (k * u + dW d M q) (dK d M q)) := by
    cases hv : unflatten (XT d B (K * u) M xp) 1 [none, some u] with
    | error e => rw [hv] at hun; cases hun
    | ok v => exact ⟨v, rfl, by rw [hv] at hun; exact hun⟩
  refine bind_step hux (bind_step hux' ?_)
  refine bind_step (powers_eq s B A u hu) (bind_step (powered_eq s B A u hu) (bind_step (powersPlusI_eq s B A u hu) ?_))
  rw [rank_XT]
  refine bind_step (mat1_eq s d B hM A u) ?_
  refine bind_step (matmul_MT _ _ _ _ _ _ _) (bind_step (unsqueeze_t2_1 _ _ _) ?_)
  let st : Nat → Nat → Nat → α := fun b t m => vecRec M (fun _ => fm (A (sel s b))) (zi b) (xe d (xp b)) t m
  refine bind_step (v := t3 B K M fun b k m => st b ((k + 1) * u) m) ?_ ?_
  · rw [hrec K hK0 hKN]
    refine congrArg Except.ok (t3_congr rfl rfl rfl fun b k m _ _ hm => ?_)
    simp only [st]
    rw [← vecRec_block _ _ _ _ _ hm]
    refine vecRec_congr (fun _ _ => rfl) (fun _ _ _ _ _ _ => rfl) (fun k _ i hi => ?_) hm
    rw [sum_dQ d u M hM (fun w j => xp b (k * u + w) j) fun w j => fm (A (sel s b) ^ (u - 1 - w)) i j]
    refine sum_congr rfl fun w _ => sum_congr rfl fun j _ => ?_
    rw [xe_shift d (xp b), mul_comm]
  refine bind_step (v := t3 B (K + 1) M fun b k m => st b (k * u) m) ?_ ?_
  · rw [cat2_t3_1]
    refine congrArg Except.ok (t3_congr rfl (by omega) rfl fun b k m _ hk hm => ?_)
    split
    · rw [show k = 0 by omega, Nat.zero_mul]; rfl
    · rw [Nat.sub_add_cancel (by omega)]
  refine bind_step (v := t3 B K M fun b k m => st b (k * u) m) (by tens1; rfl) ?_
  refine bind_step (v := t3 B K (dQ d (u - 1) M) fun b k q => xp b (k * u + dW d M q) (dK d M q)) ?_ ?_
  · rw [slice_t3_n1, pyStop_neg _ _ (by cases d <;> simp [dR, hM])]
    refine congrArg Except.ok (t3_congr rfl rfl ?_ fun b k q _ _ _ => by rw [pyStart_none]; rfl)
    rw [pyStart_none]
    cases d
    · simp [dR, dQ]
    · simp [dR, dQ, Nat.sub_mul]
  refine bind_step (cat2_t3_2 _ _ _ _ _ _) ?_
  refine bind_step (mat2_eq s B A u o ho) (bind_step (mat3_eq s d B hM A u hu o ho) ?_)
  refine bind_step (mT_MT _ _ _ _ _) (bind_step (mT_MT _ _ _ _ _) (bind_step (cat2_MT_n2 _ _ _ _ _ _ _) ?_))
  refine bind_step (matmul_MT _ _ _ _ _ _ _) ?_
  refine bind_step (v := OT o B (K * u) M fun b t m => st b (t + 1) m) ?_ ?_
  · rw [← assemble_eq hu hM o ho st]
    congr 1
    refine t3_congr rfl rfl rfl fun b k r _ _ hr => ?_
    have hi := oI_lt hr
    have hm := oM_lt ho hM r
    refine (sum_range_add_ite M (dQ d (u - 1) M) (fun q => st b (k * u) q)
      (fun q => fm (A (sel s b) ^ (oI o M r + 1)) (oM o M r) q) (fun q => xp b (k * u + dW d M q) (dK d M q))
      (fun q => coef (A (sel s b)) (oI o M r) (oM o M r) (dW d M q) (dK d M q))).trans ?_
    rw [sum_dQ d (u - 1) M hM (fun w j => xp b (k * u + w) j) fun w j => coef (A (sel s b)) (oI o M r) (oM o M r) w j]
    simp only [st]
    rw [vecRec_add M _ (zi b) (xe d (xp b)) (k * u), ← vecRec_inner _ _ _ (u - 1) (oI o M r) (by omega) hm]
    congr 1
    refine sum_congr rfl fun w _ => sum_congr rfl fun j _ => ?_
    rw [xe_shift d (xp b)]
    rfl
  have hfin : ∀ b t m, t < N → m < M → st b (t + 1) m =
      vecRec M (fun _ => fm (A (sel s b))) (zi b) (xe d (x b)) (t + 1) m := fun b t m ht hm =>
    vecRec_congr (fun _ _ => rfl) (fun _ _ _ _ _ _ => rfl) (fun j hj i _ => hxe b j i (by omega)) hm
  split
  · rename_i hm
    have hp := Nat.mod_lt N (show u > 0 by omega)
    have hsl : slice (OT o B (K * u) M fun b t m => st b (t + 1) m) 1 none (some (-((u - N % u : Nat) : Int))) =
        .ok (OT o B (K * u - (u - N % u)) M fun b t m => st b (t + 1) m) := by
      cases o
      · simp only [OT]
        rw [slice_t3_1, pyStop_neg _ _ (by omega), pyStart_none]; rfl
      · simp only [OT]
        rw [slice_t2_1, pyStop_neg _ _ (by omega), pyStart_none]; rfl
    rw [hsl, hK2 hm]
    exact congrArg Except.ok (OT_congr ho rfl (by omega) fun b t m _ ht hm => hfin b t m (by omega) hm)
  · rename_i hm
    rw [hK1 (by omega), pure_eq_ok]
    exact congrArg Except.ok (OT_congr ho rfl rfl fun b t m _ ht hm => hfin b t m ht hm)

/-- `base` computes the state recurrence for states of dimension `M`. -/
def BaseOk (M : Nat) (base : Tensor α → Tensor α → Tensor α → Option Int → Res (Tensor α)) : Prop :=
  ∀ (s d : Bool) {B N : Nat} (A : Nat → Matrix (Fin M) (Fin M) α) (zi : Nat → Nat → α) (x : Nat → Nat → Nat → α)
    (o : Option Int), OV M o → 0 < M → 0 < N →
    base (MT s B M M fun b => fm (A b)) (t2 B M zi) (XT d B N M x) o =
      .ok (OT o B N M fun b t m => vecRec M (fun _ => fm (A (sel s b))) (zi b) (xe d (x b)) (t + 1) m)

theorem stateSpaceRecursionAux_eq {base : Tensor α → Tensor α → Tensor α → Option Int → Res (Tensor α)} {M : Nat} (hbase : BaseOk M base)
    (u : Nat) (hu : 0 < u) (fuel : Nat) (s d : Bool) {B N : Nat} (A : Nat → Matrix (Fin M) (Fin M) α)
    (zi : Nat → Nat → α) (x : Nat → Nat → Nat → α) (o : Option Int) (ho : OV M o) (hM : 0 < M) (hN : 0 < N) (hf : N < fuel) :
    stateSpaceRecursionAux base (u : Int) fuel (MT s B M M fun b => fm (A b)) (t2 B M zi) (XT d B N M x) o =
      .ok (OT o B N M fun b t m => vecRec M (fun _ => fm (A (sel s b))) (zi b) (xe d (x b)) (t + 1) m) := by
  induction fuel generalizing d N A x o with
  | zero => omega
  | succ fuel ih =>
    rw [stateSpaceRecursionAux]
    refine check_step (by cases d <;> simp [XT]) (check_step (rank_MT _ _ _ _ _) (check_step ?_ (check_step ?_ (check_step ?_
      (check_step rfl (check_step ?_ (check_step ?_ (check_step (by omega) ?_))))))))
    · rw [size_MT_n1, size_MT_n2]
    · intro h; rw [rank_MT_size _ _ _ _ _ h, size_XT_0]
    · intro h; rw [size_MT_n1]; cases d
      · exact absurd h (by simp [XT])
      · rfl
    · rw [size_XT_0]; rfl
    · rw [size_MT_n1]; rfl
    rw [Int.toNat_natCast, size_XT_1, size_MT_n1]
    by_cases hs : u = 1 ∨ u ≥ N
    · rw [if_pos hs]
      exact hbase s d A zi x o ho hM hN
    rw [if_neg hs]
    push Not at hs
    refine blocked_eq _ s d A zi x o ho hM (by omega) hs.2 fun K hK0 hKN A' z => ?_
    exact ih true A' z none trivial hK0 (by omega)

theorem stateSpaceRecursion_eq (u : Nat) (hu : 0 < u) (s d : Bool) {B N M : Nat} (A : Nat → Matrix (Fin M) (Fin M) α)
    (zi : Nat → Nat → α) (x : Nat → Nat → Nat → α) (o : Option Int) (ho : OV M o) (hM : 0 < M) (hN : 0 < N) :
    stateSpaceRecursion (MT s B M M fun b => fm (A b)) (t2 B M zi) (XT d B N M x) (u : Int) o =
      .ok (OT o B N M fun b t m => vecRec M (fun _ => fm (A (sel s b))) (zi b) (xe d (x b)) (t + 1) m) := by
  unfold stateSpaceRecursion
  refine stateSpaceRecursionAux_eq (fun s d => recursionLoop_eq s d) u hu _ s d A zi x o ho hM hN ?_
  rw [size_XT_1]; omega

end Phil.Lti

namespace Phil.Lti
open Torch Torch.Tensor Finset Spec Phil.Mat
variable {α : Type} [CommRing α]

theorem layout_MT {B M : Nat} {A : Tensor α} {Av : Nat → Nat → Nat → α} (hA : MatVals B M M A Av) :
    ∃ s, A = MT s B M M (fun b => fm (mat M M (Av b))) ∧ ∀ b, Av (sel s b) = Av b := by
  cases hA with
  | shared f => exact ⟨false, t2_eq_fm f, fun _ => rfl⟩
  | batched => exact ⟨true, t3_eq_fm _, fun _ => rfl⟩

theorem layout_XT {B N M : Nat} {x : Tensor α} {xv : Nat → Nat → Nat → α} (hx : Drive B N M x xv) :
    ∃ d x', x = XT d B N M x' ∧ ∀ b, xe d (x' b) = xv b := by
  cases hx with
  | full => exact ⟨true, _, rfl, fun _ => rfl⟩
  | scalar x => exact ⟨false, fun b t _ => x b t, rfl, fun _ => rfl⟩

theorem stateSpaceRecursion_layout {B N M : Nat} {A x : Tensor α} {Av xv : Nat → Nat → Nat → α}
    (hA : MatVals B M M A Av) (hx : Drive B N M x xv) (zi : Nat → Nat → α) (u : Int) (o : Option Int) (ho : OV M o)
    (hM : 0 < M) (hN : 0 < N) (hu : 1 ≤ u) :
    stateSpaceRecursion A (t2 B M zi) x u o =
      .ok (OT o B N M fun b t m => vecRec M (fun _ => Av b) (zi b) (xv b) (t + 1) m) := by
  lift u to ℕ using by omega
  obtain ⟨s, rfl, hs⟩ := layout_MT hA
  obtain ⟨d, x', rfl, hd⟩ := layout_XT hx
  rw [stateSpaceRecursion_eq u (by omega) s d (fun b => mat M M (Av b)) zi x' o ho hM hN]
  refine congrArg Except.ok (OT_congr ho rfl rfl fun b t m _ _ hm => ?_)
  rw [hd, hs]
  exact vecRec_congr (fun _ _ => rfl) (fun _ _ i k hi hk => fm_mat _ hi hk) (fun _ _ _ _ => rfl) hm

theorem fails_mapM {β γ : Type} (f : β → Res γ) (l : List β) (hl : l ≠ []) (h : ∀ v ∈ l, Fails (f v)) : Fails (l.mapM f) := by
  cases l with
  | nil => exact absurd rfl hl
  | cons a l =>
    rw [List.mapM_cons]
    exact fails_left (h a (by simp))

theorem fails_step {β γ : Type} {x : Res β} {v : β} {f : β → Res γ} (h : x = .ok v) (h' : Fails (f v)) : Fails (x >>= f) := by
  rw [h]; exact h'

theorem scanM_length {σ β : Type} (step : σ → β → Res σ) (h : σ) (l : List β) (r : List σ)
    (hr : scanM step h l = .ok r) : r.length = l.length := by
  induction l generalizing h r with
  | nil => cases hr; rfl
  | cons e es ih =>
    rw [scanM] at hr
    cases h1 : step h e with
    | error e => rw [h1] at hr; cases hr
    | ok h' =>
      rw [h1, ok_bind] at hr
      cases h2 : scanM step h' es with
      | error e => rw [h2] at hr; cases hr
      | ok rs =>
        rw [h2, ok_bind] at hr
        cases hr
        simp [ih _ _ h2]

theorem select_fails {x : Tensor α} {d : Int} {p n : Nat} {c : Int} (hw : wrapDim x.rank d = .ok p)
    (hn : x.shape.getD p 0 = n) (h : ¬ (-(n : Int) ≤ c ∧ c < n)) : Fails (select x d c) := by
  unfold select
  rw [hw, ok_bind, hn]
  simp only []
  rw [if_neg (by omega), if_neg (by omega)]
  exact ⟨_, rfl⟩

/-- An index outside the state is rejected by both paths. -/
theorem stateSpaceRecursion_bad_index {B N M : Nat} {A x : Tensor α} {Av xv : Nat → Nat → Nat → α}
    (hA : MatVals B M M A Av) (hx : Drive B N M x xv) (zi : Nat → Nat → α) (u : Int) (i : Int)
    (ho : ¬ (-(M : Int) ≤ i ∧ i < M)) (hM : 0 < M) (hN : 0 < N) :
    Fails (stateSpaceRecursion A (t2 B M zi) x u (some i)) := by
  obtain ⟨s, rfl, hs⟩ := layout_MT hA
  obtain ⟨d, x', rfl, hd⟩ := layout_XT hx
  unfold stateSpaceRecursion
  rw [stateSpaceRecursionAux]
  refine fails_check fun _ => fails_check fun _ => fails_check fun _ => fails_check fun _ => fails_check fun _ =>
    fails_check fun _ => fails_check fun _ => fails_check fun _ => fails_check fun hu => ?_
  lift u to ℕ using by omega
  rw [Int.toNat_natCast, size_XT_1, size_MT_n1]
  by_cases hs : u = 1 ∨ u ≥ N
  · rw [if_pos hs]
    unfold recursionLoop
    rw [mT_MT, ok_bind, size_MT_n1, input3 d B N M hM, ok_bind]
    have hne : ∀ {σ : Type} (l : List σ), l.length = N → l ≠ [] := by
      intro σ l hl h; rw [h] at hl; simp at hl; omega
    cases s with
    | false =>
      rw [if_pos (by rfl)]
      rw [unbind_t3_1, ok_bind]
      refine fails_step (scanM_range _ (fun t => t2 B M fun b i =>
        vecRec M (fun _ => fm (mat M M (Av 0))) (zi b) (xe d (x' b)) t i) _ N fun t ht => ?_) ?_
      · simp only [MT]
        rw [addmm_t2]
        refine congrArg Except.ok (t2_congr rfl rfl fun b i _ _ => ?_)
        simp only [vecRec]
        rw [add_comm]
        exact congrArg (· + _) (sum_congr rfl fun k _ => mul_comm _ _)
      refine fails_left (fails_mapM _ _ (hne _ (by simp)) fun v hv => ?_)
      simp only [List.mem_map, List.mem_range] at hv
      obtain ⟨t, _, rfl⟩ := hv
      exact select_fails (p := 1) (n := M) rfl rfl ho
    | true =>
      rw [if_neg (by simp [MT])]
      rw [unsqueeze_t2_1, ok_bind, unbind_t3_1, ok_bind]
      refine fails_step (scanM_range _ (fun t => t3 B 1 M fun b _ i =>
        vecRec M (fun _ => fm (mat M M (Av b))) (zi b) (xe d (x' b)) t i) _ N fun t ht => ?_) ?_
      · refine bind_step (unsqueeze_t2_1 _ _ _) ?_
        simp only [MT]
        rw [baddbmm_t3]
        refine congrArg Except.ok (t3_congr rfl rfl rfl fun b _ i _ _ _ => ?_)
        simp only [vecRec]
        rw [add_comm]
        exact congrArg (· + _) (sum_congr rfl fun k _ => mul_comm _ _)
      refine fails_left (fails_mapM _ _ (hne _ (by simp)) fun v hv => ?_)
      simp only [List.mem_map, List.mem_range] at hv
      obtain ⟨t, _, rfl⟩ := hv
      exact select_fails (p := 2) (n := M) rfl rfl ho
  · rw [if_neg hs]
    push Not at hs
    unfold ssrBlocked
    refine fails_bind fun _ _ => fails_bind fun _ _ => fails_bind fun _ _ => fails_bind fun p hp => fails_bind fun _ _ =>
      fails_bind fun _ _ => fails_bind fun _ _ => fails_bind fun _ _ => fails_bind fun _ _ => fails_bind fun _ _ =>
      fails_bind fun _ _ => fails_bind fun _ _ => fails_bind fun _ _ => fails_bind fun _ _ => fails_left ?_
    rw [powers_eq s B _ u (by omega)] at hp
    cases hp
    unfold ssrMat2
    refine fails_bind fun v hv => ?_
    cases s
    · simp only [MT3] at hv
      rw [slice_t3_n3] at hv
      cases hv
      exact select_fails (p := 1) (n := M) rfl rfl ho
    · simp only [MT3] at hv
      rw [slice_t4_n3] at hv
      cases hv
      exact select_fails (p := 2) (n := M) rfl rfl ho

end Phil.Lti
