import Verif.Proof.LpvFir
import Verif.Torch.Fails

/-! # `lpv.allpole` -/

namespace Phil.Lpv
open Torch Torch.Tensor Spec Finset
open Phil.Lti (ok_pair conj_t2 conj_t3 conj_t4 add_eq)
variable {α : Type} [CommRing α] [StarRing α]

/-- The values of an optional state. -/
def stateVals (zi : Option (Tensor α)) (i m : Nat) : α := (zi.map fun z => z.get [i, m]).getD 0

/-- A function that meets the contract `IsLpc`. -/
def refLpc : Lpc α := fun x a zi =>
  let y : Nat → Int → α := fun i => tvSignal (a.size 2) (fun n k => a.get [i, n, k])
    (stateVals zi i) fun n => x.get [i, n]
  .ok (t2 (x.size 0) (x.size 1) fun i n => y i n, t2 (x.size 0) (a.size 2) fun i m => y i ((x.size 1 : Int) - 1 - m))

omit [StarRing α] in
theorem refLpc_isLpc : IsLpc (refLpc : Lpc α) := by
  intro B T M x a zi z hT hM hz
  have hz' : ∀ i m, i < B → m < M → stateVals zi i m = z i m := by
    intro i m hi hm
    cases hz with
    | zero => rfl
    | given z => exact get_t2 hi hm
  refine ⟨fun i n => tvSignal M (a i) (z i) (x i) n, _, ok_pair (t2_congr (by simp) (by simp) fun i n hi hn => ?_) rfl,
    fun i => tv_allPole hM _ _ _ T, fun h => ?_⟩
  · rw [size_t2_0] at hi
    rw [size_t2_1] at hn
    rw [size_t3_2]
    exact allPole_unique (tv_allPole hM _ _ _ T) (tv_allPole hM (a i) (z i) (x i) T)
      (fun n k hn hk => get_t3 hi hn hk) (fun m hm => hz' i m hi hm) (fun n hn => get_t2 hi hn) hn
  · refine t2_congr (by simp) (by simp) fun i m hi hm => ?_
    rw [size_t2_0] at hi
    rw [size_t3_2] at hm
    rw [size_t3_2, size_t2_1]
    beta_reduce
    rw [tvSignal_eq]
    exact withPast_congr (M := M) (fun m hm => hz' i m hi hm) (fun n hn => allPole_unique (tv_allPole hM _ _ _ T)
      (tv_allPole hM (a i) (z i) (x i) T)
      (fun n k hn hk => get_t3 hi hn hk) (fun m hm => hz' i m hi hm) (fun n hn => get_t2 hi hn) hn) hm

theorem allpole_none_eq {B N M : Nat} (lpc : Lpc α) (a : Nat → Nat → Nat → α) (x : Nat → Nat → α) (tr : Bool) :
    allpole lpc (t3 B N M a) (t2 B N x) none tr =
      if tr then allpoleTransposed lpc (t3 B N M a) (t2 B N x) (t2 B M fun _ _ => 0) false
      else lpc (t2 B N x) (t3 B N M a) (some (t2 B M fun _ _ => 0)) >>= fun r => pure (r.1, none) := by
  unfold allpole
  refine check_step (by simp) (check_step (by simp) (check_step (by simp) (check_step (by simp) (check_step (by simp)
    (check_step (by simp) ?_)))))
  simp only [Option.getD_none, size_t2_0, size_t3_2, Option.isSome_none]
  rfl

theorem allpole_some_eq {B N M : Nat} (lpc : Lpc α) (a : Nat → Nat → Nat → α) (x z : Nat → Nat → α) (tr : Bool) :
    allpole lpc (t3 B N M a) (t2 B N x) (some (t2 B M z)) tr =
      if tr then allpoleTransposed lpc (t3 B N M a) (t2 B N x) (t2 B M z) true
      else lpc (t2 B N x) (t3 B N M a) (some (t2 B M z)) >>= fun r => pure (r.1, some r.2) := by
  unfold allpole
  refine check_step (by simp) (check_step (by simp) (check_step (by simp) (check_step (by simp) (check_step (by simp)
    (check_step (by simp) ?_)))))
  simp only [Option.getD_some, Option.isSome_some]
  rfl

/-- Taps of the delay line of the transposed all-pole filter. -/
def poleTaps (a : Nat → Nat → α) (n j : Nat) : α := if j = 0 then 0 else -star (a n (j - 1))

/-- The feedback sum of `lpv.allpole(transpose=True)`. -/
theorem allpoleT_sum {T M : Nat} (a : Nat → Nat → α) (y : Nat → α) (n : Nat) :
    -∑ k ∈ range M, shifted T 1 (fun t m => star (a t m)) n k * withPast (fun _ => 0) y ((n : Int) - 1 - k) =
      tvConv T M (poleTaps a) y n := by
  rw [tvConv, sum_range_succ', ← sum_neg_distrib]
  have h0 : (if 0 ≤ n ∧ n - 0 < T then poleTaps a (n - 0) 0 * y (n - 0) else 0) = 0 := by simp [poleTaps]
  rw [h0, add_zero]
  refine sum_congr rfl fun k hk => ?_
  unfold shifted poleTaps
  by_cases h : k + 1 ≤ n ∧ n - (k + 1) < T
  · rw [if_pos (by omega), if_pos h, if_neg (by omega), Nat.add_sub_cancel, withPast, if_neg (by omega),
      show ((n : Int) - 1 - k).toNat = n - (k + 1) by omega, show n - k - 1 = n - (k + 1) by omega, neg_mul]
  · rw [if_neg (by omega), if_neg h, zero_mul, neg_zero]

omit [StarRing α] in
theorem cat_two (n a b : Nat) (f g : Nat → Nat → α) : cat [t2 n a f, t2 n b g] 1 =
    .ok (t2 n (a + b) fun i j => if j < a then f i j else g i (j - a)) := by
  simp only [cat, List.foldlM_cons, List.foldlM_nil]
  exact bind_step (cat2_t2_1 _ _ _ _ _) rfl

omit [StarRing α] in
theorem cat_three (n a b c : Nat) (f g h : Nat → Nat → α) : cat [t2 n a f, t2 n b g, t2 n c h] 1 =
    .ok (t2 n (a + b + c) fun i j => if j < a + b then (if j < a then f i j else g i (j - a)) else h i (j - (a + b))) := by
  simp only [cat, List.foldlM_cons, List.foldlM_nil]
  exact bind_step (cat2_t2_1 _ _ _ _ _) (bind_step (cat2_t2_1 _ _ _ _ _) rfl)

omit [StarRing α] in
theorem zeros_shape_t2 (n m : Nat) (f : Nat → Nat → α) : zeros (t2 n m f).shape = t2 n m fun _ _ => (0 : α) := rfl

theorem allpoleTransposed_eq {B N M : Nat} {lpc : Lpc α} (hl : IsLpc lpc) (a : Nat → Nat → Nat → α) (x z : Nat → Nat → α)
    (rz : Bool) (hN : 0 < N) (hM : 0 < M) (hMN : M ≤ N) : ∃ y : Nat → Nat → α,
      (∀ i n, n < N → y i n = x i n + tvDelay M (poleTaps (a i)) (z i) (y i) n 0) ∧
      allpoleTransposed lpc (t3 B N M a) (t2 B N x) (t2 B M z) rz =
        .ok (t2 B N y, if rz then some (t2 B M fun i m => tvDelay M (poleTaps (a i)) (z i) (y i) N m) else none) := by
  have out : ∀ (i : Nat) (y xs : Nat → α) (T : Nat), N ≤ T →
      AllPole T M (shifted N 1 fun t m => star (a i t m)) (fun _ => 0) xs y →
      (∀ n, n < N → xs n = x i n + if n < M then z i n else 0) →
      ∀ n, n < N → y n = x i n + tvDelay M (poleTaps (a i)) (z i) y n 0 := by
    intro i y xs T hT hy hx n hn
    have h := tvDelay_out (M := M) (poleTaps (a i)) (z i) y hn
    rw [if_pos hM, show poleTaps (a i) n 0 = 0 from if_pos rfl, zero_mul, zero_add] at h
    rw [hy n (by omega), sub_eq_add_neg, allpoleT_sum, h, hx n hn]
    ring
  unfold allpoleTransposed
  rw [conj_t3]
  cases rz with
  | false =>
    have hd := diagShift_t3 (B := B) (T := N) (M := M) (fun i t m => star (a i t m)) 1 true
    rw [if_pos rfl, pyStop_discard hM (by omega)] at hd
    obtain ⟨y, zf, e, hy, _⟩ := hl B N M (fun i n => x i n + if n < M then z i n else 0)
      (fun i => shifted N 1 fun t m => star (a i t m)) none _ hN hM .zero
    refine ⟨y, fun i => out i (y i) _ N le_rfl (hy i) fun n _ => rfl, ?_⟩
    refine bind_step hd ?_
    rw [size_t3_2]
    refine bind_step (slice_t2_1 _ _ _ _ _) ?_
    rw [pyStop_nat, pyStart_none, Nat.sub_zero, Nat.min_eq_left hMN]
    refine bind_step (add_eq.trans (zipWith_nm_nm _ _ _ _ _)) (bind_step (slice_t2_1 _ _ _ _ _) ?_)
    refine bind_step (v := t2 B N fun i n => x i n + if n < M then z i n else 0) ?_ ?_
    · rw [if_neg (by simp), List.append_nil, cat_two]
      refine congrArg Except.ok (t2_congr rfl (by rw [pyStop_none, pyStart_nat]; omega) fun i t hi ht => ?_)
      rw [pyStart_nat, Nat.min_eq_left hMN, Nat.add_zero]
      by_cases h : t < M
      · rw [if_pos h, if_pos h, add_comm]
      · rw [if_neg h, if_neg h, add_zero]; congr 1; omega
    · refine bind_step e ?_
      rfl
  | true =>
    obtain ⟨y, zf, e, hy, _⟩ := hl B (N + M) M (fun i n => if n < N then x i n + (if n < M then z i n else 0) else 0)
      (fun i => shifted N 1 fun t m => star (a i t m)) none _ (by omega) hM .zero
    refine ⟨y, fun i => out i (y i) _ (N + M) (by omega) (hy i) fun n hn => if_pos hn, ?_⟩
    refine bind_step (diagShift_t3 _ 1 false) ?_
    rw [size_t3_2]
    refine bind_step (slice_t2_1 _ _ _ _ _) ?_
    rw [pyStop_nat, pyStart_none, Nat.sub_zero, Nat.min_eq_left hMN]
    refine bind_step (add_eq.trans (zipWith_nm_nm _ _ _ _ _)) (bind_step (slice_t2_1 _ _ _ _ _) ?_)
    refine bind_step (v := t2 B (N + M) fun i n => if n < N then x i n + (if n < M then z i n else 0) else 0) ?_ ?_
    · rw [if_pos rfl, List.cons_append, List.cons_append, List.nil_append, zeros_shape_t2, cat_three]
      refine congrArg Except.ok (t2_congr rfl (by rw [pyStop_none, pyStart_nat]; omega) fun i t hi ht => ?_)
      rw [pyStop_none, pyStart_nat, Nat.min_eq_left hMN, Nat.add_zero, show M + (N - M) = N by omega]
      by_cases h : t < N
      · rw [if_pos h, if_pos h]
        by_cases h : t < M
        · rw [if_pos h, if_pos h, add_comm]
        · rw [if_neg h, if_neg h, add_zero]; congr 1; omega
      · rw [if_neg h, if_neg h]
    · simp only [Bool.false_eq_true, if_false, if_true, size_t2_1]
      rw [show N + M + 1 - 1 = N + M by omega]
      refine bind_step e (bind_step (split2_t2_1 _ _ _ _) ?_)
      rw [pure_eq_ok]
      dsimp only
      refine ok_pair rfl (congrArg some (t2_congr rfl rfl fun i m hi hm => ?_))
      rw [tvDelay_final (poleTaps (a i)) (z i) (y i) hMN hm, ← allpoleT_sum, hy i (N + m) (by omega)]
      beta_reduce
      rw [if_neg (by omega), zero_sub]

omit [StarRing α] in
theorem add_short_fails {n m p : Nat} (f g : Nat → Nat → α) (h : m ≠ p) (hm : m ≠ 1) (hp : p ≠ 1) :
    Fails (add (t2 n m f) (t2 n p g)) := by
  unfold add zipWith
  rw [shape_t2, shape_t2]
  have : bshape [n, m] [n, p] = none := by simp [bshape, bshapeR, bdim, h, hm, hp]
  rw [this]
  exact ⟨_, rfl⟩

end Phil.Lpv
