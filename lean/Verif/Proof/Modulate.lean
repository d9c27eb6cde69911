import Verif.Spec.Modulate
import Verif.Proof.Shift

/-! # Signals weighted by a geometric sequence: tools -/

namespace Spec
open Torch Torch.Tensor Finset
variable {α : Type} [CommRing α]

theorem weighted_shape (r : α) (X : Tensor α) : (weighted r X).shape = X.shape := shape_ofFn _ _

theorem weighted_t1 (r : α) (n : Nat) (f : Nat → α) : weighted r (t1 n f) = t1 n fun t => r ^ t * f t := by
  refine ext1 rfl rfl fun i hi => ?_
  rw [get_t1 hi, weighted, get_ofFn, if_pos (by simp [inB, hi])]
  show r ^ i * (t1 n f).get [i] = _
  rw [get_t1 hi]

theorem weighted_t2 (r : α) (n m : Nat) (f : Nat → Nat → α) : weighted r (t2 n m f) = t2 n m fun i t => r ^ t * f i t := by
  refine ext2 rfl rfl fun i j hi hj => ?_
  rw [get_t2 hi hj, weighted, get_ofFn, if_pos (by simp [inB, hi, hj])]
  show r ^ j * (t2 n m f).get [i, j] = _
  rw [get_t2 hi hj]

theorem weighted_t3 (r : α) (n m p : Nat) (f : Nat → Nat → Nat → α) :
    weighted r (t3 n m p f) = t3 n m p fun i t k => r ^ t * f i t k := by
  refine ext3 rfl rfl fun i j k hi hj hk => ?_
  rw [get_t3 hi hj hk, weighted, get_ofFn, if_pos (by simp [inB, hi, hj, hk])]
  show r ^ j * (t3 n m p f).get [i, j, k] = _
  rw [get_t3 hi hj hk]

theorem weighted_signal (r : α) (k : Option Nat) (B N : Nat) (f : Nat → Nat → Nat → α) :
    weighted r (signal k B N f) = signal k B N fun i t p => r ^ t * f i t p := by
  cases k with
  | none => exact weighted_t2 r B N fun i j => f i j 0
  | some P => exact weighted_t3 r _ _ _ _

theorem weighted_packed (r : α) (fl : Bool) (B N : Nat) (f : Nat → Nat → α) :
    weighted r (packed fl B N f) = packed fl B N fun i t => r ^ t * f i t := by
  unfold packed
  cases fl with
  | false => exact weighted_t2 _ _ _ _
  | true => exact weighted_t1 _ _ _

theorem weighted_sig {N B : Nat} {X : Tensor α} {x : Nat → Nat → α} (h : Sig N B X x) (r : α) :
    Sig N B (weighted r X) fun i t => r ^ t * x i t := by
  cases h with
  | flat x => rw [weighted_t1]; exact .flat _
  | batched B x => rw [weighted_t2]; exact .batched _ _

theorem weightedBy_of {r : α} {c c' : Res (Tensor α × Option (Tensor α))} {y y' : Tensor α} {f f' : Option (Tensor α)}
    (h : c = .ok (y, f)) (h' : c' = .ok (y', f')) (e : y' = weighted r y) : WeightedBy r c c' :=
  ⟨y, f, f', h, by rw [h', e]⟩

theorem scaled_t0 (r c : α) : scaled r (t0 c) = t0 (r * c) :=
  ext0 rfl rfl (by rw [get_t0, scaled, get_ofFn, if_pos (by simp [inB]), get_t0])

theorem scaled_t1 (r : α) (n : Nat) (f : Nat → α) : scaled r (t1 n f) = t1 n fun t => r * f t := by
  refine ext1 rfl rfl fun i hi => ?_
  rw [get_t1 hi, scaled, get_ofFn, if_pos (by simp [inB, hi]), get_t1 hi]

theorem scaled_t2 (r : α) (n m : Nat) (f : Nat → Nat → α) : scaled r (t2 n m f) = t2 n m fun i t => r * f i t := by
  refine ext2 rfl rfl fun i j hi hj => ?_
  rw [get_t2 hi hj, scaled, get_ofFn, if_pos (by simp [inB, hi, hj]), get_t2 hi hj]

theorem scaled_t3 (r : α) (n m p : Nat) (f : Nat → Nat → Nat → α) : scaled r (t3 n m p f) = t3 n m p fun i t k => r * f i t k := by
  refine ext3 rfl rfl fun i j k hi hj hk => ?_
  rw [get_t3 hi hj hk, scaled, get_ofFn, if_pos (by simp [inB, hi, hj, hk]), get_t3 hi hj hk]

theorem scaled_t4 (r : α) (n m p q : Nat) (f : Nat → Nat → Nat → Nat → α) :
    scaled r (t4 n m p q f) = t4 n m p q fun i t k l => r * f i t k l := by
  refine ext4 rfl rfl fun i j k l hi hj hk hl => ?_
  rw [get_t4 hi hj hk hl, scaled, get_ofFn, if_pos (by simp [inB, hi, hj, hk, hl]), get_t4 hi hj hk hl]

theorem tapered_t1 (c : Nat) (r : α) (n : Nat) (f : Nat → α) : tapered c r (t1 n f) = t1 n fun t => r ^ (t + c) * f t := by
  refine ext1 rfl rfl fun i hi => ?_
  rw [get_t1 hi, tapered, get_ofFn, if_pos (by simp [inB, hi]), get_t1 hi]; rfl

theorem tapered_t2 (c : Nat) (r : α) (n m : Nat) (f : Nat → Nat → α) :
    tapered c r (t2 n m f) = t2 n m fun i t => r ^ (t + c) * f i t := by
  refine ext2 rfl rfl fun i j hi hj => ?_
  rw [get_t2 hi hj, tapered, get_ofFn, if_pos (by simp [inB, hi, hj]), get_t2 hi hj]; rfl

theorem tapered_t3 (c : Nat) (r : α) (n m p : Nat) (f : Nat → Nat → Nat → α) :
    tapered c r (t3 n m p f) = t3 n m p fun i t k => r ^ (k + c) * f i t k := by
  refine ext3 rfl rfl fun i j k hi hj hk => ?_
  rw [get_t3 hi hj hk, tapered, get_ofFn, if_pos (by simp [inB, hi, hj, hk]), get_t3 hi hj hk]; rfl

theorem tapered_packed (c : Nat) (r : α) (fl : Bool) (B N : Nat) (f : Nat → Nat → α) :
    tapered c r (packed fl B N f) = packed fl B N fun i t => r ^ (t + c) * f i t := by
  unfold packed
  cases fl with
  | false => exact tapered_t2 _ _ _ _ _
  | true => exact tapered_t1 _ _ _ _

theorem scaled_packed (r : α) (fl : Bool) (B N : Nat) (f : Nat → Nat → α) :
    scaled r (packed fl B N f) = packed fl B N fun i t => r * f i t := by
  unfold packed
  cases fl with
  | false => exact scaled_t2 _ _ _ _
  | true => exact scaled_t1 _ _ _

theorem tapered_rows {B K : Nat} {b : Tensor α} {bv : Nat → Nat → α} (h : Rows B K b bv) (c : Nat) (r : α) :
    Rows B K (tapered c r b) fun i k => r ^ (k + c) * bv i k := by
  cases h with
  | shared f => rw [tapered_t1]; exact .shared _
  | batched f => rw [tapered_t2]; exact .batched _

theorem tapered_mat {B N K : Nat} {b : Tensor α} {bv : Nat → Nat → Nat → α} (h : MatVals B N K b bv) (c : Nat) (r : α) :
    MatVals B N K (tapered c r b) fun i t k => r ^ (k + c) * bv i t k := by
  cases h with
  | shared f => rw [tapered_t2]; exact .shared _
  | batched f => rw [tapered_t3]; exact .batched _

theorem tapered_init {B M : Nat} {zi : Tensor α} {z : Nat → Nat → α} (h : InitState B M (some zi) z) (c : Nat) (r : α) :
    InitState B M (some (tapered c r zi)) fun i m => r ^ (m + c) * z i m := by
  cases h with
  | shared f => rw [tapered_t1]; exact .shared _
  | full f => rw [tapered_t2]; exact .full _

theorem scaled_init {B M : Nat} {zi : Option (Tensor α)} {z : Nat → Nat → α} (h : InitState B M zi z) (r : α) :
    InitState B M (zi.map (scaled r)) fun i m => r * z i m := by
  cases h with
  | zero => simpa using InitState.zero (α := α) (B := B) (M := M)
  | shared f => rw [Option.map_some, scaled_t1]; exact .shared _
  | full f => rw [Option.map_some, scaled_t2]; exact .full _

theorem scaled_mat {B N K : Nat} {b : Tensor α} {bv : Nat → Nat → Nat → α} (h : MatVals B N K b bv) (r : α) :
    MatVals B N K (scaled r b) fun i t k => r * bv i t k := by
  cases h with
  | shared f => rw [scaled_t2]; exact .shared _
  | batched f => rw [scaled_t3]; exact .batched _

theorem scaled_seq {B N K L : Nat} {b : Tensor α} {bv : Nat → Nat → Nat → Nat → α} (h : MatSeq B N K L b bv) (r : α) :
    MatSeq B N K L (scaled r b) fun i t k l => r * bv i t k l := by
  cases h with
  | shared f => rw [scaled_t3]; exact .shared _
  | batched f => rw [scaled_t4]; exact .batched _

theorem scaled_batchVals {B : Nat} {b : Tensor α} {bv : Nat → α} (h : BatchVals B b bv) (r : α) :
    BatchVals B (scaled r b) fun i => r * bv i := by
  cases h with
  | scalar c => rw [scaled_t0]; exact .scalar _
  | single f => rw [scaled_t1]; exact .single _
  | full f => rw [scaled_t1]; exact .full _

theorem weighted_drive {B N M : Nat} {x : Tensor α} {v : Nat → Nat → Nat → α} (h : Drive B N M x v) (r : α) :
    Drive B N M (weighted r x) fun i t m => r ^ t * v i t m := by
  cases h with
  | full f => rw [weighted_t3]; exact .full _
  | scalar f =>
    rw [weighted_t2]
    have := Drive.scalar (B := B) (N := N) (M := M) fun i t => r ^ t * f i t
    convert this using 4
    simp only [mul_ite, mul_zero]

theorem scaled_ltiInput {B N M : Nat} {Bm x : Tensor α} {v : Nat → Nat → Nat → α} (h : LtiInput B N M (some Bm) x v) (r : α) :
    LtiInput B N M (some (scaled r Bm)) (weighted r x) fun i t m => r ^ (t + 1) * v i t m := by
  cases h with
  | vec g x =>
    rw [scaled_t1, weighted_t2]
    convert LtiInput.vec (B := B) (N := N) (M := M) (fun k => r * g k) (fun i t => r ^ t * x i t) using 4
    ring
  | batchVec g x =>
    rw [scaled_t2, weighted_t2]
    convert LtiInput.batchVec (B := B) (N := N) (M := M) (fun i k => r * g i k) (fun i t => r ^ t * x i t) using 4
    ring
  | mat F g x h =>
    rw [scaled_t2, weighted_t3]
    convert LtiInput.mat (B := B) (N := N) (M := M) F (fun k f => r * g k f) (fun i t f => r ^ t * x i t f) h using 4
    rw [mul_sum]
    exact sum_congr rfl fun _ _ => by ring
  | batchMat F g x =>
    rw [scaled_t3, weighted_t3]
    convert LtiInput.batchMat (B := B) (N := N) (M := M) F (fun i k f => r * g i k f) (fun i t f => r ^ t * x i t f) using 4
    rw [mul_sum]
    exact sum_congr rfl fun _ _ => by ring

theorem scaled_lpvInput {B N M : Nat} {Bm x : Tensor α} {v : Nat → Nat → Nat → α} (h : LpvInput B N M (some Bm) x v) (r : α) :
    LpvInput B N M (some (scaled r Bm)) (weighted r x) fun i t m => r ^ (t + 1) * v i t m := by
  cases h with
  | vec g x =>
    rw [scaled_t1, weighted_t2]
    convert LpvInput.vec (B := B) (N := N) (M := M) (fun k => r * g k) (fun i t => r ^ t * x i t) using 4
    ring
  | mat F g x =>
    rw [scaled_t2, weighted_t3]
    convert LpvInput.mat (B := B) (N := N) (M := M) F (fun k f => r * g k f) (fun i t f => r ^ t * x i t f) using 4
    rw [mul_sum]
    exact sum_congr rfl fun _ _ => by ring
  | timeVec g x =>
    rw [scaled_t2, weighted_t2]
    convert LpvInput.timeVec (B := B) (N := N) (M := M) (fun i k => r * g i k) (fun i t => r ^ t * x i t) using 4
    ring
  | batchVec g x h =>
    rw [scaled_t2, weighted_t2]
    convert LpvInput.batchVec (B := B) (N := N) (M := M) (fun i k => r * g i k) (fun i t => r ^ t * x i t) h using 4
    ring
  | timeMat F g x =>
    rw [scaled_t3, weighted_t3]
    convert LpvInput.timeMat (B := B) (N := N) (M := M) F (fun i k f => r * g i k f) (fun i t f => r ^ t * x i t f) using 4
    rw [mul_sum]
    exact sum_congr rfl fun _ _ => by ring
  | batchTimeVec g x =>
    rw [scaled_t3, weighted_t2]
    convert LpvInput.batchTimeVec (B := B) (N := N) (M := M) (fun i k f => r * g i k f) (fun i t => r ^ t * x i t) using 4
    ring
  | batchMat F g x h h' =>
    rw [scaled_t3, weighted_t3]
    convert LpvInput.batchMat (B := B) (N := N) (M := M) F (fun i k f => r * g i k f) (fun i t f => r ^ t * x i t f) h h' using 4
    rw [mul_sum]
    exact sum_congr rfl fun _ _ => by ring
  | batchTimeMat F g x =>
    rw [scaled_t4, weighted_t3]
    convert LpvInput.batchTimeMat (B := B) (N := N) (M := M) F (fun i k f l => r * g i k f l) (fun i t f => r ^ t * x i t f) using 4
    rw [mul_sum]
    exact sum_congr rfl fun _ _ => by ring

theorem get_weighted (r : α) (X : Tensor α) (l : List Nat) :
    (weighted r X).get l = r ^ l.getD (timeAxis X.shape) 0 * X.get l := by
  rw [weighted, get_ofFn]
  split_ifs with h
  · rfl
  · rw [X.canon _ (by simpa using h), mul_zero]

theorem sval_weight {B N : Nat} {r : α} {x : Tensor α} (hx : x.shape = [B, N] ∨ ∃ F, x.shape = [B, N, F]) (i t f : Nat) :
    sval (weighted r x) i t f = r ^ t * sval x i t f := by
  unfold sval
  rw [show (weighted r x).rank = x.rank from congrArg List.length (weighted_shape r x), get_weighted, get_weighted, mul_ite,
    show timeAxis x.shape = 1 by rcases hx with h | ⟨F, h⟩ <;> rw [h] <;> rfl]
  rfl

theorem memoryless_weight {B N F : Nat} {r : α} {g : Nat → Nat → Nat → Nat → α} {x : Tensor α}
    (hx : x.shape = [B, N] ∨ ∃ F, x.shape = [B, N, F]) (i t p : Nat) :
    memoryless F g (weighted r x) i t p = r ^ t * memoryless F g x i t p := by
  rw [memoryless, memoryless, mul_sum]
  refine sum_congr rfl fun f _ => ?_
  rw [sval_weight hx]; ring

/-! ## Recursions -/

theorem scalarRec_weight {r i i' : α} {a a' x x' : Nat → α} (ha : ∀ t, a' t = r * a t) (hi : i = r * i')
    (hx : ∀ t, x' t = r ^ t * x t) (t : Nat) : scalarRec a' i' x' (t + 1) = r ^ t * scalarRec a i x (t + 1) := by
  induction t with
  | zero => simp only [scalarRec]; rw [ha, hx, hi]; ring
  | succ t ih => rw [scalarRec, ih, scalarRec.eq_2 a i x (t + 1), ha, hx]; ring

theorem vecRec_weight {M : Nat} {r : α} {A A' : Nat → Nat → Nat → α} {z : Nat → α} {x x' : Nat → Nat → α}
    (hA : ∀ t i k, A' t i k = r * A t i k) (hx : ∀ t i, x' t i = r ^ (t + 1) * x t i) (t i : Nat) :
    vecRec M A' z x' t i = r ^ t * vecRec M A z x t i := by
  induction t generalizing i with
  | zero => simp [vecRec]
  | succ t ih =>
    simp only [vecRec]
    rw [hx, mul_add, mul_sum]
    congr 1
    refine sum_congr rfl fun k _ => ?_
    rw [hA, ih]; ring

/-- The same with the factor taken out of the initial state. -/
theorem vecRec_weight_init {M : Nat} {r : α} {A A' : Nat → Nat → Nat → α} {z z' : Nat → α} {x x' : Nat → Nat → α}
    (hA : ∀ t i k, A' t i k = r * A t i k) (hz : ∀ m, z m = r * z' m) (hx : ∀ t i, x' t i = r ^ t * x t i) (t i : Nat) :
    vecRec M A' z' x' (t + 1) i = r ^ t * vecRec M A z x (t + 1) i := by
  induction t generalizing i with
  | zero =>
    simp only [vecRec]
    rw [hx, mul_add, mul_sum]
    congr 1
    refine sum_congr rfl fun k _ => ?_
    rw [hA, hz]; ring
  | succ t ih =>
    rw [vecRec, vecRec.eq_2 M A z x (t + 1)]
    beta_reduce
    rw [hx, mul_add, mul_sum]
    congr 1
    refine sum_congr rfl fun k _ => ?_
    rw [hA, ih]; ring

/-- Two signals on the integers, the second of them weighted, also in the past. -/
structure Wgt (r : α) (x x' : Int → α) : Prop where
  past : ∀ j : Nat, x (-1 - (j : Int)) = r ^ (j + 1) * x' (-1 - (j : Int))
  at' : ∀ n : Nat, x' n = r ^ n * x n

theorem wgt_zero {r : α} {x x' : Int → α} (h : ∀ n, n < 0 → x n = 0) (h' : ∀ n, n < 0 → x' n = 0) (e : ∀ n : Nat, x' n = r ^ n * x n) :
    Wgt r x x' := ⟨fun j => by rw [h _ (by omega), h' _ (by omega), mul_zero], e⟩

theorem wgt_causal {r : α} {x x' : Nat → α} (h : ∀ t, x' t = r ^ t * x t) : Wgt r (causal x) (causal x') :=
  wgt_zero (fun _ hn => if_pos hn) (fun _ hn => if_pos hn) fun n => by
    rw [causal, causal, if_neg (by omega), if_neg (by omega)]; exact h _

theorem Wgt.mul {r : α} {x x' : Int → α} (h : Wgt r x x') (n j : Nat) : r ^ j * x' ((n : Int) - j) = r ^ n * x ((n : Int) - j) := by
  by_cases hj : j ≤ n
  · obtain ⟨m, rfl⟩ := Nat.exists_eq_add_of_le hj
    rw [show ((j + m : Nat) : Int) - j = m by push_cast; ring, h.at']; ring
  · obtain ⟨m, rfl⟩ := Nat.exists_eq_add_of_le (show n + 1 ≤ j by omega)
    rw [show (n : Int) - ((n + 1 + m : Nat) : Int) = -1 - (m : Int) by push_cast; ring, h.past]; ring

theorem taps_wgt {K : Nat} {r : α} {b b' : Nat → α} (hb : ∀ j, b' j = r ^ j * b j) {x x' : Int → α} (h : Wgt r x x') (n : Nat) :
    taps K b' x' n = r ^ n * taps K b x n := by
  rw [taps, taps, mul_sum]
  refine sum_congr rfl fun j _ => ?_
  rw [hb, mul_right_comm, h.mul]; ring

theorem wgt_taps {K : Nat} {r : α} {b b' : Nat → Nat → α} (hb : ∀ t j, b' t j = r ^ j * b t j) {x x' : Int → α} (h : Wgt r x x')
    (n : Nat) : taps K (b' n) x' n = r ^ n * taps K (b n) x n := taps_wgt (hb n) h n

/-- A recursion with time-varying coefficients. -/
theorem wgt_diff {P : Nat} {r : α} {a a' : Nat → Nat → α} (ha : ∀ t j, a' t j = r ^ (j + 1) * a t j) {v v' : Nat → α}
    (hv : ∀ t, v' t = r ^ t * v t) {w w' : Int → α} (h0 : ∀ j : Nat, w (-1 - (j : Int)) = r ^ (j + 1) * w' (-1 - (j : Int)))
    (h : ∀ n : Nat, w n = v n - ∑ j ∈ range P, a n j * w ((n : Int) - 1 - j))
    (h' : ∀ n : Nat, w' n = v' n - ∑ j ∈ range P, a' n j * w' ((n : Int) - 1 - j)) : Wgt r w w' := by
  refine ⟨h0, fun n => ?_⟩
  induction n using Nat.strong_induction_on with
  | _ n ih =>
    rw [h, h', hv, mul_sub, mul_sum]
    congr 1
    refine sum_congr rfl fun j _ => ?_
    rw [ha]
    by_cases hj : j + 1 ≤ n
    · obtain ⟨m, rfl⟩ := Nat.exists_eq_add_of_le hj
      rw [show ((j + 1 + m : Nat) : Int) - 1 - j = m by push_cast; ring, ih m (by omega)]; ring
    · obtain ⟨m, rfl⟩ := Nat.exists_eq_add_of_le (show n ≤ j by omega)
      rw [show (n : Int) - 1 - ((n + m : Nat) : Int) = -1 - (m : Int) by push_cast; ring, h0]; ring

theorem wgt_tvSignal {M : Nat} (hM : 0 < M) {r : α} {a a' : Nat → Nat → α} (ha : ∀ t j, a' t j = r ^ (j + 1) * a t j) {z z' x x' : Nat → α}
    (hz : ∀ m, z m = r ^ (m + 1) * z' m) (hx : ∀ t, x' t = r ^ t * x t) : Wgt r (tvSignal M a z x) (tvSignal M a' z' x') := by
  refine wgt_diff ha hx (fun j => ?_) (tv_signal hM a _ x) (tv_signal hM a' _ x')
  rw [tvSignal, tvSignal, withPast, withPast, if_pos (by omega), if_pos (by omega),
    show (-1 - (-1 - (j : Int))).toNat = j by omega, hz]

theorem wgt_dfSignal {M : Nat} (hM : 0 < M) {r : α} {a a' : Nat → α} (ha : ∀ j, a' j = r ^ (j + 1) * a j) {z z' x x' : Nat → α}
    (hz : ∀ m, z m = r ^ (m + 1) * z' m) (hx : ∀ t, x' t = r ^ t * x t) : Wgt r (dfSignal M a z x) (dfSignal M a' z' x') :=
  wgt_tvSignal (a := fun _ => a) (a' := fun _ => a') hM (fun _ => ha) hz hx

/-- Values of a weighted signal before time `N`. -/
theorem Wgt.last {r : α} {x x' : Int → α} (h : Wgt r x x') (N m : Nat) :
    r ^ (m + 1) * x' ((N : Int) - 1 - m) = r ^ N * x ((N : Int) - 1 - m) := by
  have := h.mul N (m + 1)
  rwa [show (N : Int) - ((m + 1 : Nat) : Int) = (N : Int) - 1 - m by push_cast; ring] at this

theorem tvConv_weight {N M : Nat} {r : α} {b b' : Nat → Nat → α} (hb : ∀ t j, b' t j = r ^ j * b t j) {x x' : Nat → α}
    (hx : ∀ t, x' t = r ^ t * x t) (n : Nat) : tvConv N M b' x' n = r ^ n * tvConv N M b x n := by
  rw [tvConv, tvConv, mul_sum]
  refine sum_congr rfl fun j _ => ?_
  split_ifs with h
  · obtain ⟨m, rfl⟩ := Nat.exists_eq_add_of_le h.1
    rw [Nat.add_sub_cancel_left, hb, hx]; ring
  · ring

theorem tvTdf2State_weight {M : Nat} {r : α} {b b' a a' : Nat → Nat → α} (hM : 0 < M) (hb : ∀ t j, b' t j = r ^ j * b t j)
    (ha : ∀ t j, a' t j = r ^ (j + 1) * a t j) {z z' : Nat → α} (hz : ∀ m, z' m = r ^ m * z m) {x x' : Nat → α}
    (hx : ∀ t, x' t = r ^ t * x t) (t : Nat) {i : Nat} (hi : i < M) :
    tvTdf2State M b' a' z' x' t i = r ^ (t + i) * tvTdf2State M b a z x t i := by
  induction t generalizing i with
  | zero =>
    show z' i = r ^ (0 + i) * z i
    rw [hz, zero_add]
  | succ t ih =>
    rw [tvTdf2_step _ _ _ _ _ hi, tvTdf2_step _ _ _ _ _ hi, tvTdf2Out, tvTdf2Out, ih hM, hb, hb, ha, hx]
    split_ifs with h
    · rw [ih h]; ring
    · ring

theorem tvTdf2Out_weight {M : Nat} {r : α} {b b' a a' : Nat → Nat → α} (hM : 0 < M) (hb : ∀ t j, b' t j = r ^ j * b t j)
    (ha : ∀ t j, a' t j = r ^ (j + 1) * a t j) {z z' : Nat → α} (hz : ∀ m, z' m = r ^ m * z m) {x x' : Nat → α}
    (hx : ∀ t, x' t = r ^ t * x t) (t : Nat) : tvTdf2Out M b' a' z' x' t = r ^ t * tvTdf2Out M b a z x t := by
  rw [tvTdf2Out, tvTdf2Out, tvTdf2State_weight hM hb ha hz hx t hM, hb, hx]
  ring

theorem zext_weight (P c : Nat) (r : α) (f : Nat → α) (j : Nat) : zext P (fun k => r ^ (k + c) * f k) j = r ^ (j + c) * zext P f j := by
  unfold zext
  split_ifs <;> ring

theorem unitTaps_weight {r : α} (t j : Nat) : unitTaps t j = r ^ j * (unitTaps t j : α) := by
  unfold unitTaps
  split_ifs with h
  · rw [h, pow_zero, one_mul]
  · rw [mul_zero]

theorem star_weight [StarRing α] {r : α} (hr : star r = r) (n : Nat) (c : α) : star (r ^ n * c) = r ^ n * star c := by
  rw [star_mul, star_pow, hr, mul_comm]

theorem tallpole_weight {M : Nat} {r : α} {a a' : Nat → Nat → α} (hM : 0 < M) (ha : ∀ t j, a' t j = r ^ (j + 1) * a t j)
    {x x' : Nat → α} (hx : ∀ t, x' t = r ^ t * x t) (n : Nat) :
    vecRec M (fun t i j => comp (a' t) j i) (fun _ => 0) (first x') (n + 1) 0 =
      r ^ n * vecRec M (fun t i j => comp (a t) j i) (fun _ => 0) (first x) (n + 1) 0 := by
  induction n using Nat.strong_induction_on with
  | _ n ih =>
    rw [tv_tallpole hM, tv_tallpole hM, hx, mul_sub, mul_sum]
    congr 1
    refine sum_congr rfl fun k _ => ?_
    split_ifs with h
    · obtain ⟨m, rfl⟩ := Nat.exists_eq_add_of_le (show k + 1 ≤ n from h)
      rw [show k + 1 + m - k = m + 1 by omega, ih m (by omega), ha]; ring
    · ring

end Spec
