import Verif.Model.LtiComb
import Verif.Props.C01
import Verif.Spec.Comb
import Verif.Proof.LtiFiltering

/-! # The comb filter -/

namespace Spec
open Torch Torch.Tensor
variable {α : Type} [CommRing α]

/-- The comb signal, phase by phase. -/
def combSig (D : Nat) (a : α) (z x : Nat → α) (n : Int) : α :=
  if n < 0 then z (-1 - n).toNat
  else scalarRec (fun _ => -a) (z (D - 1 - n.toNat % D)) (fun k => x (k * D + n.toNat % D)) (n.toNat / D + 1)

theorem combSig_past (D : Nat) (a : α) (z x : Nat → α) (m : Nat) : combSig D a z x (-1 - m) = z m := by
  rw [combSig, if_pos (by omega)]; congr 1; omega

theorem combSig_rec {D : Nat} (hD : 0 < D) (a : α) (z x : Nat → α) (n : Nat) :
    combSig D a z x n = x n - a * combSig D a z x (n - D) := by
  have h1 : combSig D a z x n = scalarRec (fun _ => -a) (z (D - 1 - n % D)) (fun k => x (k * D + n % D)) (n / D + 1) := by
    rw [combSig, if_neg (by omega)]; rfl
  rw [h1, scalarRec, Nat.div_add_mod']
  have h2 : scalarRec (fun _ => -a) (z (D - 1 - n % D)) (fun k => x (k * D + n % D)) (n / D) = combSig D a z x (n - D) := by
    by_cases h : n < D
    · rw [Nat.div_eq_of_lt h, combSig, if_pos (by omega), scalarRec, Nat.mod_eq_of_lt h]; congr 1; omega
    · have e : ((n : Int) - D).toNat = n - D := by omega
      rw [combSig, if_neg (by omega), e, ← Nat.mod_eq_sub_mod (by omega), Nat.div_eq n D, if_pos ⟨hD, by omega⟩]
  rw [h2]; ring

/-- The comb equation and the past determine the signal. -/
theorem comb_unique {D : Nat} (hD : 0 < D) {a : α} {x : Nat → α} {y y' : Int → α}
    (hp : ∀ m, m < D → y (-1 - (m : Int)) = y' (-1 - (m : Int)))
    (h : ∀ n : Nat, y n = x n - a * y (n - D)) (h' : ∀ n : Nat, y' n = x n - a * y' (n - D)) (n : Nat) :
    y n = y' n := by
  induction n using Nat.strong_induction_on with
  | _ n ih =>
    rw [h, h']
    congr 2
    by_cases hn : n < D
    · have := hp (D - 1 - n) (by omega)
      rwa [show -1 - ((D - 1 - n : Nat) : Int) = (n : Int) - D by omega] at this
    · have := ih (n - D) (by omega)
      rwa [show ((n - D : Nat) : Int) = (n : Int) - D by omega] at this

theorem combSig_shift {D : Nat} (hD : 0 < D) (a : α) (z x : Nat → α) (s : Nat) (n : Nat) :
    combSig D a (fun m => combSig D a z x ((s : Int) - 1 - m)) (fun t => x (s + t)) n = combSig D a z x (s + n) := by
  refine comb_unique (y' := fun n => combSig D a z x (s + n)) hD (a := a) (x := fun t => x (s + t)) ?_
    (fun n => combSig_rec hD _ _ _ n) (fun n => ?_) n
  · intro m _
    rw [combSig_past]; congr 1; ring
  · have := combSig_rec hD a z x (s + n)
    push_cast at this
    rw [this]; congr 3; ring

end Spec

namespace Torch.Tensor
variable {α : Type} [Zero α]

theorem repeat0_t1 (n k : Nat) (f : Nat → α) : repeat0 (t1 n f) k = .ok (t1 (k * n) fun i => f (i % n)) := by
  unfold repeat0
  refine check_step (by simp) ?_
  refine congrArg Except.ok (ext1 (n := k * n) (by simp) rfl fun i hi => ?_)
  have hn : 0 < n := Nat.pos_of_lt_mul_right' hi
  rw [get_t1 hi]
  simp only [shape_t1, List.set, List.getD_cons_zero]
  rw [get_ofFn1 hi]
  simp only [List.getD_cons_zero]
  exact get_t1 (Nat.mod_lt _ hn)

theorem repeatInterleave_t1 (n k : Nat) (f : Nat → α) :
    repeatInterleave (t1 n f) k = .ok (t1 (n * k) fun i => f (i / k)) := by
  unfold repeatInterleave
  refine check_step (by simp) ?_
  refine congrArg Except.ok (ext1 (n := n * k) (by simp) rfl fun i hi => ?_)
  rw [get_t1 hi]
  simp only [shape_t1, List.getD_cons_zero]
  rw [get_ofFn1 hi]
  simp only [List.getD_cons_zero]
  exact get_t1 (Nat.div_lt_of_lt_mul (by rw [Nat.mul_comm]; exact hi))

end Torch.Tensor

namespace Phil.Lti
open Torch Torch.Tensor Spec
variable {α : Type} [CommRing α] [StarRing α]

omit [StarRing α] in
theorem combInit_eq {B D N : Nat} {a : Tensor α} {av : Nat → α} {zi : Option (Tensor α)} {z : Nat → Nat → α}
    (x : Nat → Nat → α) (ha : PerItem (B * D) a av) (hz : Past B D zi z) :
    ∃ i iv, combInit a (t2 B N x) zi = .ok i ∧ BatchVals (B * D) i iv ∧
      ∀ r, r < B * D → iv r = z (r / D) (D - 1 - r % D) := by
  cases hz with
  | none =>
    cases ha with
    | scalar c => exact ⟨_, _, rfl, BatchVals.scalar 0, fun r _ => rfl⟩
    | full g => exact ⟨_, _, rfl, BatchVals.full fun _ => 0, fun r _ => rfl⟩
  | shared f =>
    refine ⟨_, _, ?_, BatchVals.full fun r => f (D - 1 - r % D), fun r _ => rfl⟩
    unfold combInit
    simp only [rank_t1, if_true]
    refine bind_step (flip_t1_0 _ _) ?_
    exact repeat0_t1 _ _ _
  | batched f =>
    refine ⟨_, _, ?_, BatchVals.full fun r => z (r / D) (D - 1 - r % D), fun r _ => rfl⟩
    unfold combInit
    simp only [rank_t2]
    rw [if_neg (by decide)]
    refine bind_step (flip_t2_1 _ _ _) ?_
    exact flatten_t2_0_1 _ _ _

omit [StarRing α] in
theorem perItem_rank {B : Nat} {a : Tensor α} {av : Nat → α} (ha : PerItem B a av) : a.rank ≤ 1 ∧ (a.rank = 1 → a.size 0 = B) := by
  cases ha <;> simp

/-- The comb filter for delays of at least two. -/
theorem combFilter_eq {B N D : Nat} {a : Tensor α} {av : Nat → α} {zi : Option (Tensor α)} {z : Nat → Nat → α}
    (x : Nat → Nat → α) {u : Int} (ha : PerItem B a av) (hz : Past B D zi z) (hD : 2 ≤ D) (hN : 0 < N) (hu : 1 ≤ u) :
    combFilter true a D (t2 B N x) zi u =
      .ok (t2 B N fun i t => combSig D (av i) (z i) (x i) t,
        zi.map fun _ => t2 B (min D N) fun i m => combSig D (av i) (z i) (x i) ((N : Int) - 1 - m)) := by
  unfold combFilter
  refine check_step (perItem_rank ha).1 ?_
  refine check_step (by simp) ?_
  refine check_step (by omega) ?_
  refine check_step (perItem_rank ha).2 ?_
  rw [if_neg (by omega)]
  refine check_step (by omega) ?_
  simp only [Int.toNat_natCast, size_t2_1]
  have hD0 : 0 < D := by omega
  have hmod := Nat.mod_lt N hD0
  have hdm := Nat.div_add_mod N D
  -- the padded length
  obtain ⟨K, hK, hK0, hKN⟩ : ∃ K, K * D = (if N % D ≠ 0 then N + (D - N % D) else N) ∧ 0 < K ∧ N ≤ K * D := by
    by_cases h : N % D = 0
    · refine ⟨N / D, ?_, ?_, ?_⟩
      · rw [if_neg (by simpa using h), Nat.mul_comm]; omega
      · exact Nat.div_pos (Nat.le_of_dvd hN (Nat.dvd_of_mod_eq_zero h)) hD0
      · rw [Nat.mul_comm]; omega
    · have : (N / D + 1) * D = N + (D - N % D) := by rw [Nat.add_mul, Nat.mul_comm]; omega
      exact ⟨N / D + 1, by rw [if_pos h]; exact this, Nat.succ_pos _, by rw [this]; omega⟩
  refine bind_step (v := t2 B (K * D) fun i t => if t < N then x i t else 0) ?_ ?_
  · split
    · rename_i h
      rw [padDim_t2_1_right, hK, if_pos h]
    · rename_i h
      rw [pure_eq_ok, hK, if_neg h]
      refine congrArg Except.ok (t2_congr rfl rfl fun i t hi ht => ?_)
      rw [if_pos ht]
  refine bind_step (unflatten_t2_1_m1_c _ _ _ _ hD0 (Nat.mul_mod_left _ _)) ?_
  refine bind_step (transpose_t3_n2_n1 _ _ _ _) ?_
  rw [Nat.mul_div_cancel _ hD0]
  obtain ⟨a', av', ea, ha', hav⟩ : ∃ a' av', (if a.rank = 1 then repeatInterleave a D else pure a) = .ok a' ∧
      PerItem (B * D) a' av' ∧ ∀ r, r < B * D → av' r = av (r / D) := by
    cases ha with
    | scalar c => exact ⟨_, _, if_neg (by simp), .scalar c, fun r _ => rfl⟩
    | full g => exact ⟨_, _, (if_pos (by simp)).trans (repeatInterleave_t1 _ _ _), .full _, fun r _ => rfl⟩
  refine bind_step ea ?_
  obtain ⟨i', iv, ei, hi', hiv⟩ := combInit_eq (N := K * D) (fun i t => if t < N then x i t else 0) ha' hz
  refine bind_step ei ?_
  refine bind_step (flatten_t3_0_1 _ _ _ _) ?_
  have hneg : BatchVals (B * D) (neg a') fun r => -av' r := by
    cases ha' with
    | scalar c => rw [show neg (t0 c) = t0 (-c) from map_t0 _ _]; exact .scalar (-c)
    | full g => rw [show neg (t1 (B * D) av') = t1 (B * D) fun r => -av' r from map_t1 _ _ _]; exact .full _
  refine bind_step (show combRecurrence true (neg a') i' _ u = _ from
    Props.C01_linear_recurrence _ u hneg hi' hK0 hu) ?_
  refine bind_step (unflatten_t2_0_m1_c _ _ _ _ hD0 (Nat.mul_mod_left _ _)) ?_
  refine bind_step (transpose_t3_n2_n1 _ _ _ _) ?_
  rw [Nat.mul_div_cancel _ hD0]
  refine bind_step (flatten_t3_1_2 _ _ _ _) ?_
  have hy : ∀ i t, i < B → t < N → scalarRec (fun _ => -av' (i * D + t % D)) (iv (i * D + t % D))
      (fun k => if k * D + (i * D + t % D) % D < N then x ((i * D + t % D) / D) (k * D + (i * D + t % D) % D) else 0)
      (t / D + 1) = combSig D (av i) (z i) (x i) t := by
    intro i t hi ht
    have htm := Nat.mod_lt t hD0
    have hr : i * D + t % D < B * D := unflatten_bound hi htm
    have e1 : (i * D + t % D) / D = i := by
      rw [Nat.mul_comm, Nat.mul_add_div hD0, Nat.div_eq_of_lt htm, Nat.add_zero]
    have e2 : (i * D + t % D) % D = t % D := by
      rw [Nat.mul_comm, Nat.mul_add_mod, Nat.mod_mod]
    rw [hav _ hr, hiv _ hr, e1, e2, combSig, if_neg (by omega)]
    refine scalarRec_congr rfl (fun _ _ => rfl) fun k hk => ?_
    rw [Int.toNat_natCast, if_pos]
    have : k * D ≤ t / D * D := Nat.mul_le_mul_right _ (by omega)
    have := Nat.div_add_mod' t D
    omega
  refine bind_step (v := t2 B N fun i t => combSig D (av i) (z i) (x i) t) ?_ ?_
  · split
    · rename_i h
      rw [slice_t2_1, pyStop_neg _ _ (by omega), pyStart_none, hK, if_pos h]
      refine congrArg Except.ok (t2_congr rfl (by omega) fun i t hi ht => hy i t hi (by omega))
    · rename_i h
      rw [hK, if_neg h, pure_eq_ok]
      exact congrArg Except.ok (t2_congr rfl rfl hy)
  cases zi with
  | none => rfl
  | some zt =>
    refine bind_step (slice_t2_1 _ _ _ _ _) ?_
    rw [pyStop_none]
    refine bind_step (flip_t2_1 _ _ _) ?_
    have hs : pyStart N (some (-(D : Int))) = N - D := by simp only [pyStart, pyBound]; split <;> omega
    refine ok_pair rfl (congrArg some (t2_congr rfl (by rw [hs]; omega) fun i m hi hm => ?_))
    rw [hs] at hm ⊢
    congr 1; omega

/-- Delay one takes a separate path. -/
theorem combFilter_one {B N : Nat} {a : Tensor α} {av : Nat → α} {zi : Option (Tensor α)} {z : Nat → Nat → α} (ext : Bool)
    (x : Nat → Nat → α) {u : Int} (ha : PerItem B a av) (hz : Past B 1 zi z) (hN : 0 < N) (hu : 1 ≤ u) :
    combFilter ext a 1 (t2 B N x) zi u = .ok (t2 B N fun i t => combSig 1 (av i) (z i) (x i) t, none) := by
  unfold combFilter
  refine check_step (perItem_rank ha).1 ?_
  refine check_step (by simp) ?_
  refine check_step (by omega) ?_
  refine check_step (perItem_rank ha).2 ?_
  rw [if_pos rfl]
  have hneg : BatchVals B (neg a) fun r => -av r := by
    cases ha with
    | scalar c => rw [show neg (t0 c) = t0 (-c) from map_t0 _ _]; exact .scalar (-c)
    | full g => rw [show neg (t1 B av) = t1 B fun r => -av r from map_t1 _ _ _]; exact .full _
  obtain ⟨i', iv, ei, hi', hiv⟩ : ∃ i' iv, (match zi with
      | none => pure (zeros a.shape)
      | some z => squeeze z (-1) : Res (Tensor α)) = .ok i' ∧ BatchVals B i' iv ∧ ∀ i, i < B → iv i = z i 0 := by
    cases hz with
    | none =>
      cases ha with
      | scalar c => exact ⟨_, _, rfl, BatchVals.scalar 0, fun r _ => rfl⟩
      | full g => exact ⟨_, _, rfl, BatchVals.full fun _ => 0, fun r _ => rfl⟩
    | shared f => exact ⟨_, _, squeeze_t1_n1 _, BatchVals.scalar _, fun r _ => rfl⟩
    | batched f => exact ⟨_, _, squeeze_t2_n1 _ _, BatchVals.full _, fun r _ => rfl⟩
  refine bind_step ei ?_
  refine bind_step (Props.C01_linear_recurrence _ u hneg hi' hN hu) ?_
  refine ok_pair (t2_congr rfl rfl fun i t hi ht => ?_) rfl
  rw [combSig, if_neg (by omega), hiv i hi]
  simp [Nat.mod_one]

end Phil.Lti
