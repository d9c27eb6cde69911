import Verif.Proof.LtiInterp
import Mathlib.Algebra.Order.Ring.Abs
import Mathlib.Tactic.Linarith

/-! # Upsampling by a cubic spline -/

namespace Torch.Tensor
variable {α : Type} [CommRing α]

theorem padReflect_t3_1_2 (n m p : Nat) (f : Nat → Nat → Nat → α) (hp : 3 ≤ p) :
    padReflect (t3 n m p f) 1 2 = .ok (t3 n m (p + 1 + 2) fun i j k =>
      if k < 1 then f i j (1 - k) else if k < 1 + p then f i j (k - 1) else f i j (p - 2 - (k - 1 - p))) := by
  unfold padReflect
  refine bind_step (v := 2) rfl ?_
  refine check_step (by simp; omega) ?_
  refine congrArg Except.ok (ext3 (n := n) (m := m) (p := p + 1 + 2) (by simp) rfl fun i j k hi hj hk => ?_)
  rw [get_t3 hi hj hk]
  simp only [shape_t3, List.set, List.getD_cons_zero, List.getD_cons_succ]
  rw [get_ofFn3 hi hj hk]
  simp only [List.set, List.getD_cons_zero, List.getD_cons_succ]
  split
  · exact get_t3 hi hj (by omega)
  · split
    · exact get_t3 hi hj (by omega)
    · exact get_t3 hi hj (by omega)

end Torch.Tensor

namespace Phil.Interp
open Torch Torch.Tensor Spec Finset

section kernel
variable {α : Type} [Field α] [LinearOrder α] [IsStrictOrderedRing α]

omit [IsStrictOrderedRing α] in
theorem cubePos_pos {t : α} (h : 0 < t) : cubePos t = t ^ 3 := if_pos h

omit [IsStrictOrderedRing α] in
theorem cubePos_neg {t : α} (h : t ≤ 0) : cubePos t = 0 := if_neg (not_lt.mpr h)

omit [IsStrictOrderedRing α] in
theorem bspline3_eq (t : α) : bspline3 t =
    (cubePos (t + 2) - 4 * cubePos (t + 1) + 6 * cubePos t - 4 * cubePos (t - 1) + cubePos (t - 2)) / 6 := by
  unfold bspline3
  simp only [sum_range_succ, range_zero, sum_empty, Nat.choose]
  push_cast
  rw [show t + 2 - 0 = t + 2 by ring, show t + 2 - 1 = t + 1 by ring, show t + 2 - 2 = t by ring, show t + 2 - 3 = t - 1 by ring,
    show t + 2 - 4 = t - 2 by ring]
  ring

/-- The kernel of the code is the cubic B-spline. -/
theorem kernel_eq_bspline (t : α) : kernel t = bspline3 t := by
  rw [bspline3_eq]
  unfold kernel
  by_cases h1 : |t| ≤ 1
  · rw [if_pos h1]
    obtain ⟨hl, hu⟩ := abs_le.mp h1
    rw [cubePos_pos (show 0 < t + 2 by linarith), cubePos_neg (show t - 1 ≤ 0 by linarith), cubePos_neg (show t - 2 ≤ 0 by linarith)]
    rcases le_or_gt t 0 with h | h
    · rw [cubePos_neg h, abs_of_nonpos h]
      rcases hl.lt_or_eq with h' | h'
      · rw [cubePos_pos (show 0 < t + 1 by linarith)]; ring
      · rw [← h', cubePos_neg (show (-1 : α) + 1 ≤ 0 by norm_num)]; norm_num
    · rw [cubePos_pos h, abs_of_pos h, cubePos_pos (show 0 < t + 1 by linarith)]; ring
  · rw [if_neg h1]
    have h1' : 1 < |t| := not_le.mp h1
    by_cases h2 : |t| < 2
    · rw [if_pos ⟨h1, h2⟩]
      obtain ⟨hl, hu⟩ := abs_lt.mp h2
      rw [cubePos_pos (show 0 < t + 2 by linarith), cubePos_neg (show t - 2 ≤ 0 by linarith)]
      rcases le_or_gt t 0 with h | h
      · rw [abs_of_nonpos h] at h1' ⊢
        rw [cubePos_neg h, cubePos_neg (show t + 1 ≤ 0 by linarith), cubePos_neg (show t - 1 ≤ 0 by linarith)]; ring
      · rw [abs_of_pos h] at h1' ⊢
        rw [cubePos_pos h, cubePos_pos (show 0 < t + 1 by linarith), cubePos_pos (show 0 < t - 1 by linarith)]; ring
    · rw [if_neg fun h => h2 h.2]
      have h2' : 2 ≤ |t| := not_lt.mp h2
      rcases le_or_gt t 0 with h | h
      · rw [abs_of_nonpos h] at h2'
        rw [cubePos_neg h, cubePos_neg (show t + 1 ≤ 0 by linarith), cubePos_neg (show t - 1 ≤ 0 by linarith),
          cubePos_neg (show t + 2 ≤ 0 by linarith), cubePos_neg (show t - 2 ≤ 0 by linarith)]; ring
      · rw [abs_of_pos h] at h2'
        rw [cubePos_pos h, cubePos_pos (show 0 < t + 1 by linarith), cubePos_pos (show 0 < t - 1 by linarith),
          cubePos_pos (show 0 < t + 2 by linarith)]
        rcases h2'.lt_or_eq with h' | h'
        · rw [cubePos_pos (show 0 < t - 2 by linarith)]; ring
        · rw [← h', cubePos_neg (show (2 : α) - 2 ≤ 0 by norm_num)]; norm_num

theorem bspline3_far {t : α} (h : 2 ≤ |t|) : bspline3 t = 0 := by
  rw [← kernel_eq_bspline, kernel, if_neg (by linarith), if_neg fun h' => by linarith [h'.2]]

theorem bspline3_near {t : α} (h : |t| ≤ 1) : bspline3 t = (4 - 6 * |t| ^ 2 + 3 * |t| ^ 3) / 6 := by
  rw [← kernel_eq_bspline, kernel, if_pos h]

/-- The sum over all integers has at most four nonzero terms. -/
theorem sum_window {lo hi : Int} {n : Int} (h1 : lo ≤ n - 1) (h2 : n + 2 ≤ hi) {q : α} (h0 : 0 ≤ q) (hq : q < 1) (c : Int → α) :
    ∑ k ∈ Icc lo hi, c k * bspline3 ((n : α) + q - k) = ∑ w ∈ range 4, bspline3 (1 - (w : α) + q) * c (n + w - 1) := by
  have hs : (range 4).image (fun w : Nat => n + (w : Int) - 1) ⊆ Icc lo hi := by
    intro k hk
    obtain ⟨w, hw, rfl⟩ := mem_image.mp hk
    have := mem_range.mp hw
    rw [mem_Icc]; omega
  rw [← sum_subset hs]
  · rw [sum_image fun a _ b _ h => by omega]
    refine sum_congr rfl fun w _ => ?_
    rw [mul_comm]
    congr 2
    push_cast; ring
  · intro k _ hk
    have hk' : k ≤ n - 2 ∨ n + 3 ≤ k := by
      by_contra hc
      refine hk (mem_image.mpr ⟨(k - n + 1).toNat, mem_range.mpr (by omega), by omega⟩)
    rw [bspline3_far, mul_zero]
    rcases hk' with h | h
    · have : (k : α) ≤ n - 2 := by exact_mod_cast h
      exact le_abs.mpr (.inl (by linarith))
    · have : (n : α) + 3 ≤ k := by exact_mod_cast h
      exact le_abs.mpr (.inr (by linarith))

/-- At an integer the spline is the weighted mean of three coefficients. -/
theorem window_integer (c : Int → α) (n : Int) :
    ∑ w ∈ range 4, bspline3 (1 - (w : α) + 0) * c (n + w - 1) = splineAt c n := by
  simp only [sum_range_succ, range_zero, sum_empty]
  push_cast
  rw [bspline3_near (show |1 - 0 + 0| ≤ (1 : α) by norm_num), bspline3_near (show |1 - 1 + 0| ≤ (1 : α) by norm_num),
    bspline3_near (show |1 - 2 + 0| ≤ (1 : α) by norm_num [abs_of_neg]), bspline3_far (show 2 ≤ |1 - 3 + (0 : α)| by norm_num [abs_of_neg])]
  unfold splineAt
  rw [show n + 0 - 1 = n - 1 by ring, show n + 1 - 1 = n by ring, show n + 2 - 1 = n + 1 by ring]
  norm_num
  ring

end kernel

section upsample
variable {α : Type} [Field α] [LinearOrder α] [IsStrictOrderedRing α] [StarRing α]

omit [Field α] [LinearOrder α] [IsStrictOrderedRing α] [StarRing α] in
theorem mirror_shift (half : Bool) {L : Nat} (hL : (if half then 2 else 3) ≤ L) (c : Nat → α) {t : Nat} (ht : t < L + 3) :
    mirror half L c ((t : Int) - 1) =
      if half then (if t < 1 then c 0 else if t < 1 + L then c (t - 1) else c (L - 1 - (t - 1 - L)))
      else (if t < 1 then c (1 - t) else if t < 1 + L then c (t - 1) else c (L - 2 - (t - 1 - L))) := by
  unfold mirror
  cases half with
  | true =>
    simp only [if_true] at hL ⊢
    split_ifs <;> first | omega | (congr 1; omega)
  | false =>
    simp only [Bool.false_eq_true, if_false] at hL ⊢
    split_ifs <;> first | omega | (congr 1; omega)

theorem cubicSpline_eq {ext : Option (Op α)} {u : Int} {r : α} {B L m : Nat} (hm : 2 ≤ m) (hr : arangeLen m = 4 * m)
    (parallel half : Bool) (hL : (if half then 2 else 3) ≤ L) (x c : Nat → Nat → α)
    (hc : cspline ext u r (t2 B L x) parallel half = .ok (t2 B L c)) :
    cubicSpline ext u r (t2 B L x) m parallel half = .ok (t2 B ((L - 1) * m + 1) fun b j =>
      ∑ w ∈ range 4, bspline3 (1 - (w : α) + ((j % m : Nat) : α) / m) * mirror half L (c b) (((j / m : Nat) : Int) + w - 1)) := by
  have hm0 : (m : α) ≠ 0 := Nat.cast_ne_zero.mpr (by omega)
  have hL2 : 2 ≤ L := by revert hL; split <;> omega
  unfold cubicSpline
  refine check_step (by omega) ?_
  rw [if_neg (by omega)]
  refine bind_step (v := t2 B L c) hc ?_
  refine check_step hr ?_
  simp only
  rw [map_t2]
  refine bind_step (flip_t2_0 _ _ _) ?_
  refine bind_step (transpose_t2_0_1 _ _ _) ?_
  refine bind_step (v := t3 B 1 (L + 3) fun b _ t => mirror half L (c b) ((t : Int) - 1)) ?_ ?_
  · cases half with
    | true =>
      rw [if_pos rfl]
      refine bind_step (slice_t2_1 _ _ _ _ _) ?_
      refine bind_step (slice_t2_1 _ _ _ _ _) ?_
      refine bind_step (flip_t2_n1 _ _ _) ?_
      have e1 : pyStop L (some 1) - pyStart L none = 1 := by rw [pyStop_one, pyStart_none]; omega
      have e2 : pyStart L (some (-2)) = L - 2 := by simp [pyStart, pyBound]; omega
      have e3 : pyStop L none - pyStart L (some (-2)) = 2 := by rw [e2, pyStop_none]; omega
      rw [e1, e3, e2]
      have hcat : ∀ p q s : Nat → Nat → α, cat [t2 B 1 p, t2 B L q, t2 B 2 s] 1 = .ok (t2 B (1 + L + 2) fun b j =>
          if j < 1 + L then (if j < 1 then p b j else q b (j - 1)) else s b (j - (1 + L))) := fun p q s =>
        bind_step (cat2_t2_1 _ _ _ _ _) (bind_step (cat2_t2_1 _ _ _ _ _) rfl)
      refine bind_step (hcat _ _ _) ?_
      refine (unsqueeze_t2_1 _ _ _).trans ?_
      refine congrArg Except.ok (t3_congr rfl rfl (by omega) fun b k t hb hk ht => ?_)
      have ht' : t < 1 + L + 2 := ht
      rw [mirror_shift true (by simpa using hL2) (c b) (by omega), if_pos rfl]
      simp only [pyStart_none, Nat.add_zero]
      split_ifs <;> first | omega | rfl | (congr 1; omega)
    | false =>
      rw [if_neg (by decide)]
      have hL3 : 3 ≤ L := by simpa using hL
      refine bind_step (unsqueeze_t2_1 _ _ _) ?_
      refine (padReflect_t3_1_2 _ _ _ _ hL3).trans ?_
      refine congrArg Except.ok (t3_congr rfl rfl (by omega) fun b k t hb hk ht => ?_)
      have ht' : t < L + 1 + 2 := ht
      rw [mirror_shift false (by simpa using hL3) (c b) (by omega), if_neg Bool.false_ne_true]
  refine bind_step (unsqueeze_t2_1 _ _ _) ?_
  refine bind_step (conv1dOne_eq _ _ (by omega) (by omega)) ?_
  refine bind_step (transpose_t3_n2_n1 _ _ _ _) ?_
  refine bind_step (flatten_t3_1_2 _ _ _ _) ?_
  refine (slice_t2_n1 _ _ _ _ _).trans ?_
  have hlen : (L + 3 - 4 + 1) * m = (L - 1) * m + m := by
    rw [show L + 3 - 4 + 1 = L - 1 + 1 by omega, Nat.add_mul, Nat.one_mul]
  have e : pyStop ((L + 3 - 4 + 1) * m) (some (-((m - 1 : Nat) : Int))) - pyStart ((L + 3 - 4 + 1) * m) none = (L - 1) * m + 1 := by
    rw [pyStop_neg _ _ (by omega), pyStart_none, hlen]; omega
  rw [e]
  refine congrArg Except.ok (t2_congr rfl rfl fun b j hb hj => ?_)
  rw [pyStart_none, Nat.add_zero]
  refine sum_congr rfl fun w hw => ?_
  have hw' := mem_range.mp hw
  rw [kernel_eq_bspline]
  congr 2
  · rw [show 4 - 1 - w = 3 - w by omega]
    push_cast [show w ≤ 3 by omega]
    field_simp
    ring

end upsample
end Phil.Interp
