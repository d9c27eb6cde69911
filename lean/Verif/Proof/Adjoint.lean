import Verif.Spec.Adjoint
import Verif.Proof.Stretch
import Verif.Proof.Transfer

/-! # Sums behind the transposition of filters -/

namespace Spec
open Finset Torch Torch.Tensor
variable {α : Type} [CommRing α]

/-- Delayed samples times coefficients of the present. -/
def lagD (K : Nat) (g : Nat → Nat → α) (x : Nat → α) (n : Nat) : α :=
  ∑ j ∈ range K, if j ≤ n then g n j * x (n - j) else 0

/-- Samples times coefficients of their own time, then delayed. -/
def lagT (K : Nat) (g : Nat → Nat → α) (x : Nat → α) (n : Nat) : α :=
  ∑ j ∈ range K, if j ≤ n then g (n - j) j * x (n - j) else 0

/-- A sum over `n ≥ j` written with `m = n - j`. -/
theorem sum_lag (N j : Nat) (f : Nat → Nat → α) :
    (∑ n ∈ range N, if j ≤ n then f n (n - j) else 0) = ∑ m ∈ range N, if m + j < N then f (m + j) m else 0 := by
  by_cases h : j ≤ N
  · obtain ⟨k, rfl⟩ := Nat.exists_eq_add_of_le h
    rw [sum_range_add, sum_eq_zero fun n hn => if_neg (by have := mem_range.1 hn; omega), zero_add]
    have e : (∑ x ∈ range j, if k + x + j < k + j then f (k + x + j) (k + x) else 0) = 0 := sum_eq_zero fun n hn => if_neg (by omega)
    rw [Nat.add_comm j k, sum_range_add (n := k), e, add_zero]
    refine sum_congr rfl fun m hm => ?_
    have := mem_range.1 hm
    rw [if_pos (by omega), if_pos (by omega), Nat.add_sub_cancel_left, Nat.add_comm j m]
  · rw [sum_eq_zero fun n hn => if_neg (by have := mem_range.1 hn; omega), sum_eq_zero fun n hn => if_neg (by omega)]

variable [StarRing α]

theorem pairing_congr {N : Nat} {u u' y y' : Nat → α} (hu : ∀ n, n < N → u n = u' n) (hy : ∀ n, n < N → y n = y' n) :
    pairing N u y = pairing N u' y' :=
  sum_congr rfl fun n hn => by
    have := mem_range.1 hn
    rw [hu _ (by omega), hy _ this]

theorem pairing_sub_right (N : Nat) (u y y' : Nat → α) : pairing N u (fun n => y n - y' n) = pairing N u y - pairing N u y' := by
  unfold pairing; rw [← sum_sub_distrib]; exact sum_congr rfl fun n _ => mul_sub ..

theorem pairing_sub_left (N : Nat) (u u' y : Nat → α) : pairing N (fun n => u n - u' n) y = pairing N u y - pairing N u' y := by
  unfold pairing; rw [← sum_sub_distrib]; exact sum_congr rfl fun n _ => by rw [star_sub, sub_mul]

/-- The transpose of a filter with finite response. -/
theorem pairing_lag (N K : Nat) {g g' : Nat → Nat → α} (hg : ∀ n, n < N → ∀ j, g' n j = star (g (N - 1 - n) j)) (u x : Nat → α) :
    pairing N u (lagD K g x) = pairing N (lagT K g' u) x := by
  unfold pairing lagD lagT
  simp only [mul_sum, star_sum, sum_mul]
  rw [sum_comm, sum_comm (s := range N)]
  refine sum_congr rfl fun j _ => ?_
  have e := sum_lag N j fun n m => star (u (N - 1 - n)) * (g n j * x m)
  refine (sum_congr rfl fun n _ => ?_).trans (e.trans (sum_congr rfl fun m hm => ?_))
  · split_ifs <;> simp
  · have := mem_range.1 hm
    by_cases h : m + j < N
    · rw [if_pos h, if_pos (by omega), hg _ (by omega), show N - 1 - (N - 1 - m - j) = m + j by omega,
        show N - 1 - m - j = N - 1 - (m + j) by omega, star_mul', star_star]
      ring
    · rw [if_neg h, if_neg (by omega), star_zero, zero_mul]

omit [StarRing α] in
theorem lagT_congr {K N : Nat} {g : Nat → Nat → α} {x x' : Nat → α} (h : ∀ n, n < N → x n = x' n) {n : Nat} (hn : n < N) :
    lagT K g x n = lagT K g x' n := by
  refine sum_congr rfl fun j _ => ?_
  split_ifs
  · rw [h _ (by omega)]
  · rfl

/-- The transpose of a filter with feedback. -/
theorem pairing_feedback (N K : Nat) {g g' : Nat → Nat → α} (hg : ∀ n, n < N → ∀ j, g' n j = star (g (N - 1 - n) j)) {p q y w : Nat → α}
    (hy : ∀ n, n < N → y n = p n - lagD K g y n) (hw : ∀ n, n < N → w n = q n - lagT K g' w n) :
    pairing N q y = pairing N w p := by
  have h1 : pairing N w y = pairing N w p - pairing N w (lagD K g y) := by
    rw [← pairing_sub_right]; exact pairing_congr (fun _ _ => rfl) hy
  have h2 : pairing N w y = pairing N q y - pairing N (lagT K g' w) y := by
    rw [← pairing_sub_left]; exact pairing_congr hw fun _ _ => rfl
  rw [pairing_lag N K hg] at h1
  linear_combination h1 - h2

/-- Feedback coefficients, for lags from one on. -/
def feedback (a : Nat → Nat → α) : Nat → Nat → α := fun n j => if j = 0 then 0 else a n (j - 1)

omit [StarRing α] in
theorem lagD_feedback (P : Nat) (a : Nat → Nat → α) {y : Int → α} (h0 : ∀ n, n < 0 → y n = 0) (n : Nat) :
    ∑ k ∈ range P, a n k * y ((n : Int) - 1 - k) = lagD (P + 1) (feedback a) (fun t => y t) n := by
  rw [lagD, sum_range_succ', feedback, if_pos rfl, zero_mul, ite_self, add_zero]
  refine sum_congr rfl fun k _ => ?_
  by_cases h : k + 1 ≤ n
  · rw [if_pos h, feedback, if_neg (by omega), Nat.add_sub_cancel]
    congr 2; omega
  · rw [if_neg h, h0 _ (by omega), mul_zero]

omit [StarRing α] in
theorem lagT_feedback (P : Nat) (a : Nat → Nat → α) (y : Nat → α) (n : Nat) :
    (∑ m ∈ range P, if m < n then a (n - 1 - m) m * y (n - 1 - m) else 0) = lagT (P + 1) (feedback a) y n := by
  rw [lagT, sum_range_succ', feedback, if_pos rfl, zero_mul, ite_self, add_zero]
  refine sum_congr rfl fun k _ => ?_
  by_cases h : k < n
  · rw [if_pos h, if_pos (by omega), feedback, if_neg (by omega), Nat.add_sub_cancel, show n - (k + 1) = n - 1 - k by omega]
  · rw [if_neg h, if_neg (by omega)]

theorem feedback_star {N : Nat} {a a' : Nat → Nat → α} (h : ∀ n, n < N → ∀ j, a' n j = star (a (N - 1 - n) j)) (n : Nat) (hn : n < N)
    (j : Nat) : feedback a' n j = star (feedback a (N - 1 - n) j) := by
  unfold feedback
  split_ifs
  · rw [star_zero]
  · exact h n hn _

omit [StarRing α] in
theorem lagD_taps (K : Nat) (b : Nat → Nat → α) {y : Int → α} (h0 : ∀ n, n < 0 → y n = 0) (n : Nat) :
    taps K (b n) y n = lagD K b (fun t => y t) n := by
  refine sum_congr rfl fun k _ => ?_
  by_cases h : k ≤ n
  · rw [if_pos h]; congr 2; omega
  · rw [if_neg h, h0 _ (by omega), mul_zero]

omit [StarRing α] in
theorem lagD_causal (K : Nat) (b : Nat → Nat → α) (x : Nat → α) (n : Nat) : taps K (b n) (causal x) n = lagD K b x n := by
  rw [lagD_taps K b (y := causal x) fun n hn => if_pos hn]
  have e : (fun t : Nat => causal x t) = x := funext fun t => by rw [causal, if_neg (by omega), Int.toNat_natCast]
  rw [e]

omit [StarRing α] in
theorem tvConv_lagT {N M : Nat} (b : Nat → Nat → α) (x : Nat → α) {n : Nat} (hn : n < N) : tvConv N M b x n = lagT (M + 1) b x n :=
  sum_congr rfl fun j _ => if_congr ⟨And.left, fun h => ⟨h, by omega⟩⟩ rfl rfl

/-- For constant coefficients: both filters have the same series. -/
theorem pairing_series {N P : Nat} {a : Nat → α} {b : PowerSeries α} {x u y w : Nat → α} (hN : 0 < N)
    (hy : PowerSeries.mk (denom P a) * PowerSeries.mk y = b * PowerSeries.mk x)
    (hw : PowerSeries.mk (denom P a) * PowerSeries.mk (fun n => star (w n)) = b * PowerSeries.mk fun n => star (u n)) :
    pairing N u y = pairing N w x := by
  have h : PowerSeries.mk (fun n => star (u n)) * PowerSeries.mk y = PowerSeries.mk (fun n => star (w n)) * PowerSeries.mk x := by
    refine (denom_isUnit P a).mul_left_cancel ?_
    linear_combination (PowerSeries.mk fun n => star (u n)) * hy - (PowerSeries.mk x) * hw
  rw [← mk_conv, ← mk_conv] at h
  have h2 := congrFun (mk_inj h) (N - 1)
  unfold conv at h2
  rw [Nat.sub_add_cancel hN] at h2
  have e : ∀ u y : Nat → α, pairing N u y = ∑ k ∈ range N, star (u k) * y (N - 1 - k) := by
    intro u y
    rw [← sum_range_reflect]
    exact sum_congr rfl fun n hn => by rw [show N - 1 - (N - 1 - n) = n by have := mem_range.1 hn; omega]
  rw [e, e]
  exact h2

theorem taps_starred {K : Nat} (c : Bool) (b : Nat → α) (x : Int → α) (n : Int) :
    star (taps K (Phil.Lti.conjIf (!c) b) x n) = taps K (Phil.Lti.conjIf c b) (fun n => star (x n)) n := by
  unfold taps
  rw [star_sum]
  refine sum_congr rfl fun k _ => ?_
  rw [star_mul']
  cases c
  · rw [Phil.Lti.conjIf, Phil.Lti.conjIf, if_pos (by rfl), if_neg (by simp), star_star]
  · rw [Phil.Lti.conjIf, Phil.Lti.conjIf, if_neg (by simp), if_pos rfl]

theorem star_causal (x : Nat → α) (n : Int) : star (causal x n) = causal (fun t => star (x t)) n := by
  unfold causal; split_ifs
  · exact star_zero _
  · rfl

/-- Two filters with constant coefficients, of which exactly one conjugates the numerator and exactly one the denominator. -/
theorem pairing_diff {N K P : Nat} {c d : Bool} {b a x u : Nat → α} {y w : Int → α} (hN : 0 < N) (hy0 : ∀ n, n < 0 → y n = 0)
    (hy : ∀ n, y n = taps K (Phil.Lti.conjIf c b) (causal x) n - taps P (Phil.Lti.conjIf d a) y (n - 1))
    (hw0 : ∀ n, n < 0 → w n = 0)
    (hw : ∀ n, w n = taps K (Phil.Lti.conjIf (!c) b) (causal u) n - taps P (Phil.Lti.conjIf (!d) a) w (n - 1)) :
    pairing N u (fun n => y n) = pairing N (fun n => w n) x := by
  refine pairing_series hN (diffEq_conv hy0 hy) (diffEq_conv (y := fun n => star (w n)) (fun n hn => ?_) fun n => ?_)
  · rw [hw0 n hn, star_zero]
  · rw [hw n, star_sub, taps_starred, taps_starred]
    simp only [star_causal]

/-- Direct form II and its transpose. -/
theorem pairing_df2 {N K P M : Nat} (hM : 0 < M) (hK : K ≤ M + 1) (b a : Nat → Nat → α) (x u : Nat → α) :
    pairing N u (fun n => taps K (b n) (tvSignal M (fun t => zext P (a t)) (fun _ => 0) x) n) =
      pairing N (fun n => tvTdf2Out M (fun t k => star (zext K (b (N - 1 - t)) k)) (fun t k => star (zext P (a (N - 1 - t)) k))
        (fun _ => 0) u n) x := by
  have h0 : ∀ n : Int, n < 0 → tvSignal M (fun t => zext P (a t)) (fun _ => 0) x n = 0 := fun n hn => by
    rw [tvSignal, withPast, if_pos hn]
  have e : ∀ n : Nat, taps K (b n) (tvSignal M (fun t => zext P (a t)) (fun _ => 0) x) n =
      lagD (M + 1) (fun n => zext K (b n)) (fun t => tvSignal M (fun t => zext P (a t)) (fun _ => 0) x t) n := fun n => by
    rw [← lagD_taps (M + 1) (fun n => zext K (b n)) h0, taps_zext hK]
  simp only [e]
  rw [pairing_lag N (M + 1) (g' := fun t k => star (zext K (b (N - 1 - t)) k)) fun n hn j => rfl]
  refine pairing_feedback N (M + 1) (feedback_star (a := fun t => zext P (a t)) fun n hn j => rfl) (fun n hn => ?_) fun n hn => ?_
  · rw [tv_signal hM, lagD_feedback M (fun t => zext P (a t)) h0]
  · rw [tvTdf2_rest hM, lagT_feedback M (fun t k => star (zext P (a (N - 1 - t)) k))
      (fun n => tvTdf2Out M (fun t k => star (zext K (b (N - 1 - t)) k)) (fun t k => star (zext P (a (N - 1 - t)) k)) (fun _ => 0) u n)]
    rfl

/-- The all-pole filter and its transpose. -/
theorem pairing_allpole {N P : Nat} (hP : 0 < P) (a : Nat → Nat → α) (x u : Nat → α) :
    pairing N u (fun n => tvSignal P (fun t => zext P (a t)) (fun _ => 0) x n) =
      pairing N (fun n => tvTdf2Out P unitTaps (fun t k => star (a (N - 1 - t) k)) (fun _ => 0) u n) x := by
  have h0 : ∀ n : Int, n < 0 → tvSignal P (fun t => zext P (a t)) (fun _ => 0) x n = 0 := fun n hn => by
    rw [tvSignal, withPast, if_pos hn]
  refine pairing_feedback N (P + 1) (feedback_star (a := a) fun n hn j => rfl) (fun n hn => ?_) fun n hn => ?_
  · rw [tv_signal hP, ← lagD_feedback P a h0]
    exact congrArg _ (sum_congr rfl fun k hk => by rw [zext, if_pos (mem_range.1 hk)])
  · rw [tvTdf2_rest hP, lagT_feedback P (fun t k => star (a (N - 1 - t) k))
      (fun n => tvTdf2Out P unitTaps (fun t k => star (a (N - 1 - t) k)) (fun _ => 0) u n)]
    congr 1
    rw [sum_range_succ', sum_eq_zero fun j _ => by simp [unitTaps], zero_add]
    simp [unitTaps]

/-- Direct form I and its transpose. -/
theorem pairing_df1 {N M P : Nat} (hP : 0 < P) (b a : Nat → Nat → α) (x u : Nat → α) :
    pairing N u (fun n => tvSignal P (fun t => zext P (a t)) (fun _ => 0) (fun t => taps (M + 1) (b t) (causal x) t) n) =
      pairing N (fun n => tvConv N M (fun t k => star (b (N - 1 - t) k))
        (fun n => tvTdf2Out P unitTaps (fun t k => star (a (N - 1 - t) k)) (fun _ => 0) u n) n) x := by
  rw [pairing_allpole hP]
  have e : (fun t : Nat => taps (M + 1) (b t) (causal x) t) = lagD (M + 1) b x := funext fun t => lagD_causal ..
  rw [e, pairing_lag N (M + 1) (g' := fun t k => star (b (N - 1 - t) k)) fun n hn j => rfl]
  exact pairing_congr (fun n hn => (tvConv_lagT _ _ hn).symm) fun _ _ => rfl

/-- The scalar recurrence. -/
theorem pairing_rec {N : Nat} (hN : 0 < N) {a a' : Nat → α} (ha : ∀ n, n + 1 < N → a' (n + 1) = star (a (N - 1 - n))) (i i' : α) (x u : Nat → α) :
    pairing N u (fun n => scalarRec a i x (n + 1)) + star (a' 0 * i') * scalarRec a i x N =
      pairing N (fun n => scalarRec a' i' u (n + 1)) x + star (scalarRec a' i' u N) * (a 0 * i) := by
  set Y := scalarRec a i x with hY
  set W := scalarRec a' i' u with hW
  let e : Nat → α := fun n => if n < N then a n else star (a' 0)
  have key : ∀ n, n < N → star (u (N - 1 - n)) * Y (n + 1) - star (W (N - 1 - n + 1)) * x n =
      star (W (N - n)) * (e n * Y n) - star (W (N - (n + 1))) * (e (n + 1) * Y (n + 1)) := by
    intro n hn
    have h1 : Y (n + 1) = a n * Y n + x n := rfl
    have h2 : W (N - 1 - n + 1) = a' (N - 1 - n) * W (N - 1 - n) + u (N - 1 - n) := rfl
    have h3 : star (a' (N - 1 - n)) = e (n + 1) := by
      by_cases h : n + 1 < N
      · simp only [e]
        rw [if_pos h, show N - 1 - n = N - 2 - n + 1 by omega, ha _ (by omega), star_star]
        congr 1; omega
      · simp only [e]
        rw [if_neg h, show N - 1 - n = 0 by omega]
    have h4 : e n = a n := if_pos hn
    rw [show N - n = N - 1 - n + 1 by omega, show N - (n + 1) = N - 1 - n by omega, ← h3, h4, h2, star_add, star_mul', h1]
    ring
  have s : pairing N u (fun n => Y (n + 1)) - pairing N (fun n => W (n + 1)) x =
      star (W N) * (e 0 * Y 0) - star (W 0) * (e N * Y N) := by
    unfold pairing
    rw [← sum_sub_distrib, sum_congr rfl fun n hn => key n (mem_range.1 hn),
      sum_range_sub' (fun n => star (W (N - n)) * (e n * Y n)), Nat.sub_zero, Nat.sub_self]
  have e0 : e 0 = a 0 := if_pos hN
  have eN : e N = star (a' 0) := if_neg (lt_irrefl N)
  rw [e0, eN] at s
  have hY0 : Y 0 = i := rfl
  have hW0 : W 0 = i' := rfl
  rw [hY0, hW0] at s
  rw [star_mul']
  linear_combination s

theorem bilin (Q M : Nat) (u h : Nat → α) (c : Nat → Nat → α) :
    ∑ q ∈ range Q, star (u q) * ∑ m ∈ range M, c q m * h m = ∑ m ∈ range M, star (∑ q ∈ range Q, star (c q m) * u q) * h m := by
  simp only [mul_sum, star_sum, sum_mul]
  rw [sum_comm]
  exact sum_congr rfl fun m _ => sum_congr rfl fun q _ => by rw [star_mul', star_star]; ring

/-- The state recursion with any number of inputs and outputs. -/
theorem pairing_states {N M F Q : Nat} {A A' Bm Bm' C C' D D' : Nat → Nat → Nat → α} {z z' : Nat → α} {x u y w h g : Nat → Nat → α}
    (hA : ∀ n i j, n < N → A' n i j = star (A (N - 1 - n) j i)) (hB : ∀ n i j, n < N → Bm' n i j = star (Bm (N - 1 - n) j i))
    (hC : ∀ n i j, n < N → C' n i j = star (C (N - 1 - n) j i)) (hD : ∀ n i j, n < N → D' n i j = star (D (N - 1 - n) j i))
    (h0 : ∀ m, h 0 m = z m) (hs : ∀ n m, h (n + 1) m = ∑ k ∈ range M, A n m k * h n k + ∑ f ∈ range F, Bm n m f * x n f)
    (hy : ∀ n q, y n q = ∑ m ∈ range M, C n q m * h n m + ∑ f ∈ range F, D n q f * x n f)
    (g0 : ∀ m, g 0 m = z' m) (gs : ∀ n m, g (n + 1) m = ∑ k ∈ range M, A' n m k * g n k + ∑ q ∈ range Q, C' n m q * u n q)
    (gy : ∀ n f, w n f = ∑ m ∈ range M, Bm' n f m * g n m + ∑ q ∈ range Q, D' n f q * u n q) :
    ∑ n ∈ range N, ∑ q ∈ range Q, star (u (N - 1 - n) q) * y n q + ∑ m ∈ range M, star (z' m) * h N m =
      ∑ n ∈ range N, ∑ f ∈ range F, star (w (N - 1 - n) f) * x n f + ∑ m ∈ range M, star (g N m) * z m := by
  have key : ∀ n, n < N → ∑ q ∈ range Q, star (u (N - 1 - n) q) * y n q - ∑ f ∈ range F, star (w (N - 1 - n) f) * x n f =
      ∑ m ∈ range M, star (g (N - n) m) * h n m - ∑ m ∈ range M, star (g (N - (n + 1)) m) * h (n + 1) m := by
    intro n hn
    have r : N - 1 - (N - 1 - n) = n := by omega
    rw [show N - n = N - 1 - n + 1 by omega, show N - (n + 1) = N - 1 - n by omega]
    simp only [hy, hs, gs, gy, mul_add, star_add, add_mul, sum_add_distrib]
    simp only [hA _ _ _ (show N - 1 - n < N by omega), hB _ _ _ (show N - 1 - n < N by omega), hC _ _ _ (show N - 1 - n < N by omega),
      hD _ _ _ (show N - 1 - n < N by omega), r]
    rw [bilin Q M, bilin Q F, bilin M M, bilin M F]
    ring
  have s : ∑ n ∈ range N, ∑ q ∈ range Q, star (u (N - 1 - n) q) * y n q - ∑ n ∈ range N, ∑ f ∈ range F, star (w (N - 1 - n) f) * x n f =
      ∑ m ∈ range M, star (g N m) * h 0 m - ∑ m ∈ range M, star (g 0 m) * h N m := by
    rw [← sum_sub_distrib, sum_congr rfl fun n hn => key n (mem_range.1 hn),
      sum_range_sub' (fun n => ∑ m ∈ range M, star (g (N - n) m) * h n m), Nat.sub_zero, Nat.sub_self]
  simp only [h0, g0] at s
  linear_combination s

end Spec
