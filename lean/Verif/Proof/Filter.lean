import Verif.Spec.Filter
import Verif.Spec.Companion
import Verif.Spec.Recur
import Mathlib.Algebra.BigOperators.Ring.Finset
import Mathlib.Algebra.Star.Basic

/-! # Filters as state recursions (no tensors) -/

namespace Spec
open Finset
variable {α : Type} [CommRing α]

theorem causal_neg {x : Nat → α} {n : Int} (h : n < 0) : causal x n = 0 := if_pos h

theorem causal_nat (x : Nat → α) (n : Nat) : causal x n = x n := by simp [causal]

theorem causal_sub (x : Nat → α) (n k : Nat) : causal x ((n : Int) - k) = if k ≤ n then x (n - k) else 0 := by
  unfold causal
  by_cases h : k ≤ n
  · rw [if_neg (by omega), if_pos h]; congr 1; omega
  · rw [if_pos (by omega), if_neg h]

theorem comp_mv {M : Nat} (a h : Nat → α) {i : Nat} (hi : i < M) :
    ∑ k ∈ range M, comp a i k * h k = if i = 0 then -∑ k ∈ range M, a k * h k else h (i - 1) := by
  unfold comp
  by_cases h0 : i = 0
  · simp [h0]
  · simp only [if_neg h0]
    rw [sum_eq_single (i - 1)]
    · rw [if_pos (by omega), one_mul]
    · intro k _ hk; rw [if_neg (by omega), zero_mul]
    · intro hn; exact absurd (mem_range.mpr (by omega)) hn

theorem comp_mv_transpose {M : Nat} (a h : Nat → α) {i : Nat} (hi : i < M) :
    ∑ k ∈ range M, comp a k i * h k = -(a i * h 0) + if i + 1 < M then h (i + 1) else 0 := by
  obtain ⟨m, rfl⟩ : ∃ m, M = m + 1 := ⟨M - 1, by omega⟩
  rw [sum_range_succ', add_comm]
  congr 1
  · simp [comp]
  · unfold comp
    by_cases h1 : i + 1 < m + 1
    · rw [if_pos h1, sum_eq_single i]
      · simp
      · intro k _ hk; rw [if_neg (by omega), if_neg (by omega), zero_mul]
      · intro hn; exact absurd (mem_range.mpr (by omega)) hn
    · rw [if_neg h1]
      refine sum_eq_zero fun k hk => ?_
      have := mem_range.1 hk
      rw [if_neg (by omega), if_neg (by omega), zero_mul]

theorem zext_lt {K : Nat} (f : Nat → α) {j : Nat} (h : j < K) : zext K f j = f j := if_pos h

theorem sum_zext {K M : Nat} (h : K ≤ M) (f g : Nat → α) :
    ∑ j ∈ range M, zext K f j * g j = ∑ j ∈ range K, f j * g j := by
  rw [← sum_subset (range_subset_range.2 h)]
  · exact sum_congr rfl fun j hj => by rw [zext_lt f (mem_range.1 hj)]
  · intro j _ hj
    rw [zext, if_neg (by simpa using hj), zero_mul]

theorem taps_zext {K M : Nat} (h : K ≤ M) (b : Nat → α) (x : Int → α) (n : Int) :
    taps M (zext K b) x n = taps K b x n := sum_zext h _ _

theorem taps_succ {K : Nat} (b : Nat → α) (x : Int → α) (n : Int) :
    taps (K + 1) b x n = b 0 * x n + ∑ j ∈ range K, b (j + 1) * x (n - 1 - j) := by
  unfold taps
  rw [sum_range_succ', add_comm]
  refine congrArg₂ (· + ·) (by simp) (sum_congr rfl fun j _ => ?_)
  congr 2; push_cast; ring

/-- Taps of a causal signal are causal. -/
theorem taps_neg {K : Nat} {b : Nat → α} {x : Int → α} (hx : ∀ n, n < 0 → x n = 0) {n : Int} (hn : n < 0) :
    taps K b x n = 0 := sum_eq_zero fun j _ => by rw [hx _ (by omega), mul_zero]

/-- The scalar input of the first state. -/
def first (x : Nat → α) : Nat → Nat → α := fun t k => if k = 0 then x t else 0

/-- The signal whose last `M` values are the state of direct form II. -/
def dfSignal (M : Nat) (a z x : Nat → α) : Int → α :=
  withPast z fun n => vecRec M (fun _ => comp a) z (first x) (n + 1) 0

/-- Direct form II: the state holds the last `M` values of the internal signal. -/
theorem df_state {M : Nat} (a z x : Nat → α) (t : Nat) {i : Nat} (hi : i < M) :
    vecRec M (fun _ => comp a) z (first x) t i = dfSignal M a z x ((t : Int) - 1 - i) := by
  induction t generalizing i with
  | zero =>
    rw [dfSignal, withPast, if_pos (by omega)]
    simp only [vecRec]; congr 1; omega
  | succ t ih =>
    cases i with
    | zero =>
      rw [dfSignal, withPast, if_neg (by push_cast; omega)]
      congr 1; push_cast; omega
    | succ i =>
      simp only [vecRec]
      rw [comp_mv a _ hi, if_neg (by omega), Nat.add_sub_cancel, ih (by omega), first, if_neg (by omega), add_zero]
      congr 1; push_cast; ring

/-- The internal signal of direct form II. -/
theorem df_signal {M : Nat} (hM : 0 < M) (a z x : Nat → α) (n : Nat) :
    dfSignal M a z x n = x n - ∑ k ∈ range M, a k * dfSignal M a z x ((n : Int) - 1 - k) := by
  have h := df_state (M := M) a z x (n + 1) hM
  have e : ((n + 1 : Nat) : Int) - 1 - (0 : Nat) = n := by push_cast; ring
  rw [e] at h
  rw [← h]
  simp only [vecRec]
  rw [comp_mv a _ hM, if_pos rfl, first, if_pos rfl]
  rw [sum_congr rfl fun k hk => by rw [df_state a z x n (mem_range.1 hk)]]
  ring

theorem dfSignal_past {M : Nat} (a z x : Nat → α) (i : Nat) : dfSignal M a z x (-1 - i) = z i := by
  rw [dfSignal, withPast, if_pos (by omega)]; congr 1; omega

/-- Output of direct form II in terms of the internal signal. -/
theorem df_output {M : Nat} (hM : 0 < M) (b a z x : Nat → α) (n : Nat) :
    ∑ m ∈ range M, (b (m + 1) - b 0 * a m) * vecRec M (fun _ => comp a) z (first x) n m + b 0 * x n =
      taps (M + 1) b (dfSignal M a z x) n := by
  rw [taps_succ, df_signal hM, sum_congr rfl fun m hm => by rw [df_state a z x n (mem_range.1 hm)]]
  simp only [sub_mul, sum_sub_distrib, mul_sub, mul_sum, mul_assoc]
  ring

theorem zext_star [StarRing α] (K : Nat) (f : Nat → α) : (fun k => star (zext K f k)) = zext K fun k => star (f k) := by
  funext k
  unfold zext
  by_cases hk : k < K
  · simp only [if_pos hk]
  · simp only [if_neg hk, star_zero]

/-- The internal signal of direct form II at rest, on the whole time axis. -/
theorem df_rest {M P : Nat} (hM : 0 < M) (hP : P ≤ M) (a x : Nat → α) (n : Int) :
    dfSignal M (zext P a) (fun _ => 0) x n = causal x n - taps P a (dfSignal M (zext P a) (fun _ => 0) x) (n - 1) := by
  have h0 : ∀ n : Int, n < 0 → dfSignal M (zext P a) (fun _ => 0) x n = 0 := fun n hn => by
    rw [dfSignal, withPast, if_pos hn]
  by_cases hn : n < 0
  · rw [h0 n hn, causal_neg hn, taps_neg h0 (by omega), sub_zero]
  · lift n to ℕ using by omega
    rw [df_signal hM, causal_nat, ← taps_zext hP, taps]

/-- A chain of delays with taps `c`: closed form. -/
theorem chain_state {M : Nat} {z : Nat → Nat → α} {c : Nat → Nat → α}
    (h : ∀ t i, i < M → z (t + 1) i = c t i + if i + 1 < M then z t (i + 1) else 0) (t : Nat) {i : Nat} (hi : i < M) :
    z t i = ∑ m ∈ range t, (if i + m < M then c (t - 1 - m) (i + m) else 0) + if i + t < M then z 0 (i + t) else 0 := by
  induction t generalizing i with
  | zero => simp [hi]
  | succ t ih =>
    rw [h t i hi, sum_range_succ', add_comm (∑ k ∈ range t, _), add_assoc]
    refine congrArg₂ (· + ·) (by simp [hi]) ?_
    by_cases h1 : i + 1 < M
    · rw [if_pos h1, ih h1]
      refine congrArg₂ (· + ·) (sum_congr rfl fun m hm => ?_) ?_
      · rw [show i + 1 + m = i + (m + 1) by ring, show t - 1 - m = t + 1 - 1 - (m + 1) by omega]
      · rw [show i + 1 + t = i + (t + 1) by ring]
    · rw [if_neg h1, if_neg (by omega), sum_eq_zero, add_zero]
      intro m _; rw [if_neg (by omega)]

theorem sum_window (M n : Nat) (g : Nat → α) :
    ∑ m ∈ range n, (if m < M then g m else 0) = ∑ m ∈ range M, if m < n then g m else 0 := by
  rw [← sum_filter, ← sum_filter]
  congr 1
  ext m; simp [and_comm]

/-- The delay line of a transposed FIR filter. -/
def delayLine (M : Nat) (b z x : Nat → α) : Nat → Nat → α
  | 0, m => z m
  | n + 1, m => b (m + 1) * x n + if m + 1 < M then delayLine M b z x n (m + 1) else 0

theorem delayLine_eq {M : Nat} (b z x : Nat → α) (t : Nat) {i : Nat} (hi : i < M) :
    delayLine M b z x t i = ∑ m ∈ range t, (if i + m < M then b (i + m + 1) * x (t - 1 - m) else 0) +
      if i + t < M then z (i + t) else 0 :=
  chain_state (z := delayLine M b z x) (c := fun t i => b (i + 1) * x t) (fun _ _ _ => rfl) t hi

theorem delayLine_out {M : Nat} (hM : 0 < M) (b z x : Nat → α) (n : Nat) :
    b 0 * x n + delayLine M b z x n 0 = taps (M + 1) b (causal x) n + if n < M then z n else 0 := by
  rw [delayLine_eq b z x n hM, taps_succ, causal_nat, add_assoc]
  simp only [zero_add]
  rw [sum_window]
  refine congrArg₂ (· + ·) rfl (congrArg₂ (· + ·) (sum_congr rfl fun m hm => ?_) rfl)
  have e : (n : Int) - 1 - m = (n : Int) - ((m + 1 : Nat) : Int) := by push_cast; ring
  rw [e, causal_sub]
  by_cases h : m < n
  · rw [if_pos h, if_pos (by omega), show n - 1 - m = n - (m + 1) by omega]
  · rw [if_neg h, if_neg (by omega), mul_zero]

/-- The transposed direct form II delay line, started from `z`. -/
def tdf2State (M : Nat) (b a z x : Nat → α) : Nat → Nat → α :=
  vecRec M (fun _ i j => comp a j i) z fun t i => (b (i + 1) - b 0 * a i) * x t

def tdf2Out (M : Nat) (b a z x : Nat → α) (n : Nat) : α := tdf2State M b a z x n 0 + b 0 * x n

/-- The textbook update of the delay line. -/
theorem tdf2_step {M : Nat} (b a z x : Nat → α) (t : Nat) {i : Nat} (hi : i < M) :
    tdf2State M b a z x (t + 1) i = (b (i + 1) * x t - a i * tdf2Out M b a z x t) +
      if i + 1 < M then tdf2State M b a z x t (i + 1) else 0 := by
  unfold tdf2Out
  conv_lhs => rw [tdf2State]; simp only [vecRec]
  rw [← tdf2State, comp_mv_transpose a _ hi]
  ring

/-- With zero initial state the transposed direct form II computes the difference equation. -/
theorem tdf2_diff {M : Nat} (hM : 0 < M) (b a x : Nat → α) (n : Nat) :
    tdf2Out M b a (fun _ => 0) x n = taps (M + 1) b (causal x) n -
      taps M a (causal (tdf2Out M b a (fun _ => 0) x)) (n - 1) := by
  have h := chain_state (fun t i hi => tdf2_step b a (fun _ => 0) x t hi) n hM
  simp only [zero_add] at h
  have h0 : ∀ i, tdf2State M b a (fun _ => 0) x 0 i = 0 := fun _ => rfl
  rw [taps_succ, causal_nat]
  conv_lhs => rw [tdf2Out, h, h0]
  rw [ite_self, add_zero, sum_window, taps, add_sub_assoc, ← sum_sub_distrib, add_comm]
  refine congrArg₂ (· + ·) rfl (sum_congr rfl fun m hm => ?_)
  have e : (n : Int) - 1 - m = (n : Int) - ((m + 1 : Nat) : Int) := by push_cast; ring
  rw [e, causal_sub, causal_sub]
  by_cases h1 : m < n
  · rw [if_pos h1, if_pos (by omega), if_pos (by omega), show n - (m + 1) = n - 1 - m by omega]
  · rw [if_neg h1, if_neg (by omega), if_neg (by omega)]; ring

/-- The all-pole recursion through the transposed companion matrix (zero initial state). -/
theorem tallpole {M : Nat} (hM : 0 < M) (a x : Nat → α) (n : Nat) :
    vecRec M (fun _ i j => comp a j i) (fun _ => 0) (first x) (n + 1) 0 = x n -
      taps M a (causal fun t => vecRec M (fun _ i j => comp a j i) (fun _ => 0) (first x) (t + 1) 0) (n - 1) := by
  have step : ∀ t i, i < M → vecRec M (fun _ i j => comp a j i) (fun _ => 0) (first x) (t + 1) i =
      (first x t i - a i * vecRec M (fun _ i j => comp a j i) (fun _ => 0) (first x) t 0) +
      if i + 1 < M then vecRec M (fun _ i j => comp a j i) (fun _ => 0) (first x) t (i + 1) else 0 := by
    intro t i hi
    conv_lhs => simp only [vecRec]
    rw [comp_mv_transpose a _ hi]
    ring
  have h := chain_state step (n + 1) hM
  simp only [zero_add, Nat.add_sub_cancel] at h
  rw [h, show (if n + 1 < M then vecRec M (fun _ i j => comp a j i) (fun _ => 0) (first x) 0 (n + 1) else 0) = 0 by
    simp [vecRec], add_zero, sum_window, taps]
  have e : ∀ m, (if m < n + 1 then first x (n - m) m -
      a m * vecRec M (fun _ i j => comp a j i) (fun _ => 0) (first x) (n - m) 0 else 0) =
      (if m = 0 then x n else 0) -
      a m * causal (fun t => vecRec M (fun _ i j => comp a j i) (fun _ => 0) (first x) (t + 1) 0) ((n : Int) - 1 - m) := by
    intro m
    have e : (n : Int) - 1 - m = (n : Int) - ((m + 1 : Nat) : Int) := by push_cast; ring
    rw [e, causal_sub]
    by_cases h1 : m < n + 1
    · rw [if_pos h1, first]
      by_cases h2 : m + 1 ≤ n
      · rw [if_pos h2, show n - (m + 1) + 1 = n - m by omega]
        by_cases h0 : m = 0
        · subst h0; simp
        · simp [h0]
      · rw [if_neg h2, show n - m = 0 by omega]
        by_cases h0 : m = 0
        · subst h0
          have : n = 0 := by omega
          subst this; simp [vecRec]
        · simp [h0, vecRec]
    · rw [if_neg h1, if_neg (by omega), if_neg (by omega)]; ring
  rw [sum_congr rfl fun m _ => e m, sum_sub_distrib, sum_ite_eq' (range M) 0, if_pos (mem_range.2 hM)]

/-- Numerator after denominator: if `w` is the all-pole signal then its taps satisfy the difference equation. -/
theorem taps_allpole {K P : Nat} {b a : Nat → α} {x w : Int → α} (hw : ∀ n, w n = x n - taps P a w (n - 1)) (n : Int) :
    taps K b w n = taps K b x n - taps P a (taps K b w) (n - 1) := by
  have : taps P a (taps K b w) (n - 1) = taps K b (fun m => taps P a w (m - 1)) n := by
    unfold taps
    simp only [mul_sum]
    rw [sum_comm]
    refine sum_congr rfl fun j _ => sum_congr rfl fun k _ => ?_
    rw [show n - 1 - (k : Int) - j = n - j - 1 - k by ring]; ring
  rw [this]
  unfold taps
  rw [← sum_sub_distrib]
  refine sum_congr rfl fun j _ => ?_
  rw [hw (n - j)]; unfold taps; ring

/-- Causal signals that agree from time 0 on. -/
theorem eq_causal {x : Nat → α} {w : Int → α} (h0 : ∀ n, n < 0 → w n = 0) (h : ∀ n : Nat, w n = x n) : w = causal x := by
  funext n
  unfold causal
  split
  · exact h0 n ‹_›
  · rw [← h n.toNat]; congr 1; omega

/-- The difference equation determines the output. -/
theorem diffEq_unique {P : Nat} {a : Nat → α} {v y y' : Int → α} (h0 : ∀ n, n < 0 → y n = y' n)
    (hy : ∀ n, 0 ≤ n → y n = v n - taps P a y (n - 1)) (hy' : ∀ n, 0 ≤ n → y' n = v n - taps P a y' (n - 1)) : y = y' := by
  have key : ∀ m : Nat, ∀ n : Int, n < m → y n = y' n := by
    intro m
    induction m with
    | zero => intro n hn; exact h0 n (by omega)
    | succ m ih =>
      intro n hn
      by_cases h : n < 0
      · exact h0 n h
      · rw [hy n (by omega), hy' n (by omega)]
        congr 1
        exact sum_congr rfl fun k _ => by rw [ih _ (by omega)]
  funext n
  exact key (n.toNat + 1) n (by omega)

end Spec
