import Verif.Spec.Stretch
import Verif.Proof.Modulate

/-!
# Stretched sequences: layouts and filters
-/

namespace Spec
open Torch Torch.Tensor Finset
variable {α : Type}

section layout
variable [Zero α]

/-- Entry `L * k + o` is `f k`, the others are zero. -/
def spread (L o : Nat) (f : Nat → α) (n : Nat) : α := if n % L = o then f (n / L) else 0

theorem div_lt_of_stretch {L n N : Nat} (h : n < L * N) : n / L < N := Nat.div_lt_of_lt_mul h

theorem stretched_t1 (L o n : Nat) (f : Nat → α) : stretched L o (t1 n f) = t1 (L * n) (spread L o f) := by
  refine ext1 rfl rfl fun i hi => ?_
  change i < L * n at hi
  rw [get_t1 hi, stretched, get_ofFn, if_pos (by simpa [inB, shape_t1] using hi)]
  show (if i % L = o then (t1 n f).get [i / L] else 0) = _
  rw [get_t1 (div_lt_of_stretch hi)]; rfl

theorem stretched_t2 (L o n m : Nat) (f : Nat → Nat → α) : stretched L o (t2 n m f) = t2 n (L * m) fun i => spread L o (f i) := by
  refine ext2 rfl rfl fun i j hi hj => ?_
  change j < L * m at hj
  rw [get_t2 hi hj, stretched, get_ofFn, if_pos (by simpa [inB, shape_t2] using ⟨hi, hj⟩)]
  show (if j % L = o then (t2 n m f).get [i, j / L] else 0) = _
  rw [get_t2 hi (div_lt_of_stretch hj)]; rfl

theorem stretched_t3 (L o n m p : Nat) (f : Nat → Nat → Nat → α) :
    stretched L o (t3 n m p f) = t3 n m (L * p) fun i t => spread L o (f i t) := by
  refine ext3 rfl rfl fun i j k hi hj hk => ?_
  change k < L * p at hk
  rw [get_t3 hi hj hk, stretched, get_ofFn, if_pos (by simpa [inB, shape_t3] using ⟨hi, hj, hk⟩)]
  show (if k % L = o then (t3 n m p f).get [i, j, k / L] else 0) = _
  rw [get_t3 hi hj (div_lt_of_stretch hk)]; rfl

theorem held_t2 (L n m : Nat) (f : Nat → Nat → α) : held L (t2 n m f) = t2 (L * n) m fun t => f (t / L) := by
  refine ext2 rfl rfl fun i j hi hj => ?_
  change i < L * n at hi
  change j < m at hj
  rw [get_t2 hi hj, held, get_ofFn, if_pos (by simpa [inB, shape_t2] using ⟨hi, hj⟩)]
  show (t2 n m f).get [i / L, j] = _
  rw [get_t2 (div_lt_of_stretch hi) hj]

theorem held_t3 (L n m p : Nat) (f : Nat → Nat → Nat → α) : held L (t3 n m p f) = t3 n (L * m) p fun i t => f i (t / L) := by
  refine ext3 rfl rfl fun i j k hi hj hk => ?_
  change j < L * m at hj
  change k < p at hk
  rw [get_t3 hi hj hk, held, get_ofFn, if_pos (by simpa [inB, shape_t3] using ⟨hi, hj, hk⟩)]
  show (t3 n m p f).get [i, j / L, k] = _
  rw [get_t3 hi (div_lt_of_stretch hj) hk]

theorem stretched_packed (L o : Nat) (fl : Bool) (B N : Nat) (f : Nat → Nat → α) :
    stretched L o (packed fl B N f) = packed fl B (L * N) fun i => spread L o (f i) := by
  unfold packed
  cases fl with
  | false => exact stretched_t2 ..
  | true => exact stretched_t1 ..

theorem stretched_rows {B K : Nat} {b : Tensor α} {bv : Nat → Nat → α} (h : Rows B K b bv) (L o : Nat) :
    Rows B (L * K) (stretched L o b) fun i => spread L o (bv i) := by
  cases h with
  | shared f => rw [stretched_t1]; exact .shared _
  | batched f => rw [stretched_t2]; exact .batched _

theorem stretched_sig {B N : Nat} {X : Tensor α} {x : Nat → Nat → α} (h : Sig N B X x) (L : Nat) :
    Sig (L * N) B (stretched L 0 X) fun i => spread L 0 (x i) := by
  cases h with
  | flat f => rw [stretched_t1]; exact .flat _
  | batched B f => rw [stretched_t2]; exact .batched _ _

theorem stretched_mat {B N K : Nat} {b : Tensor α} {bv : Nat → Nat → Nat → α} (h : MatVals B N K b bv) (L o : Nat) :
    MatVals B (L * N) (L * K) (stretched L o (held L b)) fun i t => spread L o (bv i (t / L)) := by
  cases h with
  | shared f => rw [held_t2, stretched_t2]; exact .shared _
  | batched f => rw [held_t3, stretched_t3]; exact .batched _

theorem stretched_rank {L o : Nat} {X : Tensor α} (h : 0 < X.rank) : (stretched L o X).rank = X.rank := by
  show (X.shape.dropLast ++ [L * X.shape.getLastD 0]).length = X.shape.length
  rw [List.length_append, List.length_dropLast, List.length_singleton]
  exact Nat.sub_add_cancel h

theorem stretchedBy_of {L : Nat} {c c' : Torch.Res (Tensor α × Option (Tensor α))} {y y' : Tensor α} {f₁ f₂ : Option (Tensor α)}
    (h : c = .ok (y, f₁)) (h' : c' = .ok (y', f₂)) (e : y' = stretched L 0 y) : StretchedBy L c c' :=
  ⟨y, f₁, f₂, h, e ▸ h'⟩

end layout

variable [CommRing α]

/-- A sum over entries that vanish except at `L * k + o`. -/
theorem sum_stretch {L o : Nat} (ho : o < L) (K : Nat) (g : Nat → α) (hg : ∀ j, j % L ≠ o → g j = 0) :
    ∑ j ∈ range (L * K), g j = ∑ k ∈ range K, g (L * k + o) := by
  induction K with
  | zero => simp
  | succ K ih =>
    rw [Nat.mul_succ, sum_range_add, ih, sum_range_succ]
    refine congrArg _ ((sum_eq_single o (fun i hi hio => hg _ ?_) fun h => absurd (mem_range.2 ho) h))
    rw [Nat.mul_add_mod, Nat.mod_eq_of_lt (mem_range.1 hi)]
    exact hio

theorem spread_at {L o : Nat} (ho : o < L) (f : Nat → α) (k : Nat) : spread L o f (L * k + o) = f k := by
  rw [spread, if_pos (by rw [Nat.mul_add_mod, Nat.mod_eq_of_lt ho]), Nat.mul_add_div (by omega), Nat.div_eq_of_lt ho, add_zero]

theorem spread_off {L o : Nat} (f : Nat → α) {j : Nat} (h : j % L ≠ o) : spread L o f j = 0 := if_neg h

/-- `x'` is `x` with `L - 1` zeros after each sample. -/
structure Str (L : Nat) (x x' : Int → α) : Prop where
  on : ∀ n, x' (L * n) = x n
  off : ∀ n, ¬ (L : Int) ∣ n → x' n = 0

theorem str_causal {L : Nat} (hL : 0 < L) {x x' : Nat → α} (h : ∀ t, x' t = spread L 0 x t) : Str L (causal x) (causal x') where
  on n := by
    unfold causal
    by_cases hn : n < 0
    · rw [if_pos hn, if_pos (by nlinarith)]
    · obtain ⟨m, rfl⟩ := Int.eq_ofNat_of_zero_le (not_lt.1 hn)
      rw [if_neg hn, if_neg (by have : (0 : Int) ≤ L * m := by positivity
                                omega), h]
      have := spread_at hL x m
      rwa [add_zero] at this
  off n hn := by
    unfold causal
    split_ifs with h0
    · rfl
    · obtain ⟨m, rfl⟩ := Int.eq_ofNat_of_zero_le (not_lt.1 h0)
      exact (h m).trans (spread_off _ fun hm => hn (Int.natCast_dvd_natCast.2 (Nat.dvd_of_mod_eq_zero hm)))

/-- Stretched taps applied to a stretched signal. -/
theorem str_taps {L K : Nat} (hL : 0 < L) (b : Nat → α) {x x' : Int → α} (h : Str L x x') :
    Str L (taps K b x) (taps (L * K) (spread L 0 b) x') where
  on n := by
    rw [taps, taps, sum_stretch hL K _ fun j hj => by rw [spread_off _ hj, zero_mul]]
    refine sum_congr rfl fun k _ => ?_
    rw [spread_at hL, add_zero, ← h.on]
    push_cast; ring_nf
  off n hn := by
    rw [taps, sum_stretch hL K _ fun j hj => by rw [spread_off _ hj, zero_mul]]
    refine sum_eq_zero fun k _ => ?_
    rw [h.off, mul_zero]
    rw [add_zero]; push_cast
    exact fun hd => hn ((dvd_sub_left (dvd_mul_right _ _)).1 hd)

/-- Time-varying taps: only the coefficients of the multiples of `L` matter. -/
theorem tv_taps_str {L K : Nat} (hL : 0 < L) (b : Nat → Nat → α) {x x' : Int → α} (h : Str L x x') (t : Nat) :
    taps (L * K) (spread L 0 (b (t / L))) x' t = spread L 0 (fun t => taps K (b t) x t) t := by
  unfold spread
  split_ifs with ht
  · obtain ⟨m, rfl⟩ := Nat.dvd_of_mod_eq_zero ht
    rw [Nat.mul_div_cancel_left _ hL]
    exact_mod_cast (str_taps hL (b m) h).on m
  · exact (str_taps hL _ h).off _ fun hd => ht (Nat.mod_eq_zero_of_dvd (Int.natCast_dvd_natCast.1 hd))

/-- Stretched difference equations. -/
theorem str_diff {L P : Nat} (hL : 0 < L) (a : Nat → Nat → α) {v v' : Nat → α} (hv : ∀ t, v' t = spread L 0 v t) {y y' : Int → α}
    (h0 : ∀ n : Int, n < 0 → y n = 0) (h0' : ∀ n : Int, n < 0 → y' n = 0)
    (h : ∀ n : Nat, y n = v n - ∑ j ∈ range P, a n j * y ((n : Int) - 1 - j))
    (h' : ∀ n : Nat, y' n = v' n - ∑ j ∈ range (L * P), spread L (L - 1) (a (n / L)) j * y' ((n : Int) - 1 - j)) : Str L y y' := by
  have key : ∀ n : Nat, y' n = spread L 0 (fun t => y t) n := by
    intro n
    induction n using Nat.strong_induction_on with
    | _ n ih =>
      rw [h', hv, sum_stretch (show L - 1 < L by omega) P _ fun j hj => by rw [spread_off _ hj, zero_mul]]
      have hs : ∀ k, (n : Int) - 1 - ((L * k + (L - 1) : Nat) : Int) = (n : Int) - ((L * (k + 1) : Nat) : Int) := fun k => by
        rw [show L * k + (L - 1) = L * (k + 1) - 1 by rw [Nat.mul_succ]; omega]
        have : 1 ≤ L * (k + 1) := Nat.mul_pos hL (by omega)
        omega
      have hprev : ∀ k, y' ((n : Int) - ((L * (k + 1) : Nat) : Int)) =
          if L * (k + 1) ≤ n then spread L 0 (fun t => y t) (n - L * (k + 1)) else 0 := fun k => by
        split_ifs with hk
        · rw [← ih _ (by have : 0 < L * (k + 1) := Nat.mul_pos hL (by omega); omega)]; congr 1; omega
        · exact h0' _ (by omega)
      simp only [spread_at (show L - 1 < L by omega), hs, hprev]
      unfold spread
      split_ifs with hn
      · obtain ⟨m, rfl⟩ := Nat.dvd_of_mod_eq_zero hn
        rw [Nat.mul_div_cancel_left _ hL]
        beta_reduce
        rw [h]
        refine congrArg _ (sum_congr rfl fun k _ => congrArg _ ?_)
        split_ifs with h1 h2
        · rw [← Nat.mul_sub, Nat.mul_div_cancel_left _ hL]
          have : k + 1 ≤ m := Nat.le_of_mul_le_mul_left h1 hL
          congr 1; omega
        · exact absurd (by rw [← Nat.mul_sub, Nat.mul_mod_right]) h2
        · rw [h0]
          have : ¬ k + 1 ≤ m := fun hk => h1 (Nat.mul_le_mul_left L hk)
          omega
      · rw [sum_eq_zero fun k _ => ?_, sub_zero]
        split_ifs with h1 h2
        · refine absurd ?_ hn
          obtain ⟨q, rfl⟩ := Nat.exists_eq_add_of_le h1
          rw [Nat.add_sub_cancel_left] at h2
          rw [Nat.mul_add_mod, h2]
        · rw [mul_zero]
        · rw [mul_zero]
  refine ⟨fun n => ?_, fun n hn => ?_⟩
  · by_cases hn : n < 0
    · rw [h0 n hn, h0' _ (by nlinarith)]
    · obtain ⟨m, rfl⟩ := Int.eq_ofNat_of_zero_le (not_lt.1 hn)
      have := (key (L * m + 0)).trans (spread_at hL _ m)
      simpa using this
  · by_cases h1 : n < 0
    · exact h0' n h1
    · obtain ⟨m, rfl⟩ := Int.eq_ofNat_of_zero_le (not_lt.1 h1)
      exact (key m).trans (spread_off _ fun hm => hn (Int.natCast_dvd_natCast.2 (Nat.dvd_of_mod_eq_zero hm)))

theorem Str.nat {L : Nat} (hL : 0 < L) {x x' : Int → α} (h : Str L x x') (t : Nat) : x' t = spread L 0 (fun t => x t) t := by
  unfold spread
  split_ifs with ht
  · obtain ⟨m, rfl⟩ := Nat.dvd_of_mod_eq_zero ht
    rw [Nat.mul_div_cancel_left _ hL]
    exact_mod_cast h.on m
  · exact h.off _ fun hd => ht (Nat.mod_eq_zero_of_dvd (Int.natCast_dvd_natCast.1 hd))

/-- A filter that multiplies the samples by the taps before delaying them. -/
theorem conv_spread {L K : Nat} (hL : 0 < L) (b : Nat → Nat → α) {x x' : Nat → α} (hx : ∀ t, x' t = spread L 0 x t) (n : Nat) :
    (∑ j ∈ range (L * K), if j ≤ n then spread L 0 (b ((n - j) / L)) j * x' (n - j) else 0) =
      spread L 0 (fun n => ∑ k ∈ range K, if k ≤ n then b (n - k) k * x (n - k) else 0) n := by
  rw [sum_stretch hL K _ fun j hj => by rw [spread_off _ hj, zero_mul, ite_self]]
  have e : ∀ (b : Nat → α) k, spread L 0 b (L * k) = b k := fun b k => by have := spread_at hL b k; rwa [add_zero] at this
  simp only [hx, add_zero, e]
  unfold spread
  split_ifs with hn
  · obtain ⟨m, rfl⟩ := Nat.dvd_of_mod_eq_zero hn
    rw [Nat.mul_div_cancel_left _ hL]
    refine sum_congr rfl fun k _ => ?_
    simp only [← Nat.mul_sub, Nat.mul_div_cancel_left _ hL, Nat.mul_mod_right, if_true, Nat.mul_le_mul_left_iff hL]
  · refine sum_eq_zero fun k _ => ?_
    split_ifs with h1 h2
    · refine absurd ?_ hn
      obtain ⟨q, rfl⟩ := Nat.exists_eq_add_of_le h1
      rw [Nat.add_sub_cancel_left] at h2
      rw [Nat.mul_add_mod, h2]
    · rw [mul_zero]
    · rfl

/-- Feedback that multiplies the output by the coefficients before delaying it. -/
theorem feedback_spread {L P : Nat} (hL : 0 < L) (a : Nat → Nat → α) {v v' y y' : Nat → α} (hv : ∀ t, v' t = spread L 0 v t)
    (h : ∀ n, y n = v n - ∑ m ∈ range P, if m < n then a (n - 1 - m) m * y (n - 1 - m) else 0)
    (h' : ∀ n, y' n = v' n - ∑ m ∈ range (L * P), if m < n then spread L (L - 1) (a ((n - 1 - m) / L)) m * y' (n - 1 - m) else 0)
    (n : Nat) : y' n = spread L 0 y n := by
  induction n using Nat.strong_induction_on with
  | _ n ih =>
    have hL1 : L - 1 < L := by omega
    rw [h', hv, sum_stretch hL1 P _ fun j hj => by rw [spread_off _ hj, zero_mul, ite_self]]
    have e : ∀ k, (if L * k + (L - 1) < n then spread L (L - 1) (a ((n - 1 - (L * k + (L - 1))) / L)) (L * k + (L - 1)) *
        y' (n - 1 - (L * k + (L - 1))) else 0) =
        if L * (k + 1) ≤ n then a ((n - L * (k + 1)) / L) k * spread L 0 y (n - L * (k + 1)) else 0 := by
      intro k
      have h2 : L * (k + 1) = L * k + L := Nat.mul_succ _ _
      by_cases hk : L * (k + 1) ≤ n
      · rw [if_pos hk, if_pos (by omega), spread_at hL1, show n - 1 - (L * k + (L - 1)) = n - L * (k + 1) by omega,
          ih _ (by omega)]
      · rw [if_neg hk, if_neg (by omega)]
    simp only [e]
    unfold spread
    split_ifs with hn
    · obtain ⟨m, rfl⟩ := Nat.dvd_of_mod_eq_zero hn
      rw [Nat.mul_div_cancel_left _ hL, h]
      refine congrArg _ (sum_congr rfl fun k _ => ?_)
      simp only [← Nat.mul_sub, Nat.mul_div_cancel_left _ hL, Nat.mul_mod_right, if_true, Nat.mul_le_mul_left_iff hL]
      exact if_congr Nat.succ_le_iff (by rw [show m - 1 - k = m - (k + 1) by omega]) rfl
    · rw [sum_eq_zero fun k _ => ?_, sub_zero]
      split_ifs with h1 h2
      · refine absurd ?_ hn
        obtain ⟨q, rfl⟩ := Nat.exists_eq_add_of_le h1
        rw [Nat.add_sub_cancel_left] at h2
        rw [Nat.mul_add_mod, h2]
      · rw [mul_zero]
      · rfl

/-- Transposed direct form II with time-varying coefficients, from rest. -/
theorem tvTdf2_rest {M : Nat} (hM : 0 < M) (b a : Nat → Nat → α) (x : Nat → α) (n : Nat) :
    tvTdf2Out M b a (fun _ => 0) x n = (∑ j ∈ range (M + 1), if j ≤ n then b (n - j) j * x (n - j) else 0) -
      ∑ m ∈ range M, if m < n then a (n - 1 - m) m * tvTdf2Out M b a (fun _ => 0) x (n - 1 - m) else 0 := by
  rw [tvTdf2Out, chain_state (c := fun t i => b t (i + 1) * x t - a t i * tvTdf2Out M b a (fun _ => 0) x t)
    (fun t i hi => tvTdf2_step b a _ x t hi) n hM, show tvTdf2State M b a (fun _ => 0) x 0 (0 + n) = 0 from rfl, ite_self, add_zero,
    sum_range_succ', if_pos (Nat.zero_le n), Nat.sub_zero]
  simp only [zero_add]
  rw [sum_window, add_sub_right_comm, ← sum_sub_distrib]
  refine congrArg (· + _) (sum_congr rfl fun m _ => ?_)
  by_cases h : m < n
  · rw [if_pos h, if_pos (Nat.succ_le_iff.2 h), if_pos h, show n - (m + 1) = n - 1 - m by omega]
  · rw [if_neg h, if_neg (by omega), if_neg h, sub_zero]

theorem zext_spread {L o : Nat} (hL : 0 < L) (P : Nat) (f : Nat → α) : zext (L * P) (spread L o f) = spread L o (zext P f) := by
  funext n
  unfold zext spread
  beta_reduce
  by_cases h : n < L * P
  · rw [if_pos h, if_pos (Nat.div_lt_of_lt_mul h)]
  · have h2 : ¬ n / L < P := fun h' => h (by rwa [Nat.div_lt_iff_lt_mul hL, mul_comm] at h')
    rw [if_neg h, if_neg h2, ite_self]

/-- A sum over taps that vanish from number `K` on. -/
theorem sum_cut {K M : Nat} (h : K ≤ M) (g : Nat → α) (hg : ∀ j, K ≤ j → g j = 0) : ∑ j ∈ range M, g j = ∑ j ∈ range K, g j :=
  (sum_subset (range_mono h) fun j _ hj => hg j (by simpa using hj)).symm

/-- The output of the transposed direct form II of a stretched filter. -/
theorem tdf2_spread {L K P M M' : Nat} (hL : 0 < L) (hM : 0 < M) (hM' : 0 < M') (hK : K ≤ M + 1) (hK' : L * K ≤ M' + 1) (hP : P ≤ M)
    (hP' : L * P ≤ M') {b b' a a' : Nat → Nat → α} (hb : ∀ t j, K ≤ j → b t j = 0) (ha : ∀ t j, P ≤ j → a t j = 0)
    (hb' : ∀ t, b' t = spread L 0 (b (t / L))) (ha' : ∀ t, a' t = spread L (L - 1) (a (t / L))) {x x' : Nat → α}
    (hx : ∀ t, x' t = spread L 0 x t) (n : Nat) :
    tvTdf2Out M' b' a' (fun _ => 0) x' n = spread L 0 (fun n => tvTdf2Out M b a (fun _ => 0) x n) n := by
  have z : ∀ {o Q : Nat} {f : Nat → α} (_ : ∀ j, Q ≤ j → f j = 0) (j : Nat), L * Q ≤ j → spread L o f j = 0 := by
    intro o Q f hf j hj
    unfold spread
    rw [hf _ ((Nat.le_div_iff_mul_le hL).2 (by rwa [mul_comm])), ite_self]
  refine feedback_spread hL a (v := fun n => ∑ j ∈ range K, if j ≤ n then b (n - j) j * x (n - j) else 0)
    (v' := fun n => ∑ j ∈ range (L * K), if j ≤ n then spread L 0 (b ((n - j) / L)) j * x' (n - j) else 0) (P := P)
    (fun n => conv_spread hL b hx n) (fun n => ?_) (fun n => ?_) n
  · rw [tvTdf2_rest hM, sum_cut hK _ fun j hj => by rw [hb _ _ hj, zero_mul, ite_self],
      sum_cut hP _ fun j hj => by rw [ha _ _ hj, zero_mul, ite_self]]
  · rw [tvTdf2_rest hM']
    simp only [hb', ha']
    rw [sum_cut hK' _ fun j hj => by rw [z (hb _) _ hj, zero_mul, ite_self],
      sum_cut hP' _ fun j hj => by rw [z (ha _) _ hj, zero_mul, ite_self]]

theorem tvConv_spread {L K N M M' : Nat} (hL : 0 < L) (hK : K = M + 1) (hK' : L * K = M' + 1) {b b' : Nat → Nat → α}
    (hb : ∀ t, b' t = spread L 0 (b (t / L))) {x x' : Nat → α} (hx : ∀ t, x' t = spread L 0 x t) {n : Nat} (hn : n < L * N) :
    tvConv (L * N) M' b' x' n = spread L 0 (fun n => tvConv N M b x n) n := by
  have e := conv_spread (K := K) hL b hx n
  have h1 : tvConv (L * N) M' b' x' n =
      ∑ j ∈ range (L * K), if j ≤ n then spread L 0 (b ((n - j) / L)) j * x' (n - j) else 0 := by
    rw [tvConv, hK']
    refine sum_congr rfl fun j _ => ?_
    rw [hb]
    exact if_congr ⟨And.left, fun h => ⟨h, by omega⟩⟩ rfl rfl
  rw [h1, e]
  unfold spread
  by_cases h : n % L = 0
  · rw [if_pos h, if_pos h]
    show _ = tvConv N M b x (n / L)
    rw [tvConv, hK]
    have := Nat.div_lt_of_lt_mul hn
    exact sum_congr rfl fun k _ => if_congr ⟨fun h => ⟨h, by omega⟩, And.left⟩ rfl rfl
  · rw [if_neg h, if_neg h]

theorem star_spread [StarRing α] (L o : Nat) (f : Nat → α) : (fun j => star (spread L o f j)) = spread L o fun j => star (f j) := by
  funext n
  unfold spread
  split_ifs
  · rfl
  · exact star_zero _

end Spec
