import Verif.Proof.Stretch
import Verif.Props.C19
import Verif.Props.C12

/-!
# C73: stretching filters and signals

`stretched L 0 X` (Verif/Spec/Stretch.lean) is the signal with `L - 1` zeros after each sample.  A filter whose coefficient of `z^-k`
is moved to `z^-(L k)` maps the stretched signal to the stretched output: in the theory of transfer functions the substitution
`z → z^L` (the noble identity of multirate filters).  The calls compared have different lengths, orders and depths of recursion.
-/

namespace Props
open Torch Torch.Tensor Spec Phil
open Phil.Lti (Form ok_pair conjA conjB conjIf)
variable {α : Type} [CommRing α] [StarRing α]

theorem conjIf_spread (c : Bool) (L o : Nat) (f : Nat → α) : conjIf c (spread L o f) = spread L o (conjIf c f) := by
  funext n
  unfold conjIf spread
  cases c with
  | false => rfl
  | true => simp only [if_true]; split_ifs <;> simp

/-- **C73, `lti.fir`** without state, both forms. -/
theorem C73_fir {B M N L : Nat} (b x : Nat → Nat → α) (tr : Bool) (hL : 0 < L) (hB : 0 < B) (hN : 0 < N) (hM : tr = true → 0 < M) :
    StretchedBy L (Lti.fir (t2 B (M + 1) b) (t2 B N x) none tr)
      (Lti.fir (stretched L 0 (t2 B (M + 1) b)) (stretched L 0 (t2 B N x)) none tr) := by
  have hf : ∀ (M N : Nat) (b x : Nat → Nat → α), 0 < N → (tr = true → 0 < M) → Lti.fir (t2 B (M + 1) b) (t2 B N x) none tr =
      .ok (t2 B N fun i t => taps (M + 1) (conjIf tr (b i)) (causal (x i)) t, none) := by
    intro M N b x hN hM
    cases tr with
    | true => exact Lti.fir_transpose_none b x hB hN (hM rfl)
    | false => exact Lti.fir_direct_none b x hB hN
  rw [stretched_t2, stretched_t2]
  obtain ⟨M', hM'⟩ : ∃ M', L * (M + 1) = M' + 1 := ⟨L * (M + 1) - 1, (Nat.sub_add_cancel (Nat.mul_pos hL M.succ_pos)).symm⟩
  have hM2 : tr = true → 0 < M' := fun h => by have := Nat.le_mul_of_pos_left (M + 1) hL; have := hM h; omega
  refine stretchedBy_of (hf M N b x hN hM) (by rw [hM']; exact hf M' (L * N) _ _ (Nat.mul_pos hL hN) hM2) ?_
  rw [stretched_t2, ← hM']
  refine t2_congr rfl rfl fun i t _ _ => ?_
  rw [conjIf_spread]
  exact (str_taps hL _ (str_causal hL fun _ => rfl)).nat hL t

example := C73_fir (B := 3) (M := 2) (N := 7) (L := 3) (fun i t => (i : ℤ) + t) (fun i t => (i : ℤ) - t) true (by decide)
  (by decide) (by decide) (by decide)

/-- **C73, `lti.lfilter`**, every form, without initial state. -/
theorem C73_lfilter {B N K P L : Nat} {b a X : Tensor α} {bv av x : Nat → Nat → α} {form : Form} {u u' : Option Int} (hL : 0 < L)
    (hb : Rows B K b bv) (ha : Rows B P a av) (hx : Sig N B X x) (hf : form ≠ .other) (hB : 0 < B) (hK : 0 < K)
    (hM : 0 < max P (K - 1)) (hN : 0 < N) (hu : ∀ i, u = some i → 1 ≤ i) (hu' : ∀ i, u' = some i → 1 ≤ i) :
    StretchedBy L (Lti.lfilter b a X none form u)
      (Lti.lfilter (stretched L 0 b) (stretched L (L - 1) a) (stretched L 0 X) none form u') := by
  obtain ⟨y, h1, h2, h3⟩ := Lti.lfilter_diff hb ha hx hf (Or.inl rfl) hB hK hM hN hu
  obtain ⟨y', h1', h2', h3'⟩ := Lti.lfilter_diff (stretched_rows hb L 0) (stretched_rows ha L (L - 1)) (stretched_sig hx L) hf
    (Or.inl rfl) hB (Nat.mul_pos hL hK)
    (by have := Nat.le_mul_of_pos_left P hL; have := Nat.le_mul_of_pos_left K hL; omega) (Nat.mul_pos hL hN) hu'
  refine stretchedBy_of h3 h3' ?_
  have e : allFlat (stretched L 0 X) (stretched L 0 b) (stretched L (L - 1) a) none = allFlat X b a none := by
    unfold allFlat
    rw [stretched_rank (by cases hx <;> exact Nat.succ_pos _), stretched_rank (by cases hb <;> exact Nat.succ_pos _),
      stretched_rank (by cases ha <;> exact Nat.succ_pos _)]
  rw [stretched_packed, e]
  refine packed_congr fun i n _ => Str.nat hL (str_diff (P := P) hL (fun _ => conjIf (conjA form) (av i))
    (v := fun n => taps K (conjIf (conjB form) (bv i)) (causal (x i)) n)
    (v' := fun n => taps (L * K) (spread L 0 (conjIf (conjB form) (bv i))) (causal (spread L 0 (x i))) n)
    (fun t => (str_taps hL _ (str_causal hL fun _ => rfl)).nat hL t) (h1 i) (h1' i) (fun n => h2 i n) fun n => ?_) n
  rw [h2', conjIf_spread, conjIf_spread]
  rfl

example := C73_lfilter (N := 7) (L := 3) (form := .tdf2) (u := some 2) (u' := none) (by decide)
  (.batched (B := 3) (K := 3) fun i t => (i : ℤ) + t)
  (.shared (K := 2) fun k => (k : ℤ) + 2) (.batched 3 fun i t => (i : ℤ) * t) (by simp) (by decide) (by decide) (by decide)
  (by decide) (by simp) (by simp)

/-- **C73, `lti.comb_filter`** without initial state, with the extension: the delay is multiplied by `L`. -/
theorem C73_comb_filter_partial {B N D L : Nat} {a : Tensor α} {av : Nat → α} {u u' : Int} (x : Nat → Nat → α) (ha : PerItem B a av)
    (hL : 0 < L) (hD : 1 ≤ D) (hN : 0 < N) (hu : 1 ≤ u) (hu' : 1 ≤ u') :
    StretchedBy L (Lti.combFilter true a D (t2 B N x) none u)
      (Lti.combFilter true a (L * D : Nat) (stretched L 0 (t2 B N x)) none u') := by
  rw [stretched_t2]
  obtain ⟨y, h1, h2, h3⟩ := C19_without_state_partial x ha hD hN hu
  obtain ⟨y', h1', h2', h3'⟩ := C19_without_state_partial (fun i => spread L 0 (x i)) ha (Nat.mul_pos hL hD) (Nat.mul_pos hL hN) hu'
  refine stretchedBy_of h3 h3' ?_
  rw [stretched_t2]
  have e : ∀ {D : Nat} {v : Nat → α} {y : Int → α} {c : α} (_ : 1 ≤ D) (_ : ∀ n : Nat, y n = v n - c * y ((n : Int) - D)) (n : Nat),
      y n = v n - ∑ j ∈ Finset.range D, (if j = D - 1 then c else 0) * y ((n : Int) - 1 - j) := by
    intro D v y c hD h n
    rw [Finset.sum_eq_single (D - 1) (fun j _ hj => by rw [if_neg hj, zero_mul]) (by simp; omega), if_pos rfl, h]
    congr 3; omega
  refine t2_congr rfl rfl fun i t _ _ => Str.nat hL (str_diff (P := D) hL (fun _ j => if j = D - 1 then av i else 0)
    (v := x i) (v' := spread L 0 (x i)) (fun _ => rfl) (fun n hn => ?_) (fun n hn => ?_) (e hD fun n => h2 i n) fun n => ?_) t
  · have := h1 i (-1 - n).toNat
    rwa [show -1 - (((-1 - n).toNat : Nat) : Int) = n by omega] at this
  · have := h1' i (-1 - n).toNat
    rwa [show -1 - (((-1 - n).toNat : Nat) : Int) = n by omega] at this
  · rw [e (Nat.mul_pos hL hD) (fun n => h2' i n) n]
    refine congrArg _ (Finset.sum_congr rfl fun j _ => congrArg (· * _) ?_)
    unfold spread
    by_cases h : j % L = L - 1
    · rw [if_pos h]
      obtain ⟨q, rfl⟩ : ∃ q, j = L * q + (L - 1) := ⟨j / L, by rw [← h, Nat.div_add_mod]⟩
      rw [Nat.mul_add_div hL, Nat.div_eq_of_lt (by omega), add_zero]
      refine if_congr ?_ rfl rfl
      constructor
      · intro hq
        have : L * (q + 1) = L * D := by rw [Nat.mul_succ]; have := Nat.mul_pos hL hD; omega
        have := Nat.eq_of_mul_eq_mul_left hL this; omega
      · rintro rfl
        have : L * (D - 1) + L = L * D := by rw [← Nat.mul_succ, Nat.succ_eq_add_one, Nat.sub_add_cancel hD]
        omega
    · rw [if_neg h, if_neg]
      rintro rfl
      apply h
      obtain ⟨d, rfl⟩ := Nat.exists_eq_add_of_le' hD
      rw [show L * (d + 1) - 1 = L * d + (L - 1) by rw [Nat.mul_succ]; omega, Nat.mul_add_mod, Nat.mod_eq_of_lt (by omega)]

example := C73_comb_filter_partial (N := 10) (D := 3) (L := 2) (u := 2) (u' := 3) (fun i t => (i : ℤ) + t)
  (.full (B := 2) fun i => (i : ℤ) + 1) (by decide) (by decide) (by decide) (by decide) (by decide)

/-! ## Time-varying filters

The coefficients of the stretched filter at the times `L n, …, L n + L - 1` are those of time `n`. -/

omit [StarRing α] in
/-- The internal signal of a stretched time-varying filter. -/
theorem str_tvSignal {L P M M' : Nat} (hL : 0 < L) (hM : 0 < M) (hM' : 0 < M') (hP : P ≤ M) (hP' : L * P ≤ M') (a : Nat → Nat → α)
    {v v' : Nat → α} (hv : ∀ t, v' t = spread L 0 v t) :
    Str L (tvSignal M (fun t => zext P (a t)) (fun _ => 0) v)
      (tvSignal M' (fun t => zext (L * P) (spread L (L - 1) (a (t / L)))) (fun _ => 0) v') := by
  have cut : ∀ {P M : Nat} (f : Nat → α) (y : Nat → α), P ≤ M →
      ∑ j ∈ Finset.range M, zext P f j * y j = ∑ j ∈ Finset.range P, f j * y j := by
    intro P M f y h
    rw [← Finset.sum_subset (Finset.range_mono h) fun j _ hj => by
      rw [zext, if_neg (by simpa using hj), zero_mul]]
    exact Finset.sum_congr rfl fun j hj => by rw [zext, if_pos (Finset.mem_range.1 hj)]
  have past : ∀ {M : Nat} (a : Nat → Nat → α) (v : Nat → α) (n : Int), n < 0 → tvSignal M a (fun _ => 0) v n = 0 := by
    intro M a v n hn
    rw [tvSignal, withPast, if_pos hn]
  refine str_diff (P := P) hL a hv (past _ _) (past _ _) (fun n => ?_) fun n => ?_
  · rw [tv_signal hM, cut _ (fun j => tvSignal M _ _ v ((n : Int) - 1 - j)) hP]
  · rw [tv_signal hM', cut _ (fun j => tvSignal M' _ _ v' ((n : Int) - 1 - j)) hP']

omit [StarRing α] in
theorem held_rank {B N K L o : Nat} {b : Tensor α} {bv : Nat → Nat → Nat → α} (h : MatVals B N K b bv) :
    (stretched L o (held L b)).rank = b.rank := by
  cases h with
  | shared f => rw [held_t2, stretched_t2]; rfl
  | batched f => rw [held_t3, stretched_t3]; rfl

/-- **C73, `lpv.fir`, direct form** without state. -/
theorem C73_lpv_fir_direct {B M N L : Nat} (b : Nat → Nat → Nat → α) (x : Nat → Nat → α) (hL : 0 < L) (hN : 0 < N) :
    StretchedBy L (Lpv.fir (t3 B N (M + 1) b) (t2 B N x) none false)
      (Lpv.fir (stretched L 0 (held L (t3 B N (M + 1) b))) (stretched L 0 (t2 B N x)) none false) := by
  rw [held_t3, stretched_t3, stretched_t2]
  obtain ⟨M', hM'⟩ : ∃ M', L * (M + 1) = M' + 1 := ⟨L * (M + 1) - 1, (Nat.sub_add_cancel (Nat.mul_pos hL M.succ_pos)).symm⟩
  refine stretchedBy_of (Lpv.fir_direct_none b x hN) (by rw [hM']; exact Lpv.fir_direct_none _ _ (Nat.mul_pos hL hN)) ?_
  rw [stretched_t2, ← hM']
  exact t2_congr rfl rfl fun i t _ _ => tv_taps_str hL (b i) (str_causal hL fun _ => rfl) t

example := C73_lpv_fir_direct (B := 3) (M := 2) (N := 7) (L := 3) (fun i t k => (i : ℤ) + t * k) (fun i t => (i : ℤ) - t) (by decide)
  (by decide)

/-- **C73, `lpv.allpole`, direct form** without state. -/
theorem C73_lpv_allpole {B M N L : Nat} {lpc : Lpv.Lpc α} (hl : IsLpc lpc) (a : Nat → Nat → Nat → α) (x : Nat → Nat → α) (hL : 0 < L)
    (hM : 0 < M) (hN : 0 < N) :
    StretchedBy L (Lpv.allpole lpc (t3 B N M a) (t2 B N x) none false)
      (Lpv.allpole lpc (stretched L (L - 1) (held L (t3 B N M a))) (stretched L 0 (t2 B N x)) none false) := by
  rw [held_t3, stretched_t3, stretched_t2]
  refine stretchedBy_of (allpole_out hl a x hM hN) (allpole_out hl _ _ (Nat.mul_pos hL hM) (Nat.mul_pos hL hN)) ?_
  rw [stretched_t2]
  exact t2_congr rfl rfl fun i t _ _ => (str_tvSignal hL hM (Nat.mul_pos hL hM) le_rfl le_rfl (a i) fun _ => rfl).nat hL t

example := C73_lpv_allpole (B := 3) (M := 2) (N := 7) (L := 3) Lpv.refLpc_isLpc (fun i t k => (i : ℤ) + t * k)
  (fun i t => (i : ℤ) - t) (by decide) (by decide) (by decide)

/-- The transposed all-pole filter of a stretched filter. -/
theorem allpole_spread {L P : Nat} (hL : 0 < L) (hP : 0 < P) (a : Nat → Nat → α) (x : Nat → α) (t : Nat) :
    tvTdf2Out (L * P) unitTaps (fun t k => star (spread L (L - 1) (a (t / L)) k)) (fun _ => 0) (spread L 0 x) t =
      spread L 0 (fun t => tvTdf2Out P unitTaps (fun t k => star (a t k)) (fun _ => 0) x t) t := by
  have cut : ∀ {P : Nat} (_ : 0 < P) (a : Nat → Nat → α) (x : Nat → α) (n : Nat), tvTdf2Out P unitTaps a (fun _ => 0) x n =
      x n - ∑ m ∈ Finset.range P, if m < n then a (n - 1 - m) m * tvTdf2Out P unitTaps a (fun _ => 0) x (n - 1 - m) else 0 := by
    intro P hP a x n
    rw [tvTdf2_rest hP, sum_cut (K := 1) (by omega) _ fun j hj => by
      rw [show (unitTaps (n - j) j : α) = 0 from if_neg (by omega), zero_mul, ite_self], Finset.sum_range_one, if_pos (Nat.zero_le n),
      show (unitTaps (n - 0) 0 : α) = 1 from if_pos rfl, one_mul, Nat.sub_zero]
  refine feedback_spread hL (fun t k => star (a t k)) (P := P) (fun _ => rfl) (cut hP _ x) (fun n => ?_) t
  refine (cut (Nat.mul_pos hL hP) _ _ n).trans ?_
  refine congrArg _ (Finset.sum_congr rfl fun m _ => ?_)
  rw [← star_spread]

/-- **C73, `lpv.fir`, transposed form** without state. -/
theorem C73_lpv_fir_transposed {B M N L : Nat} (b : Nat → Nat → Nat → α) (x : Nat → Nat → α) (hL : 0 < L) (hM : 0 < M) (hN : 0 < N) :
    StretchedBy L (Lpv.fir (t3 B N (M + 1) b) (t2 B N x) none true)
      (Lpv.fir (stretched L 0 (held L (t3 B N (M + 1) b))) (stretched L 0 (t2 B N x)) none true) := by
  rw [held_t3, stretched_t3, stretched_t2]
  obtain ⟨M', hM'⟩ : ∃ M', L * (M + 1) = M' + 1 := ⟨L * (M + 1) - 1, (Nat.sub_add_cancel (Nat.mul_pos hL M.succ_pos)).symm⟩
  have hM0 : 0 < M' := by have := Nat.le_mul_of_pos_left (M + 1) hL; omega
  refine stretchedBy_of (Lpv.fir_transposed_none b x hM hN)
    (by rw [hM']; exact Lpv.fir_transposed_none _ _ hM0 (Nat.mul_pos hL hN)) ?_
  rw [stretched_t2]
  exact t2_congr rfl rfl fun i t _ ht => tvConv_spread hL rfl hM' (fun t => star_spread _ _ _) (fun _ => rfl) ht

example := C73_lpv_fir_transposed (B := 3) (M := 2) (N := 7) (L := 3) (fun i t k => (i : ℤ) + t * k) (fun i t => (i : ℤ) - t) (by decide)
  (by decide) (by decide)

/-- **C73, `lpv.allpole`, transposed form** without state. -/
theorem C73_lpv_allpole_transposed {B M N L : Nat} {lpc : Lpv.Lpc α} (hl : IsLpc lpc) (a : Nat → Nat → Nat → α) (x : Nat → Nat → α)
    (hL : 0 < L) (hM : 0 < M) (hMN : M ≤ N) :
    StretchedBy L (Lpv.allpole lpc (t3 B N M a) (t2 B N x) none true)
      (Lpv.allpole lpc (stretched L (L - 1) (held L (t3 B N M a))) (stretched L 0 (t2 B N x)) none true) := by
  rw [held_t3, stretched_t3, stretched_t2]
  refine stretchedBy_of (Lpv.allpole_transposed_out hl a x hM hMN)
    (Lpv.allpole_transposed_out hl _ _ (Nat.mul_pos hL hM) (Nat.mul_le_mul_left L hMN)) ?_
  rw [stretched_t2]
  exact t2_congr rfl rfl fun i t _ _ => allpole_spread hL hM (a i) (x i) t

example := C73_lpv_allpole_transposed (B := 3) (M := 2) (N := 7) (L := 3) Lpv.refLpc_isLpc (fun i t k => (i : ℤ) + t * k)
  (fun i t => (i : ℤ) - t) (by decide) (by decide) (by decide)

/-- **C73, `lpv.lfilter`, backend `ssm`**, forms df1, df2 and tdf2, without initial state. -/
theorem C73_lpv_lfilter_partial {B N K P L : Nat} {b a X : Tensor α} {bv av : Nat → Nat → Nat → α} {x : Nat → Nat → α} {form : Form}
    {u u' : Option Int} (lpc : Lpv.Lpc α) (hL : 0 < L) (hb : MatVals B N K b bv) (ha : MatVals B N P a av) (hx : Sig N B X x)
    (hf : form = .df1 ∨ form = .df2 ∨ form = .tdf2)
    (hBN : form = .df2 ∨ form = .tdf2 → b.rank = 2 ∧ a.rank = 2 ∨ B ≠ N ∧ B ≠ L * N) (hB : 0 < B)
    (hK : 0 < K) (hM : 0 < max P (K - 1)) (hN : 0 < N)
    (hu₁ : form = .df1 → FilterUnroll (max P (K - 1)) N (some (u.getD 1)) ∧
      FilterUnroll (max (L * P) (L * K - 1)) (L * N) (some (u'.getD 1)))
    (hu₂ : form = .df2 ∨ form = .tdf2 → FilterUnroll (max P (K - 1)) N u ∧ FilterUnroll (max (L * P) (L * K - 1)) (L * N) u') :
    StretchedBy L (Lpv.lfilter lpc b a X none form .ssm u)
      (Lpv.lfilter lpc (stretched L 0 (held L b)) (stretched L (L - 1) (held L a)) (stretched L 0 X) none form .ssm u') := by
  have hb' := stretched_mat hb L 0
  have ha' := stretched_mat ha L (L - 1)
  have hx' := stretched_sig hx L
  have e : allFlatTv (stretched L 0 X) (stretched L 0 (held L b)) (stretched L (L - 1) (held L a)) none = allFlatTv X b a none := by
    unfold allFlatTv
    rw [held_rank hb, held_rank ha, stretched_rank (by cases hx <;> exact Nat.succ_pos _)]
  have hN' := Nat.mul_pos hL hN
  have hK' := Nat.mul_pos hL hK
  have hM' : 0 < max (L * P) (L * K - 1) := by
    have := Nat.le_mul_of_pos_left P hL; have := Nat.le_mul_of_pos_left K hL; omega
  rcases hf with rfl | rfl | rfl
  · obtain ⟨hu, hu'⟩ := hu₁ rfl
    refine stretchedBy_of (Lpv.lfilterWith_seq (c := false) (M := 0) (zf := fun _ _ => 0) hb ha hx
      (Lpv.ssmLfilter_tvdf1_of hb ha x none hK hM hN (Lpv.recOn_filter _ _ hB hM hN hu)))
      (Lpv.lfilterWith_seq (c := false) (M := 0) (zf := fun _ _ => 0) hb' ha' hx'
      (Lpv.ssmLfilter_tvdf1_of hb' ha' _ none hK' hM' hN' (Lpv.recOn_filter _ _ hB hM' hN' hu'))) ?_
    rw [e, stretched_packed]
    exact packed_congr fun i t _ => (str_tvSignal hL hM hM' (le_max_left _ _) (le_max_left _ _) (av i)
      (tv_taps_str hL (bv i) (str_causal hL fun _ => rfl))).nat hL t
  · obtain ⟨hu, hu'⟩ := hu₂ (Or.inl rfl)
    have h2 := hBN (Or.inl rfl)
    refine stretchedBy_of (Lpv.lfilterWith_seq hb ha hx
      (Lpv.ssmLfilter_tvdf2_of hb ha x .zero (h2.imp id And.left) hK hM hN (Lpv.recOn_filter _ _ hB hM hN hu)))
      (Lpv.lfilterWith_seq hb' ha' hx' (Lpv.ssmLfilter_tvdf2_of hb' ha' _ .zero
        (by rw [held_rank hb, held_rank ha]; exact h2.imp id And.right) hK' hM' hN' (Lpv.recOn_filter _ _ hB hM' hN' hu'))) ?_
    rw [e, stretched_packed]
    exact packed_congr fun i t _ => tv_taps_str hL (bv i) (str_tvSignal hL hM hM' (le_max_left _ _) (le_max_left _ _) (av i)
      fun _ => rfl) t
  · obtain ⟨hu, hu'⟩ := hu₂ (Or.inr rfl)
    have h2 := hBN (Or.inr rfl)
    refine stretchedBy_of (Lpv.lfilterWith_seq hb ha hx
      (Lpv.ssmLfilter_tvtdf2_of hb ha x .zero (h2.imp And.left And.left) hK hM hN (Lpv.recOn_filter _ _ hB hM hN hu)))
      (Lpv.lfilterWith_seq hb' ha' hx' (Lpv.ssmLfilter_tvtdf2_of hb' ha' _ .zero
        (by rw [held_rank hb]; exact h2.imp And.left And.right) hK' hM' hN' (Lpv.recOn_filter _ _ hB hM' hN' hu'))) ?_
    rw [e, stretched_packed]
    have z : ∀ (Q : Nat) (f : Nat → α) (j : Nat), Q ≤ j → star (zext Q f j) = 0 := fun Q f j hj => by
      rw [zext, if_neg (by omega), star_zero]
    exact packed_congr fun i t _ => tdf2_spread (K := K) (P := P) hL hM hM' (by omega) (by omega) (le_max_left _ _) (le_max_left _ _)
      (b := fun t k => star (zext K (bv i t) k)) (a := fun t k => star (zext P (av i t) k))
      (fun t j => z K _ j) (fun t j => z P _ j)
      (fun t => by rw [zext_spread hL, star_spread]) (fun t => by rw [zext_spread hL, star_spread]) (fun _ => rfl) t

example := C73_lpv_lfilter_partial (B := 3) (N := 7) (K := 3) (P := 2) (L := 2) (form := .tdf2) (u := some 2) (u' := some 3) Lpv.refLpc
  (by decide) (.batched fun i t k => (i : ℤ) + t * k) (.shared fun t k => (t : ℤ) - k) (.batched 3 fun i t => (i : ℤ) * t)
  (Or.inr (Or.inr rfl)) (fun _ => Or.inr (by decide)) (by decide) (by decide) (by decide) (by decide)
  (by simp) (fun _ => by unfold FilterUnroll GoodUnroll FewPrimes; decide +kernel)

/-- **C73, `lpv.lfilter`, backend `torchlpc`**, forms df1, df2 and tdf1 (tdf2 is not implemented), without initial state. -/
theorem C73_lpv_lfilter_torchlpc {B N K P L : Nat} {b a X : Tensor α} {bv av : Nat → Nat → Nat → α}
    {x : Nat → Nat → α} {form : Form} {u u' : Option Int} {lpc : Lpv.Lpc α} (hl : IsLpc lpc) (hL : 0 < L) (hb : MatVals B N K b bv)
    (ha : MatVals B N P a av) (hx : Sig N B X x) (hf : form = .df1 ∨ form = .df2 ∨ form = .tdf1 ∧ 2 ≤ K ∧ P ≤ N) (hB : 0 < B)
    (hK : 0 < K) (hP : 0 < P) (hN : 0 < N) :
    StretchedBy L (Lpv.lfilter lpc b a X none form .torchlpc u)
      (Lpv.lfilter lpc (stretched L 0 (held L b)) (stretched L (L - 1) (held L a)) (stretched L 0 X) none form .torchlpc u') := by
  have hb' := stretched_mat hb L 0
  have ha' := stretched_mat ha L (L - 1)
  have hx' := stretched_sig hx L
  have e : allFlatTv (stretched L 0 X) (stretched L 0 (held L b)) (stretched L (L - 1) (held L a)) none = allFlatTv X b a none := by
    unfold allFlatTv
    rw [held_rank hb, held_rank ha, stretched_rank (by cases hx <;> exact Nat.succ_pos _)]
  have hN' := Nat.mul_pos hL hN
  have hK' := Nat.mul_pos hL hK
  have hP' := Nat.mul_pos hL hP
  rcases hf with rfl | rfl | ⟨rfl, hK2, hPN⟩
  · refine stretchedBy_of (torchlpc_df1_out hl hb ha hx hB hK hP hN) (torchlpc_df1_out hl hb' ha' hx' hB hK' hP' hN') ?_
    rw [e, stretched_packed]
    exact packed_congr fun i t _ => (str_tvSignal hL hP hP' le_rfl le_rfl (av i)
      (tv_taps_str hL (bv i) (str_causal hL fun _ => rfl))).nat hL t
  · refine stretchedBy_of (torchlpc_df2_out hl hb ha hx hB hK hP hN) (torchlpc_df2_out hl hb' ha' hx' hB hK' hP' hN') ?_
    rw [e, stretched_packed]
    exact packed_congr fun i t _ => tv_taps_str hL (bv i) (str_tvSignal hL (by omega) (by omega) (le_max_left _ _) (le_max_left _ _)
      (av i) fun _ => rfl) t
  · obtain ⟨M, rfl⟩ : ∃ M, K = M + 1 := ⟨K - 1, by omega⟩
    obtain ⟨M', hM'⟩ : ∃ M', L * (M + 1) = M' + 1 := ⟨L * (M + 1) - 1, (Nat.sub_add_cancel hK').symm⟩
    have hM0 : 0 < M' := by have := Nat.le_mul_of_pos_left (M + 1) hL; omega
    rw [hM'] at hb'
    refine stretchedBy_of (Lpv.torchlpc_tdf1_out hl hb ha hx hB (by omega) hP hPN)
      (Lpv.torchlpc_tdf1_out hl hb' ha' hx' hB hM0 hP' (Nat.mul_le_mul_left L hPN)) ?_
    rw [e, stretched_packed]
    exact packed_congr fun i t ht => tvConv_spread hL rfl hM' (fun t => star_spread _ _ _)
      (fun t => allpole_spread hL hP (av i) (x i) t) ht

example := C73_lpv_lfilter_torchlpc (B := 3) (N := 7) (K := 3) (P := 2) (L := 2) (form := .tdf1) (u := none) (u' := none)
  Lpv.refLpc_isLpc (by decide) (.batched fun i t k => (i : ℤ) + t * k) (.shared fun t k => (t : ℤ) - k)
  (.batched 3 fun i t => (i : ℤ) * t) (Or.inr (Or.inr (by simp))) (by decide) (by decide) (by decide) (by decide)

/-- The transposed form I of backend `ssm` takes the coefficients of one sample later than its recursion needs them (C30), and the
claim is false: with `a = (0, 1)` over time and the input `(1, 0)` the output is `(1, -1)`, but the stretched filter gives
`(1, 0, 0, 0)`. -/
theorem C73_lpv_tdf1 :
    at? ((Lpv.lfilter Lpv.refLpc (t2 2 1 fun _ _ => (1 : ℤ)) (t2 2 1 fun t _ => (t : ℤ)) (t1 2 fun t => if t = 0 then 1 else 0)
      none .tdf1 .ssm none).map Prod.fst) [1] = some (-1) ∧
    at? ((Lpv.lfilter Lpv.refLpc (stretched 2 0 (held 2 (t2 2 1 fun _ _ => (1 : ℤ)))) (stretched 2 1 (held 2 (t2 2 1 fun t _ => (t : ℤ))))
      (stretched 2 0 (t1 2 fun t => if t = 0 then 1 else 0)) none .tdf1 .ssm none).map Prod.fst) [2] = some 0 := by decide +kernel

end Props
