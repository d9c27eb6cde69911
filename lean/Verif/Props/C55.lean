import Verif.Proof.Shift
import Verif.Props.C19

/-!
# C55: time invariance

`TimeInvariantOn f sx zi` (Verif/Spec/Shift.lean): started in state `zi`, `f` succeeds on signals of shape `sx`, and on a signal
that is delayed by `d` samples (`d` zeros in front, the last `d` samples dropped) returns its output delayed by `d` samples, for
every `d`, also for `d` greater than the length.  This holds for the time-invariant functions from the state zero (absent, or given
as zeros where it is required).  From another state it is false (`C55_state`).

For time-varying filters it is false (`C55_lpv_not`); they are time invariant in the sense that delaying signal and coefficients
together delays the output, whatever the coefficients do before the delayed signal begins (`C55_lpv_…`).

The hypotheses are those of the value theorems, see C32; partial where these are.
-/

namespace Props
open Torch Torch.Tensor Spec Phil
open Phil.Lti (Form ok_pair)
variable {α : Type} [CommRing α] [StarRing α]

/-! ## Time-invariant functions -/

/-- **C55, `lti.linear_recurrence`** from zero. -/
theorem C55_linear_recurrence {B N : Nat} {a init : Tensor α} {av : Nat → α} (u : Int) (ha : BatchVals B a av)
    (hi : BatchVals B init fun _ => 0) (hN : 0 < N) (hu : 1 ≤ u) :
    TimeInvariantOn (noState fun zi x => Lti.linearRecurrence a zi x u) [B, N] (some init) := by
  have hf : ∀ x : Nat → Nat → α, noState (fun zi x => Lti.linearRecurrence a zi x u) (t2 B N x) (some init) =
      .ok (t2 B N fun i t => scalarRec (fun _ => av i) 0 (x i) (t + 1), none) := fun x =>
    noState_ok (C01_linear_recurrence x u ha hi hN hu)
  intro d x hx
  rw [sig2 hx, delayBy_t2]
  refine ⟨_, _, _, hf _, (hf _).trans (ok_pair ?_ rfl)⟩
  rw [delayBy_t2]
  refine t2_congr rfl rfl fun i t _ _ => eq_delayed (d := d)
    (x' := fun t => scalarRec (fun _ => av i) 0 (delayed d (xval x i)) (t + 1)) ⟨fun t ht => ?_, fun t => ?_⟩ t
  · exact scalarRec_zero _ (late_delayed d _).before ht
  · exact scalarRec_late (t := t + 1) (fun _ => rfl) (late_delayed d _)

omit [StarRing α] in
/-- **C55, `lti.state_space_recursion`** from zero. -/
theorem C55_state_space_recursion {B N M : Nat} {A x : Tensor α} {Av xv : Nat → Nat → Nat → α} (hA : MatVals B M M A Av)
    (hx : Drive B N M x xv) (u : Int) (hM : 0 < M) (hN : 0 < N) (hu : 1 ≤ u) :
    TimeInvariantOn (noState fun zi x => Lti.stateSpaceRecursion A zi x u none) x.shape (some (t2 B M fun _ _ => 0)) := by
  obtain ⟨F, g, hi, hg⟩ := drive_memoryless_inv hx
  have hf : ∀ x' : Tensor α, x'.shape = x.shape → noState (fun zi x => Lti.stateSpaceRecursion A zi x u none) x'
      (some (t2 B M fun _ _ => 0)) = .ok (signal (some M) B N fun i t p =>
        vecRec M (fun _ => Av i) (fun _ => 0) (memoryless F g x' i) (t + 1) p, none) := fun x' hx' =>
    noState_ok (Lti.stateSpaceRecursion_layout hA (hg x' hx') _ u none trivial hM hN hu)
  intro d x' hx'
  refine ⟨_, _, _, hf x' hx', (hf _ (by rw [delayBy_shape]; exact hx')).trans (ok_pair ?_ rfl)⟩
  rw [delayBy_signal]
  refine signal_congr rfl fun i t p _ ht => ?_
  rw [vecRec_delay (N := N) (fun t m ht => memoryless_late (by rw [hx']; exact drive_shape hx) hi i m ht) ht, delayed]
  by_cases h : t < d
  · rw [if_pos h, if_pos (show t.succ ≤ d from h)]
  · rw [if_neg h, if_neg (by omega), show t.succ - d = t - d + 1 by omega]

example := C55_state_space_recursion (B := 3) (N := 7) (M := 2) (.batched fun i t k => (i : ℤ) - t * k) (.full fun i t k => (i : ℤ) + t * k) 2
  (by decide) (by decide) (by decide)

/-- **C55, `lti.state_space`** without initial state. -/
theorem C55_state_space {B N M : Nat} {A x : Tensor α} {Bm C D : Option (Tensor α)} {k : Option Nat}
    {Av v d : Nat → Nat → Nat → α} {r : Nat → (Nat → α) → Nat → α} {u : Option Int}
    (hA : MatVals B M M A Av) (hB : LtiInput B N M Bm x v) (hC : LtiReadout B M C k r) (hD : LtiFeed B N D x k d)
    (hM : 0 < M) (hN : 0 < N) (hu : ∀ i, u = some i → 1 ≤ i) :
    TimeInvariantOn (fun x zi => Lti.stateSpace A x Bm C D zi u none) x.shape none := by
  obtain ⟨F, g, hi, hg⟩ := ltiInput_memoryless_inv hB
  obtain ⟨F', g', hi', hg'⟩ := ltiFeed_memoryless_inv hD
  have hs := ltiInput_shape hB
  have hf : ∀ x' : Tensor α, x'.shape = x.shape → Lti.stateSpace A x' Bm C D none u none = .ok (signal k B N fun i t p =>
      r i (vecRec M (fun _ => Av i) (fun _ => 0) (memoryless F g x' i) t) p + memoryless F' g' x' i t p, none) :=
    fun x' hx' => Lti.stateSpace_eq hA (hg x' hx') hC (hg' x' hx') .zero hM hN hu
  intro d x' hx'
  refine ⟨_, _, _, hf x' hx', (hf _ (by rw [delayBy_shape]; exact hx')).trans (ok_pair ?_ rfl)⟩
  rw [delayBy_signal]
  refine signal_congr rfl fun i t p _ ht => ?_
  rw [vecRec_delay (N := N) (fun t m ht => memoryless_late (by rw [hx']; exact hs) hi i m ht) ht.le,
    memoryless_late (by rw [hx']; exact hs) hi' i p ht, delayed, delayed]
  have hr : r i (fun _ => 0) p = 0 := by
    rw [ltiReadout_lin hC 0 0 (h := fun _ => 0) (h₁ := fun _ => 0) (h₂ := fun _ => 0) (fun _ => by ring)]; ring
  by_cases h : t < d
  · rw [if_pos h, if_pos h, if_pos h.le, hr, add_zero]
  · rw [if_neg h, if_neg h]
    by_cases h' : t ≤ d
    · rw [if_pos h', show t - d = 0 by omega]; rfl
    · rw [if_neg h']

example := C55_state_space (B := 3) (N := 7) (M := 2) (u := some 2) (.batched fun i t k => (i : ℤ) - t * k)
  (.batchVec (fun i t => (i : ℤ) + t) fun i t => (i : ℤ) * t) (.mat 2 (fun i t => (i : ℤ) + t) (by decide)) (.none _ _) (by decide) (by decide)
  (by simp)

/-- **C55, `lti.fir`** without state, both forms. -/
theorem C55_fir_partial {B M N : Nat} (b : Nat → Nat → α) (tr : Bool) (hB : 0 < B) (hN : 0 < N) (hM : tr = true → 0 < M) :
    TimeInvariantOn (fun x zi => Lti.fir (t2 B (M + 1) b) x zi tr) [B, N] none := by
  have hf : ∀ x, Lti.fir (t2 B (M + 1) b) (t2 B N x) none tr = .ok (t2 B N fun i t =>
      taps (M + 1) (fun k => if tr then star (b i k) else b i k) (causal (x i)) t, none) := by
    intro x
    cases tr with
    | true => exact Lti.fir_transpose_none b x hB hN (hM rfl)
    | false => exact Lti.fir_direct_none b x hB hN
  intro d x hx
  rw [sig2 hx, delayBy_t2]
  refine ⟨_, _, _, hf _, (hf _).trans (ok_pair ?_ rfl)⟩
  rw [delayBy_t2]
  refine t2_congr rfl rfl fun i t _ _ => ?_
  rw [taps_shift _ _ (d : Int) (causal_late (late_delayed d _)), delayed]
  by_cases h : t < d
  · rw [if_pos h]
    exact Finset.sum_eq_zero fun j _ => by rw [causal, if_pos (by omega), mul_zero]
  · rw [if_neg h]
    exact congrArg (taps _ _ _) (by omega)

example := C55_fir_partial (B := 3) (M := 2) (N := 7) (fun i t => (i : ℤ) + t) true (by decide) (by decide) (by decide)

/-- **C55, `lti.lfilter`**, every form, without initial state. -/
theorem C55_lfilter {B N K P : Nat} {b a X : Tensor α} {bv av x : Nat → Nat → α} {form : Form} {u : Option Int}
    (hb : Rows B K b bv) (ha : Rows B P a av) (hx : Sig N B X x)
    (hf : form = .df1 ∨ form = .df2 ∨ form = .tdf1 ∨ form = .tdf2) (hB : 0 < B) (hK : 0 < K) (hM : 0 < max P (K - 1))
    (hN : 0 < N) (hu : ∀ i, u = some i → 1 ≤ i) :
    TimeInvariantOn (fun x zi => Lti.lfilter b a x zi form u) X.shape none := by
  have hf : form ≠ .other := by rintro rfl; simp at hf
  intro d X' hX'
  have hs := sig_vals hx hX'
  obtain ⟨y, h1, h2, h3⟩ := Lti.lfilter_diff hb ha hs hf (Or.inl rfl) hB hK hM hN hu
  obtain ⟨y', h1', h2', h3'⟩ := Lti.lfilter_diff hb ha (delayBy_sig hs d) hf (Or.inl rfl) hB hK hM hN hu
  refine ⟨_, _, _, h3, h3'.trans (ok_pair ?_ rfl)⟩
  rw [delayBy_packed, allFlat_shape (z := none) (z' := none) (delayBy_shape d X') rfl]
  exact packed_congr fun i n _ => eq_delayed (diffEq_late (late_delayed d _) (h1 i) (h1' i) (h2 i) (h2' i)) n

/-- **C55, `lti.comb_filter`** without initial state, with the extension. -/
theorem C55_comb_filter_partial {B N D : Nat} {a : Tensor α} {av : Nat → α} {u : Int} (ha : PerItem B a av) (hD : 1 ≤ D)
    (hN : 0 < N) (hu : 1 ≤ u) :
    TimeInvariantOn (fun x zi => Lti.combFilter true a D x zi u) [B, N] none := by
  intro d x hx
  rw [sig2 hx, delayBy_t2]
  obtain ⟨y, h1, h2, e⟩ := C19_without_state_partial (xval x) ha hD hN hu
  obtain ⟨y', h1', h2', e'⟩ := C19_without_state_partial (fun i => delayed d (xval x i)) ha hD hN hu
  refine ⟨_, _, _, e, e'.trans (ok_pair ?_ rfl)⟩
  rw [delayBy_t2]
  have p : ∀ i (n : Int), n < 0 → y i n = 0 := fun i n hn => by
    rw [show n = -1 - ((-1 - n).toNat : Nat) by omega]; exact h1 i _
  refine t2_congr rfl rfl fun i t _ _ => ?_
  have k := comb_unique (a := av i) (x := delayed d (xval x i)) (y := y' i) (y' := fun n => y i (n - d)) hD
    (fun m _ => by rw [h1', p]; omega) (h2' i) (fun n => ?_) t
  · rw [k, delayed]
    split
    · exact p i _ (by omega)
    · exact congrArg (y i) (by omega)
  · by_cases h : n < d
    · rw [delayed_of_lt _ h, p _ _ (by omega), p _ _ (by omega)]; ring
    · obtain ⟨m, rfl⟩ : ∃ m, n = d + m := ⟨n - d, by omega⟩
      rw [delayed_add]
      have := h2 i m
      rw [show ((d + m : Nat) : Int) - d = m by omega, this]
      congr 3; push_cast; ring

/-! ## Time-varying functions

The coefficients `av'` are `av` delayed: `av' (d + t) = av t`, arbitrary before time `d`. -/

/-- **C55, `lpv.linear_recurrence`.** -/
theorem C55_lpv_linear_recurrence {B N d : Nat} {a a' init : Tensor α} {av av' : Nat → Nat → α} (u : Int)
    (ha : TimeVals B N a av) (ha' : TimeVals B N a' av') (hs : ∀ i t, av' i (d + t) = av i t)
    (hi : BatchVals B init fun _ => 0) (hN : 0 < N) (hu : 1 ≤ u) (x : Nat → Nat → α) :
    ∃ y, Lpv.linearRecurrence a init (t2 B N x) u = .ok y ∧
      Lpv.linearRecurrence a' init (delayBy d (t2 B N x)) u = .ok (delayBy d y) := by
  refine ⟨_, C02_linear_recurrence x u ha hi hN hu, ?_⟩
  rw [delayBy_t2, delayBy_t2, C02_linear_recurrence _ u ha' hi hN hu]
  refine congrArg Except.ok (t2_congr rfl rfl fun i t _ _ => eq_delayed (d := d)
    (x' := fun t => scalarRec (av' i) 0 (delayed d (x i)) (t + 1)) ⟨fun t ht => ?_, fun t => ?_⟩ t)
  · exact scalarRec_zero _ (late_delayed d _).before ht
  · exact scalarRec_late (t := t + 1) (hs i) (late_delayed d _)

/-- **C55, `lpv.fir`, direct form** without state. -/
theorem C55_lpv_fir_direct {B M N d : Nat} {b b' : Nat → Nat → Nat → α} (hs : ∀ i t, b' i (d + t) = b i t) (hN : 0 < N)
    (x : Nat → Nat → α) :
    DelaysBy d (Lpv.fir (t3 B N (M + 1) b) (t2 B N x) none false)
      (Lpv.fir (t3 B N (M + 1) b') (delayBy d (t2 B N x)) none false) := by
  rw [delayBy_t2]
  refine delaysBy_of (Lpv.fir_direct_none b x hN) (Lpv.fir_direct_none b' _ hN) ?_
  rw [delayBy_t2]
  exact t2_congr rfl rfl fun i t _ _ => eq_delayed (tapsCausal_late (hs i) (late_delayed d _)) t

example := C55_lpv_fir_direct (B := 3) (M := 2) (N := 7) (d := 2) (b := fun i t k => (i : ℤ) + t * k)
  (b' := fun i t k => if t < 2 then 9 else (i : ℤ) + (t - 2 : Nat) * k) (fun i t => by simp [show ¬ 2 + t ≤ 1 by omega]) (by decide) (fun i t => (i : ℤ) - t)

/-- **C55, `lpv.fir`, transposed form** without state. -/
theorem C55_lpv_fir_transposed_partial {B M N d : Nat} {b b' : Nat → Nat → Nat → α} (hs : ∀ i t, b' i (d + t) = b i t)
    (hM : 0 < M) (hN : 0 < N) (x : Nat → Nat → α) :
    DelaysBy d (Lpv.fir (t3 B N (M + 1) b) (t2 B N x) none true)
      (Lpv.fir (t3 B N (M + 1) b') (delayBy d (t2 B N x)) none true) := by
  rw [delayBy_t2]
  refine delaysBy_of (Lpv.fir_transposed_none b x hM hN) (Lpv.fir_transposed_none b' _ hM hN) ?_
  rw [delayBy_t2]
  exact t2_congr rfl rfl fun i t _ ht => tvConv_late (fun t => by rw [hs i t]) (late_delayed d _) ht

example := C55_lpv_fir_transposed_partial (B := 3) (M := 2) (N := 7) (d := 2) (b := fun i t k => (i : ℤ) + t * k)
  (b' := fun i t k => if t < 2 then 9 else (i : ℤ) + (t - 2 : Nat) * k) (fun i t => by simp [show ¬ 2 + t ≤ 1 by omega]) (by decide) (by decide) (fun i t => (i : ℤ) - t)

/-- **C55, `lpv.allpole`, direct form** without state. -/
theorem C55_lpv_allpole {B M N d : Nat} {lpc : Lpv.Lpc α} (hl : IsLpc lpc) {a a' : Nat → Nat → Nat → α}
    (hs : ∀ i t, a' i (d + t) = a i t) (hM : 0 < M) (hN : 0 < N) (x : Nat → Nat → α) :
    DelaysBy d (Lpv.allpole lpc (t3 B N M a) (t2 B N x) none false)
      (Lpv.allpole lpc (t3 B N M a') (delayBy d (t2 B N x)) none false) := by
  rw [delayBy_t2]
  refine delaysBy_of (allpole_out hl a x hM hN) (allpole_out hl a' _ hM hN) ?_
  rw [delayBy_t2]
  exact t2_congr rfl rfl fun i t _ _ =>
    eq_delayed (tvSignal_lateNat hM (fun t => by rw [hs i t]) (late_delayed d _)) t

example := C55_lpv_allpole (B := 3) (M := 2) (N := 7) (d := 2) Lpv.refLpc_isLpc (a := fun i t k => (i : ℤ) + t * k)
  (a' := fun i t k => if t < 2 then 9 else (i : ℤ) + (t - 2 : Nat) * k) (fun i t => by simp [show ¬ 2 + t ≤ 1 by omega]) (by decide) (by decide) (fun i t => (i : ℤ) - t)

/-- **C55, `lpv.allpole`, transposed form** without state. -/
theorem C55_lpv_allpole_transposed_partial {B M N d : Nat} {lpc : Lpv.Lpc α} (hl : IsLpc lpc) {a a' : Nat → Nat → Nat → α}
    (hs : ∀ i t, a' i (d + t) = a i t) (hM : 0 < M) (hMN : M ≤ N) (x : Nat → Nat → α) :
    DelaysBy d (Lpv.allpole lpc (t3 B N M a) (t2 B N x) none true)
      (Lpv.allpole lpc (t3 B N M a') (delayBy d (t2 B N x)) none true) := by
  rw [delayBy_t2]
  refine delaysBy_of (Lpv.allpole_transposed_out hl a x hM hMN) (Lpv.allpole_transposed_out hl a' _ hM hMN) ?_
  rw [delayBy_t2]
  exact t2_congr rfl rfl fun i t _ _ =>
    eq_delayed (tvTdf2Out_late (fun _ => rfl) (fun t => by rw [hs i t]) (late_delayed d _)) t

example := C55_lpv_allpole_transposed_partial (B := 3) (M := 2) (N := 7) (d := 2) Lpv.refLpc_isLpc (a := fun i t k => (i : ℤ) + t * k)
  (a' := fun i t k => if t < 2 then 9 else (i : ℤ) + (t - 2 : Nat) * k) (fun i t => by simp [show ¬ 2 + t ≤ 1 by omega]) (by decide) (by decide) (fun i t => (i : ℤ) - t)

/-- **C55, `lpv.lfilter`, backend `ssm`**, every form, without initial state. -/
theorem C55_lpv_lfilter_partial {B N K P d : Nat} {b b' a a' X : Tensor α} {bv bv' av av' : Nat → Nat → Nat → α}
    {x : Nat → Nat → α} {form : Form} {u : Option Int} (lpc : Lpv.Lpc α) (hb : MatVals B N K b bv) (hb' : MatVals B N K b' bv')
    (ha : MatVals B N P a av) (ha' : MatVals B N P a' av') (hrb : b'.rank = b.rank) (hra : a'.rank = a.rank)
    (hsb : ∀ i t, bv' i (d + t) = bv i t) (hsa : ∀ i t, av' i (d + t) = av i t) (hx : Sig N B X x)
    (hf : form = .df1 ∨ form = .df2 ∨ form = .tdf1 ∨ form = .tdf2)
    (hBN : form = .df2 ∨ form = .tdf2 → b.rank = 2 ∧ a.rank = 2 ∨ B ≠ N) (hB : 0 < B)
    (hK : 0 < K) (hM : 0 < max P (K - 1)) (hN : 0 < N)
    (hu₁ : form = .df1 ∨ form = .tdf1 → FilterUnroll (max P (K - 1)) N (some (u.getD 1)))
    (hu₂ : form = .df2 ∨ form = .tdf2 → FilterUnroll (max P (K - 1)) N u) :
    DelaysBy d (Lpv.lfilter lpc b a X none form .ssm u) (Lpv.lfilter lpc b' a' (delayBy d X) none form .ssm u) := by
  have hx' := delayBy_sig hx d
  have e : allFlatTv (delayBy d X) b' a' none = allFlatTv X b a none := by
    unfold allFlatTv
    rw [hrb, hra, show (delayBy d X).rank = X.rank from congrArg List.length (delayBy_shape d X)]
  have hza : ∀ i t, zext P (av' i (d + t)) = zext P (av i t) := fun i t => by rw [hsa i t]
  have hzb : ∀ i t, zext K (bv' i (d + t)) = zext K (bv i t) := fun i t => by rw [hsb i t]
  rcases hf with rfl | rfl | rfl | rfl
  · have hu := hu₁ (by simp)
    refine delaysBy_of (Lpv.lfilterWith_seq (c := false) (M := 0) (zf := fun _ _ => 0) hb ha hx
      (Lpv.ssmLfilter_tvdf1_of hb ha x none hK hM hN (Lpv.recOn_filter _ _ hB hM hN hu)))
      (Lpv.lfilterWith_seq (c := false) (M := 0) (zf := fun _ _ => 0) hb' ha' hx'
      (Lpv.ssmLfilter_tvdf1_of hb' ha' _ none hK hM hN (Lpv.recOn_filter _ _ hB hM hN hu))) ?_
    rw [e, delayBy_packed]
    exact packed_congr fun i t _ => eq_delayed (tvSignal_lateNat hM (hza i) (tapsCausal_late (hsb i) (late_delayed d _))) t
  · have hu := hu₂ (by simp)
    refine delaysBy_of (Lpv.lfilterWith_seq hb ha hx
      (Lpv.ssmLfilter_tvdf2_of hb ha x .zero (hBN (by simp)) hK hM hN (Lpv.recOn_filter _ _ hB hM hN hu)))
      (Lpv.lfilterWith_seq hb' ha' hx' (Lpv.ssmLfilter_tvdf2_of hb' ha' _ .zero (by rw [hrb, hra]; exact hBN (by simp))
      hK hM hN (Lpv.recOn_filter _ _ hB hM hN hu))) ?_
    rw [e, delayBy_packed]
    exact packed_congr fun i t _ => eq_delayed (tapsSignal_late hM (hsb i) (hza i) (late_delayed d _)) t
  · have hu := hu₁ (by simp)
    refine delaysBy_of (Lpv.lfilterWith_seq (c := false) (M := 0) (zf := fun _ _ => 0) hb ha hx
      (Lpv.ssmLfilter_tvtdf1_of hb ha x none hK hM hN (Lpv.recOn_filter _ _ hB hM hN hu)))
      (Lpv.lfilterWith_seq (c := false) (M := 0) (zf := fun _ _ => 0) hb' ha' hx'
      (Lpv.ssmLfilter_tvtdf1_of hb' ha' _ none hK hM hN (Lpv.recOn_filter _ _ hB hM hN hu))) ?_
    rw [e, delayBy_packed]
    exact packed_congr fun i t ht => tvConv_late (hzb i) (vecRec_first_late (fun t => by rw [hza i t]) (late_delayed d _)) ht
  · have hu := hu₂ (by simp)
    have hr : b.rank = 2 ∨ B ≠ N := (hBN (by simp)).imp And.left id
    refine delaysBy_of (Lpv.lfilterWith_seq hb ha hx
      (Lpv.ssmLfilter_tvtdf2_of hb ha x .zero hr hK hM hN (Lpv.recOn_filter _ _ hB hM hN hu)))
      (Lpv.lfilterWith_seq hb' ha' hx' (Lpv.ssmLfilter_tvtdf2_of hb' ha' _ .zero (by rw [hrb]; exact hr)
      hK hM hN (Lpv.recOn_filter _ _ hB hM hN hu))) ?_
    rw [e, delayBy_packed]
    exact packed_congr fun i t _ =>
      eq_delayed (tvTdf2Out_late (fun t => by rw [hzb i t]) (fun t => by rw [hza i t]) (late_delayed d _)) t

example := C55_lpv_lfilter_partial (B := 3) (N := 7) (K := 3) (P := 2) (d := 2) (form := .tdf2) (u := some 2) Lpv.refLpc
  (.batched fun i t k => (i : ℤ) + t * k) (.batched fun i t k => if t < 2 then 9 else (i : ℤ) + (t - 2 : Nat) * k)
  (.shared fun t k => (t : ℤ) - k) (.shared fun t k => if t < 2 then 8 else ((t - 2 : Nat) : ℤ) - k) rfl rfl (fun i t => by simp [show ¬ 2 + t ≤ 1 by omega])
  (fun i t => by simp [show ¬ 2 + t ≤ 1 by omega]) (.batched 3 fun i t => (i : ℤ) * t) (by simp) (fun _ => Or.inr (by decide)) (by decide) (by decide) (by decide)
  (by decide) (by simp) (fun _ => by unfold FilterUnroll GoodUnroll FewPrimes; decide +kernel)

/-- **C55, `lpv.lfilter`, backend `torchlpc`**, without initial state. -/
theorem C55_lpv_lfilter_torchlpc_partial {B N M P d : Nat} {b b' a a' X : Tensor α} {bv bv' av av' : Nat → Nat → Nat → α}
    {x : Nat → Nat → α} {form : Form} {u : Option Int} {lpc : Lpv.Lpc α} (hl : IsLpc lpc) (hb : MatVals B N (M + 1) b bv)
    (hb' : MatVals B N (M + 1) b' bv')
    (ha : MatVals B N P a av) (ha' : MatVals B N P a' av') (hrb : b'.rank = b.rank) (hra : a'.rank = a.rank)
    (hsb : ∀ i t, bv' i (d + t) = bv i t) (hsa : ∀ i t, av' i (d + t) = av i t) (hx : Sig N B X x)
    (hf : form = .df1 ∨ form = .df2 ∨ form = .tdf1 ∧ 0 < M ∧ P ≤ N) (hB : 0 < B) (hP : 0 < P) (hN : 0 < N) :
    DelaysBy d (Lpv.lfilter lpc b a X none form .torchlpc u) (Lpv.lfilter lpc b' a' (delayBy d X) none form .torchlpc u) := by
  have hx' := delayBy_sig hx d
  have e : allFlatTv (delayBy d X) b' a' none = allFlatTv X b a none := by
    unfold allFlatTv
    rw [hrb, hra, show (delayBy d X).rank = X.rank from congrArg List.length (delayBy_shape d X)]
  have hza : ∀ i t, zext P (av' i (d + t)) = zext P (av i t) := fun i t => by rw [hsa i t]
  rcases hf with rfl | rfl | ⟨rfl, hM, hPN⟩
  · refine delaysBy_of (torchlpc_df1_out hl hb ha hx hB (by omega) hP hN)
      (torchlpc_df1_out hl hb' ha' hx' hB (by omega) hP hN) ?_
    rw [e, delayBy_packed]
    exact packed_congr fun i t _ => eq_delayed (tvSignal_lateNat hP (hza i) (tapsCausal_late (hsb i) (late_delayed d _))) t
  · refine delaysBy_of (torchlpc_df2_out hl hb ha hx hB (by omega) hP hN)
      (torchlpc_df2_out hl hb' ha' hx' hB (by omega) hP hN) ?_
    rw [e, delayBy_packed]
    exact packed_congr fun i t _ => eq_delayed (tapsSignal_late (by omega) (hsb i) (hza i) (late_delayed d _)) t
  · refine delaysBy_of (Lpv.torchlpc_tdf1_out hl hb ha hx hB hM hP hPN)
      (Lpv.torchlpc_tdf1_out hl hb' ha' hx' hB hM hP hPN) ?_
    rw [e, delayBy_packed]
    exact packed_congr fun i t ht => tvConv_late (fun t => by rw [hsb i t])
      (tvTdf2Out_late (fun _ => rfl) (fun t => by rw [hsa i t]) (late_delayed d _)) ht

example := C55_lpv_lfilter_torchlpc_partial (B := 3) (N := 7) (M := 2) (P := 2) (d := 2) (form := .tdf1) (u := none) Lpv.refLpc_isLpc
  (.batched fun i t k => (i : ℤ) + t * k) (.batched fun i t k => if t < 2 then 9 else (i : ℤ) + (t - 2 : Nat) * k)
  (.shared fun t k => (t : ℤ) - k) (.shared fun t k => if t < 2 then 8 else ((t - 2 : Nat) : ℤ) - k) rfl rfl (fun i t => by simp [show ¬ 2 + t ≤ 1 by omega])
  (fun i t => by simp [show ¬ 2 + t ≤ 1 by omega]) (.batched 3 fun i t => (i : ℤ) * t) (by simp) (by decide) (by decide) (by decide)

/-! ## Where it fails -/

/-- From a state other than zero a delayed signal does not give the delayed output: the state decays during the delay. -/
theorem C55_state : ¬ TimeInvariantOn (noState fun zi x => Lti.linearRecurrence (t1 1 fun _ => (2 : Int)) zi x 1) [1, 2]
    (some (t1 1 fun _ => 1)) := by
  intro h
  obtain ⟨y, _, _, h1, h2⟩ := h 1 (t2 1 2 fun _ _ => 0) rfl
  have k : ∀ x : Nat → Nat → Int, noState (fun zi x => Lti.linearRecurrence (t1 1 fun _ => (2 : Int)) zi x 1) (t2 1 2 x)
      (some (t1 1 fun _ => 1)) = .ok (t2 1 2 fun i t => scalarRec (fun _ => 2) 1 (x i) (t + 1), none) := fun x =>
    noState_ok (C01_linear_recurrence x 1 (.full _) (.full _) (by decide) (by decide))
  rw [k] at h1
  rw [delayBy_t2, k] at h2
  simp only [Except.ok.injEq, Prod.mk.injEq] at h1 h2
  rw [← h1.1, delayBy_t2] at h2
  have := congrArg (fun y => y.get [0, 0]) h2.1
  beta_reduce at this
  rw [get_t2 (by decide) (by decide), get_t2 (by decide) (by decide)] at this
  exact absurd this (by decide)

/-- A time-varying filter is not time invariant: delaying the signal without the coefficients gives another output. -/
theorem C55_lpv_not : ¬ TimeInvariantOn (noState fun zi x =>
    Lpv.linearRecurrence (t1 3 fun t => (t : Int)) zi x 1) [1, 3] (some (t1 1 fun _ => 0)) := by
  intro h
  obtain ⟨y, _, _, h1, h2⟩ := h 1 (t2 1 3 fun _ _ => 1) rfl
  have k : ∀ x : Nat → Nat → Int, noState (fun zi x => Lpv.linearRecurrence (t1 3 fun t => (t : Int)) zi x 1) (t2 1 3 x)
      (some (t1 1 fun _ => 0)) = .ok (t2 1 3 fun i t => scalarRec (fun t => (t : Int)) 0 (x i) (t + 1), none) := fun x =>
    noState_ok (C02_linear_recurrence x 1 (.shared _) (.full _) (by decide) (by decide))
  rw [k] at h1
  rw [delayBy_t2, k] at h2
  simp only [Except.ok.injEq, Prod.mk.injEq] at h1 h2
  rw [← h1.1, delayBy_t2] at h2
  have := congrArg (fun y => y.get [0, 2]) h2.1
  beta_reduce at this
  rw [get_t2 (by decide) (by decide), get_t2 (by decide) (by decide)] at this
  exact absurd this (by decide)

/-! ## Instances -/

example : TimeInvariantOn (noState fun zi x => Lti.linearRecurrence (t1 2 fun i => (i : Int) + 2) zi x 3) [2, 10]
    (some (t1 2 fun _ => 0)) :=
  C55_linear_recurrence 3 (.full _) (.full _) (by decide) (by decide)

example : TimeInvariantOn (fun x zi => Lti.lfilter (t1 2 fun k => (k : Int) + 1) (t1 3 fun k => (k : Int) + 2) x zi .tdf1 none)
    [10] none :=
  C55_lfilter (X := t1 10 fun _ => (0 : Int)) (.shared _) (.shared _) (.flat fun _ => 0) (by simp) (by decide) (by decide)
    (by decide) (by decide) (by simp)

example : TimeInvariantOn (fun x zi => Lti.combFilter true (t1 2 fun i => (i : Int) + 1) 3 x zi 2) [2, 10] none :=
  C55_comb_filter_partial (.full _) (by decide) (by decide) (by decide)

/-- A recurrence whose coefficients are delayed by 2 samples together with the signal. -/
example : ∃ y, Lpv.linearRecurrence (t1 10 fun t => (t : Int)) (t1 2 fun _ => 0) (t2 2 10 fun i t => (i : Int) + t) 3 = .ok y ∧
    Lpv.linearRecurrence (t1 10 fun t => if t < 2 then (7 : Int) else ((t - 2 : Nat) : Int)) (t1 2 fun _ => 0)
      (delayBy 2 (t2 2 10 fun i t => (i : Int) + t)) 3 = .ok (delayBy 2 y) :=
  C55_lpv_linear_recurrence (d := 2) 3 (.shared _) (.shared _)
    (fun i t => by rw [if_neg (by omega), Nat.add_sub_cancel_left]) (.full _) (by decide) (by decide) _

/-- The delay acts on concrete signals. -/
example : (delayBy 2 (t2 1 4 fun _ t => (t : Int) + 1)).get [0, 3] = 2 := by decide +kernel
example : (delayBy 2 (t2 1 4 fun _ t => (t : Int) + 1)).get [0, 1] = 0 := by decide +kernel

end Props
