import Verif.Proof.Modulate
import Verif.Props.C19
import Verif.Props.C12

/-!
# C72: weighting a signal by a geometric sequence

`weighted r X` (Verif/Spec/Modulate.lean) is the signal with sample `t` multiplied by `r ^ t`.  A filter whose coefficient of `z^-k`
is multiplied by `r ^ k` (all poles and zeros multiplied by `r`) maps the weighted signal to the weighted output: in the theory of
transfer functions the substitution `z → z / r`.  For recurrences the coefficient is multiplied by `r`, for state-space models the
state matrix and the input matrix.

`r` is arbitrary, not necessarily invertible.  The forms that conjugate coefficients (C12, C27) need a real `r`; for complex `r` the
claim is false there (`C72_complex`).  Initial states are weighted as the samples that they stand for.

The hypotheses are those of the value theorems; partial where these are.
-/

namespace Props
open Torch Torch.Tensor Spec Phil
open Phil.Lti (Form ok_pair conjA conjB conjIf)
variable {α : Type} [CommRing α] [StarRing α]

/-! ## Recurrences -/

omit [StarRing α] in
theorem scaled_timeVals {B N : Nat} {b : Tensor α} {bv : Nat → Nat → α} (h : TimeVals B N b bv) (r : α) :
    TimeVals B N (scaled r b) fun i t => r * bv i t := by
  cases h with
  | shared f => rw [scaled_t1]; exact .shared _
  | single f => rw [scaled_t2]; exact .single _
  | full f => rw [scaled_t2]; exact .full _

/-- **C72, `lti.linear_recurrence`.** -/
theorem C72_linear_recurrence {B N : Nat} {a init : Tensor α} {av iv : Nat → α} (r : α) (x : Nat → Nat → α) (u : Int)
    (ha : BatchVals B a av) (hi : BatchVals B init iv) (hN : 0 < N) (hu : 1 ≤ u) :
    ∃ y, Lti.linearRecurrence a (scaled r init) (t2 B N x) u = .ok y ∧
      Lti.linearRecurrence (scaled r a) init (weighted r (t2 B N x)) u = .ok (weighted r y) := by
  refine ⟨_, C01_linear_recurrence x u ha (scaled_batchVals hi r) hN hu, ?_⟩
  rw [weighted_t2, weighted_t2, C01_linear_recurrence _ u (scaled_batchVals ha r) hi hN hu]
  exact congrArg Except.ok (t2_congr rfl rfl fun i t _ _ => scalarRec_weight (fun _ => rfl) rfl (fun _ => rfl) t)

example := C72_linear_recurrence (N := 7) (-2 : ℤ) (fun i t => (i : ℤ) + t) 3 (.full (B := 3) fun i => (i : ℤ) + 2) (.scalar 5) (by decide)
  (by decide)

/-- **C72, `lpv.linear_recurrence`.** -/
theorem C72_lpv_linear_recurrence {B N : Nat} {a init : Tensor α} {av : Nat → Nat → α} {iv : Nat → α} (r : α)
    (x : Nat → Nat → α) (u : Int) (ha : TimeVals B N a av) (hi : BatchVals B init iv) (hN : 0 < N) (hu : 1 ≤ u) :
    ∃ y, Lpv.linearRecurrence a (scaled r init) (t2 B N x) u = .ok y ∧
      Lpv.linearRecurrence (scaled r a) init (weighted r (t2 B N x)) u = .ok (weighted r y) := by
  refine ⟨_, C02_linear_recurrence x u ha (scaled_batchVals hi r) hN hu, ?_⟩
  rw [weighted_t2, weighted_t2, C02_linear_recurrence _ u (scaled_timeVals ha r) hi hN hu]
  exact congrArg Except.ok (t2_congr rfl rfl fun i t _ _ => scalarRec_weight (fun _ => rfl) rfl (fun _ => rfl) t)

example := C72_lpv_linear_recurrence (-2 : ℤ) (fun i t => (i : ℤ) + t) 3 (.full (B := 3) (N := 7) fun i t => (i : ℤ) - t) (.scalar 5)
  (by decide) (by decide)

omit [StarRing α] in
/-- **C72, `lti.state_space_recursion`.** -/
theorem C72_state_space_recursion {B N M : Nat} {A x : Tensor α} {Av xv : Nat → Nat → Nat → α} (r : α) (hA : MatVals B M M A Av)
    (hx : Drive B N M x xv) (z : Nat → Nat → α) (u : Int) (hM : 0 < M) (hN : 0 < N) (hu : 1 ≤ u) :
    ∃ y, Lti.stateSpaceRecursion A (scaled r (t2 B M z)) x u none = .ok y ∧
      Lti.stateSpaceRecursion (scaled r A) (t2 B M z) (weighted r x) u none = .ok (weighted r y) := by
  rw [scaled_t2]
  refine ⟨_, Lti.stateSpaceRecursion_layout hA hx _ u none trivial hM hN hu, ?_⟩
  rw [Lti.stateSpaceRecursion_layout (scaled_mat hA r) (weighted_drive hx r) z u none trivial hM hN hu]
  simp only [Lti.OT, weighted_t3]
  refine congrArg Except.ok (t3_congr rfl rfl rfl fun i t m _ _ _ => ?_)
  exact vecRec_weight_init (fun _ _ _ => rfl) (fun _ => rfl) (fun _ _ => rfl) t m

example := C72_state_space_recursion (B := 3) (N := 7) (M := 2) (3 : ℤ) (.batched fun i t k => (i : ℤ) - t * k)
  (.full fun i t k => (i : ℤ) + t * k) (fun i m => (i : ℤ) + m) 2 (by decide) (by decide) (by decide)

omit [StarRing α] in
/-- **C72, `lpv.state_space_recursion`**, for the unroll factors of C07. -/
theorem C72_lpv_state_space_recursion_partial {B N M : Nat} {A x : Tensor α} {Av : Nat → Nat → Nat → Nat → α}
    {xv : Nat → Nat → Nat → α} (r : α) (hA : MatSeq B N M M A Av) (hx : Drive B N M x xv) (z : Nat → Nat → α) (u : Int)
    (hB : 0 < B) (hM : 0 < M) (hN : 0 < N) (hu : FilterUnroll M N (some u)) :
    ∃ y, Lpv.stateSpaceRecursion A (scaled r (t2 B M z)) x u none = .ok y ∧
      Lpv.stateSpaceRecursion (scaled r A) (t2 B M z) (weighted r x) u none = .ok (weighted r y) := by
  rw [scaled_t2]
  refine ⟨_, Lpv.recOn_filter _ _ hB hM hN hu hA hx none trivial, ?_⟩
  rw [Lpv.recOn_filter _ _ hB hM hN hu (scaled_seq hA r) (weighted_drive hx r) none trivial]
  simp only [Lti.OT, weighted_t3]
  refine congrArg Except.ok (t3_congr rfl rfl rfl fun i t m _ _ _ => ?_)
  exact vecRec_weight_init (fun _ _ _ => rfl) (fun _ => rfl) (fun _ _ => rfl) t m

example := C72_lpv_state_space_recursion_partial (B := 3) (N := 7) (M := 2) (3 : ℤ) (.batched fun i t k j => (i : ℤ) - t * k + j)
  (.full fun i t k => (i : ℤ) + t * k) (fun i m => (i : ℤ) + m) 2 (by decide) (by decide) (by decide)
  (by unfold FilterUnroll GoodUnroll FewPrimes; decide +kernel)

/-! ## State-space models -/

/-- **C72, `lti.state_space`** with an input matrix: state and input matrix are multiplied by `r`, the initial state is the same;
the final state is multiplied by `r ^ N`. -/
theorem C72_state_space {B N M : Nat} {A Bm x : Tensor α} {C D zi : Option (Tensor α)} {k : Option Nat}
    {Av v d : Nat → Nat → Nat → α} {ro : Nat → (Nat → α) → Nat → α} {z : Nat → Nat → α} {u : Option Int} (r : α)
    (hA : MatVals B M M A Av) (hB : LtiInput B N M (some Bm) x v) (hC : LtiReadout B M C k ro) (hD : LtiFeed B N D x k d)
    (hz : InitState B M zi z) (hM : 0 < M) (hN : 0 < N) (hu : ∀ i, u = some i → 1 ≤ i) :
    ∃ y zf, Lti.stateSpace A x (some Bm) C D zi u none = .ok (y, zf) ∧
      Lti.stateSpace (scaled r A) (weighted r x) (some (scaled r Bm)) C D zi u none =
        .ok (weighted r y, zf.map (scaled (r ^ N))) := by
  obtain ⟨F', g', -, hg'⟩ := ltiFeed_memoryless_inv hD
  have hs := ltiInput_shape hB
  have hv : ∀ i t m, vecRec M (fun _ i' k => r * Av i i' k) (z i) (fun t m => r ^ (t + 1) * v i t m) t m =
      r ^ t * vecRec M (fun _ => Av i) (z i) (v i) t m := fun i => vecRec_weight (fun _ _ _ => rfl) fun _ _ => rfl
  refine ⟨_, _, Lti.stateSpace_eq hA hB hC (hg' x rfl) hz hM hN hu,
    (Lti.stateSpace_eq (scaled_mat hA r) (scaled_ltiInput hB r) hC (hg' _ (weighted_shape r x)) hz hM hN hu).trans (ok_pair ?_ ?_)⟩
  · rw [weighted_signal]
    refine signal_congr rfl fun i t p _ _ => ?_
    rw [memoryless_weight hs, mul_add, ltiReadout_lin hC (r ^ t) 0 (h₂ := fun _ => 0) (fun m => by rw [hv, zero_mul, add_zero]),
      zero_mul, add_zero]
  · cases zi with
    | none => rfl
    | some zi =>
      simp only [Option.isSome_some, if_true, Option.map_some, scaled_t2]
      exact congrArg some (t2_congr rfl rfl fun i m _ _ => hv i N m)

example := C72_state_space (B := 3) (N := 7) (M := 2) (u := some 2) (-2 : ℤ) (.batched fun i t k => (i : ℤ) - t * k)
  (.batchVec (fun i t => (i : ℤ) + t) fun i t => (i : ℤ) * t) (.mat 2 (fun i t => (i : ℤ) + t) (by decide)) (.none _ _)
  (.full fun i m => (i : ℤ) + m) (by decide) (by decide) (by simp)

/-- **C72, `lpv.state_space`** with an input matrix, for the unroll factors of C07. -/
theorem C72_lpv_state_space_partial {B N M : Nat} {A Bm x : Tensor α} {C D zi : Option (Tensor α)} {k : Option Nat}
    {Av : Nat → Nat → Nat → Nat → α} {v d : Nat → Nat → Nat → α} {ro : Nat → Nat → (Nat → α) → Nat → α} {z : Nat → Nat → α}
    {u : Option Int} (r : α) (hA : MatSeq B N M M A Av) (hB : LpvInput B N M (some Bm) x v) (hC : LpvReadout B N M C k ro)
    (hD : LpvFeed B N D x k d) (hz : InitState B M zi z) (hB0 : 0 < B) (hM : 0 < M) (hN : 0 < N)
    (hu : FilterUnroll M N u) :
    ∃ y zf, Lpv.stateSpace A x (some Bm) C D zi u none = .ok (y, zf) ∧
      Lpv.stateSpace (scaled r A) (weighted r x) (some (scaled r Bm)) C D zi u none =
        .ok (weighted r y, zf.map (scaled (r ^ N))) := by
  obtain ⟨F', g', hg'⟩ := lpvFeed_memoryless hD
  have hs : x.shape = [B, N] ∨ ∃ F, x.shape = [B, N, F] := by
    cases hB with
    | mat F | timeMat F | batchMat F | batchTimeMat F => exact Or.inr ⟨F, rfl⟩
    | _ => exact Or.inl rfl
  have hv : ∀ i t m, vecRec M (fun t i' k => r * Av i t i' k) (z i) (fun t m => r ^ (t + 1) * v i t m) t m =
      r ^ t * vecRec M (Av i) (z i) (v i) t m := fun i => vecRec_weight (fun _ _ _ => rfl) fun _ _ => rfl
  refine ⟨_, _, Lpv.stateSpaceWith_eq hA hB hC (hg' x rfl) hz hN (fun b => vecRec M (Av b) (z b) (v b)) (fun _ _ => rfl)
      fun Bx hBx => Lpv.recOn_filter Av z hB0 hM hN hu hA hBx none trivial,
    (Lpv.stateSpaceWith_eq (scaled_seq hA r) (scaled_lpvInput hB r) hC (hg' _ (weighted_shape r x)) hz hN
      (fun i => vecRec M (fun t i' k => r * Av i t i' k) (z i) (fun t m => r ^ (t + 1) * v i t m)) (fun _ _ => rfl)
      fun Bx hBx => Lpv.recOn_filter _ z hB0 hM hN hu (scaled_seq hA r) hBx none trivial).trans (ok_pair ?_ ?_)⟩
  · rw [weighted_signal]
    refine signal_congr rfl fun i t p _ _ => ?_
    rw [memoryless_weight hs, mul_add, lpvReadout_lin hC (r ^ t) 0 (h₂ := fun _ => 0) (fun m => by rw [hv, zero_mul, add_zero]),
      zero_mul, add_zero]
  · cases zi with
    | none => rfl
    | some zi =>
      simp only [Option.isSome_some, if_true, Option.map_some, scaled_t2]
      exact congrArg some (t2_congr rfl rfl fun i m _ _ => hv i N m)

example := C72_lpv_state_space_partial (B := 3) (N := 7) (M := 2) (u := some 2) (-2 : ℤ) (.batched fun i t k j => (i : ℤ) - t * k + j)
  (.batchVec (fun i t => (i : ℤ) + t) (fun i t => (i : ℤ) * t) (by decide)) (.mat 2 (fun i t => (i : ℤ) + t) (by decide) (by decide))
  (.none _ _) (.full fun i m => (i : ℤ) + m) (by decide) (by decide) (by decide)
  (by unfold FilterUnroll GoodUnroll FewPrimes; decide +kernel)

/-! ## Time-invariant filters -/

/-- **C72, `lti.fir`** without state, both forms (the transposed one conjugates, hence needs a real factor). -/
theorem C72_fir_partial {B M N : Nat} (r : α) (b x : Nat → Nat → α) (tr : Bool) (hr : tr = true → star r = r) (hB : 0 < B) (hN : 0 < N)
    (hM : tr = true → 0 < M) :
    WeightedBy r (Lti.fir (t2 B (M + 1) b) (t2 B N x) none tr)
      (Lti.fir (tapered 0 r (t2 B (M + 1) b)) (weighted r (t2 B N x)) none tr) := by
  rw [tapered_t2, weighted_t2]
  have hf : ∀ b x : Nat → Nat → α, Lti.fir (t2 B (M + 1) b) (t2 B N x) none tr = .ok (t2 B N fun i t =>
      taps (M + 1) (fun k => if tr then star (b i k) else b i k) (causal (x i)) t, none) := by
    intro b x
    cases tr with
    | true => exact Lti.fir_transpose_none b x hB hN (hM rfl)
    | false => exact Lti.fir_direct_none b x hB hN
  refine weightedBy_of (hf _ _) (hf _ _) ?_
  rw [weighted_t2]
  refine t2_congr rfl rfl fun i t _ _ => taps_wgt (fun j => ?_) (wgt_causal fun _ => rfl) t
  cases tr with
  | true => exact star_weight (hr rfl) _ _
  | false => rfl

example := C72_fir_partial (B := 3) (M := 2) (N := 7) (-2 : ℤ) (fun i t => (i : ℤ) + t) (fun i t => (i : ℤ) - t) true (fun _ => rfl)
  (by decide) (by decide) (by decide)

/-- Conjugated coefficients are weighted like the others if the factor is real. -/
theorem conjIf_weight {r : α} (c : Bool) (e : Nat) (f : Nat → α) (hr : c = true → star r = r) (j : Nat) :
    conjIf c (fun k => r ^ (k + e) * f k) j = r ^ (j + e) * conjIf c f j := by
  unfold conjIf
  cases c with
  | true => exact star_weight (hr rfl) _ _
  | false => rfl

/-- **C72, `lti.lfilter`**, every form, without initial state. -/
theorem C72_lfilter {B N K P : Nat} {b a X : Tensor α} {bv av x : Nat → Nat → α} {form : Form} {u : Option Int} (r : α)
    (hb : Rows B K b bv) (ha : Rows B P a av) (hx : Sig N B X x)
    (hf : form = .df2 ∨ (form = .df1 ∨ form = .tdf1 ∨ form = .tdf2) ∧ star r = r) (hB : 0 < B) (hK : 0 < K)
    (hM : 0 < max P (K - 1)) (hN : 0 < N) (hu : ∀ i, u = some i → 1 ≤ i) :
    WeightedBy r (Lti.lfilter b a X none form u) (Lti.lfilter (tapered 0 r b) (tapered 1 r a) (weighted r X) none form u) := by
  have hf' : form ≠ .other := by rintro rfl; simp at hf
  have hr : ∀ c : Bool, c = conjA form ∨ c = conjB form → c = true → star r = r := by
    rintro c hc rfl
    rcases hf with rfl | ⟨-, h⟩
    · simp [conjA, conjB] at hc
    · exact h
  obtain ⟨y, h1, h2, h3⟩ := Lti.lfilter_diff hb ha hx hf' (Or.inl rfl) hB hK hM hN hu
  obtain ⟨y', h1', h2', h3'⟩ := Lti.lfilter_diff (tapered_rows hb 0 r) (tapered_rows ha 1 r) (weighted_sig hx r) hf' (Or.inl rfl)
    hB hK hM hN hu
  refine weightedBy_of h3 h3' ?_
  rw [weighted_packed, show allFlat (weighted r X) (tapered 0 r b) (tapered 1 r a) none = allFlat X b a none from rfl]
  have e : ∀ (a : Nat → α) (y : Int → α) (n : Nat), taps P a y ((n : Int) - 1) = ∑ j ∈ Finset.range P, a j * y ((n : Int) - 1 - j) :=
    fun _ _ _ => rfl
  refine packed_congr fun i n _ => Wgt.at' (wgt_diff (P := P) (a := fun _ => conjIf (conjA form) (av i))
    (v := fun n => taps K (conjIf (conjB form) (bv i)) (causal (x i)) n)
    (v' := fun n => taps K (conjIf (conjB form) fun k => r ^ (k + 0) * bv i k) (causal fun t => r ^ t * x i t) n)
    (fun _ j => conjIf_weight _ 1 (av i) (hr _ (Or.inl rfl)) j)
    (fun t => taps_wgt (fun j => conjIf_weight _ 0 (bv i) (hr _ (Or.inr rfl)) j) (wgt_causal fun _ => rfl) t)
    (fun j => by rw [h1 i _ (by omega), h1' i _ (by omega), mul_zero]) (fun n => ?_) fun n => ?_) n
  · rw [h2, e]
  · rw [h2', e]

example := C72_lfilter (N := 7) (form := .tdf2) (u := some 2) (-2 : ℤ) (.batched (B := 3) (K := 3) fun i t => (i : ℤ) + t)
  (.shared (K := 2) fun k => (k : ℤ) + 2) (.batched 3 fun i t => (i : ℤ) * t) (Or.inr ⟨by simp, rfl⟩) (by decide) (by decide) (by decide)
  (by decide) (by simp)

/-- The numbers may be complex in form df2. -/
example := C72_lfilter (N := 7) (form := .df2) (u := none) (⟨2, 1⟩ : ℤ√(-1)) (.batched (B := 3) (K := 3) fun i t => (⟨i, t⟩ : ℤ√(-1)))
  (.shared (K := 2) fun k => (⟨k, 2⟩ : ℤ√(-1))) (.batched 3 fun i t => (⟨t, i⟩ : ℤ√(-1))) (Or.inl rfl) (by decide) (by decide) (by decide)
  (by decide) (by simp)

/-- **C72, `lti.lfilter`, form df2 with state.**  Entry `m` of the state is a value of time `-1-m`, so that its weight is
`r ^ -(m+1)`: the filter is started with `r ^ (m+1)` times the state of the weighted filter, and the final states are related by
`r ^ (m+1) * zf'_m = r ^ N * zf_m`. -/
theorem C72_lfilter_df2_state {B N K P : Nat} {b a X zi : Tensor α} {bv av x z : Nat → Nat → α} {u : Option Int} (r : α)
    (hb : Rows B K b bv) (ha : Rows B P a av) (hx : Sig N B X x) (hz : InitState B (max P (K - 1)) (some zi) z)
    (hK : 0 < K) (hM : 0 < max P (K - 1)) (hN : 0 < N) (hu : ∀ i, u = some i → 1 ≤ i) :
    ∃ y zf zf', Lti.lfilter b a X (some (tapered 1 r zi)) .df2 u = .ok (y, some zf) ∧
      Lti.lfilter (tapered 0 r b) (tapered 1 r a) (weighted r X) (some zi) .df2 u = .ok (weighted r y, some zf') ∧
      tapered 1 r zf' = scaled (r ^ N) zf := by
  have e : allFlat (weighted r X) (tapered 0 r b) (tapered 1 r a) (some zi) = allFlat X b a (some (tapered 1 r zi)) := by
    unfold allFlat
    simp only [rank, weighted_shape, show ∀ c (T : Tensor α), (tapered c r T).shape = T.shape from fun _ _ => rfl, Option.some.injEq,
      forall_eq']
  have hw : ∀ i, Wgt r (dfSignal (max P (K - 1)) (zext P (av i)) (fun m => r ^ (m + 1) * z i m) (x i))
      (dfSignal (max P (K - 1)) (zext P fun k => r ^ (k + 1) * av i k) (z i) fun t => r ^ t * x i t) := fun i =>
    wgt_dfSignal hM (zext_weight P 1 r (av i)) (fun _ => rfl) fun _ => rfl
  refine ⟨_, _, _, Lti.lfilter_df2 hb ha hx (tapered_init hz 1 r) hK hM hN hu,
    (Lti.lfilter_df2 (tapered_rows hb 0 r) (tapered_rows ha 1 r) (weighted_sig hx r) hz hK hM hN hu).trans (ok_pair ?_ rfl), ?_⟩
  · rw [weighted_packed, e]
    exact packed_congr fun i t _ => taps_wgt (fun _ => rfl) (hw i) t
  · rw [tapered_packed, scaled_packed, e]
    exact packed_congr fun i m _ => (hw i).last N m

example := C72_lfilter_df2_state (N := 7) (u := some 2) (-2 : ℤ) (.batched (B := 3) (K := 3) fun i t => (i : ℤ) + t)
  (.shared (K := 2) fun k => (k : ℤ) + 2) (.batched 3 fun i t => (i : ℤ) * t) (.full fun i m => (i : ℤ) + m) (by decide) (by decide)
  (by decide) (by simp)

/-- **C72, `lti.lfilter`, form tdf2 with state.**  Entry `m` of the state is added to the output of time `m` and has the weight
`r ^ m`. -/
theorem C72_lfilter_tdf2_state {B N K P : Nat} {b a X zi : Tensor α} {bv av x z : Nat → Nat → α} {u : Option Int} {r : α}
    (hr : star r = r) (hb : Rows B K b bv) (ha : Rows B P a av) (hx : Sig N B X x) (hz : InitState B (max P (K - 1)) (some zi) z)
    (hK : 0 < K) (hM : 0 < max P (K - 1)) (hN : 0 < N) (hu : ∀ i, u = some i → 1 ≤ i) :
    ∃ y zf, Lti.lfilter b a X (some zi) .tdf2 u = .ok (y, some zf) ∧
      Lti.lfilter (tapered 0 r b) (tapered 1 r a) (weighted r X) (some (tapered 0 r zi)) .tdf2 u =
        .ok (weighted r y, some (scaled (r ^ N) (tapered 0 r zf))) := by
  have e : allFlat (weighted r X) (tapered 0 r b) (tapered 1 r a) (some (tapered 0 r zi)) = allFlat X b a (some zi) := by
    unfold allFlat
    simp only [rank, weighted_shape, show ∀ c (T : Tensor α), (tapered c r T).shape = T.shape from fun _ _ => rfl, Option.some.injEq,
      forall_eq']
  have eb : ∀ i j, star (zext K (fun k => r ^ (k + 0) * bv i k) j) = r ^ j * star (zext K (bv i) j) := fun i j => by
    rw [zext_weight]; exact star_weight hr _ _
  have ea : ∀ i j, star (zext P (fun k => r ^ (k + 1) * av i k) j) = r ^ (j + 1) * star (zext P (av i) j) := fun i j => by
    rw [zext_weight]; exact star_weight hr _ _
  refine ⟨_, _, Lti.lfilter_tdf2 hb ha hx hz hK hM hN hu,
    (Lti.lfilter_tdf2 (tapered_rows hb 0 r) (tapered_rows ha 1 r) (weighted_sig hx r) (tapered_init hz 0 r) hK hM hN hu).trans
    (ok_pair ?_ (congrArg some ?_))⟩
  · rw [weighted_packed, e]
    exact packed_congr fun i t _ => tvTdf2Out_weight (b := fun _ k => star (zext K (bv i) k)) (a := fun _ k => star (zext P (av i) k))
      (b' := fun _ k => star (zext K (fun k => r ^ (k + 0) * bv i k) k)) (a' := fun _ k => star (zext P (fun k => r ^ (k + 1) * av i k) k))
      hM (fun _ => eb i) (fun _ => ea i) (fun _ => rfl) (fun _ => rfl) t
  · rw [tapered_packed, scaled_packed, e]
    refine packed_congr fun i m hm => (tvTdf2State_weight (b := fun _ k => star (zext K (bv i) k))
      (a := fun _ k => star (zext P (av i) k)) (b' := fun _ k => star (zext K (fun k => r ^ (k + 0) * bv i k) k))
      (a' := fun _ k => star (zext P (fun k => r ^ (k + 1) * av i k) k))
      hM (fun _ => eb i) (fun _ => ea i) (fun _ => rfl) (fun _ => rfl) N hm).trans ?_
    rw [pow_add, mul_assoc, add_zero]
    rfl

example := C72_lfilter_tdf2_state (N := 7) (u := some 2) (r := (-2 : ℤ)) rfl (.batched (B := 3) (K := 3) fun i t => (i : ℤ) + t)
  (.shared (K := 2) fun k => (k : ℤ) + 2) (.batched 3 fun i t => (i : ℤ) * t) (.full fun i m => (i : ℤ) + m) (by decide) (by decide)
  (by decide) (by simp)

/-- **C72, `lti.comb_filter`** without initial state, with the extension: the coefficient is multiplied by `r ^ delay`. -/
theorem C72_comb_filter_partial {B N D : Nat} {a : Tensor α} {av : Nat → α} {u : Int} (r : α) (x : Nat → Nat → α) (ha : PerItem B a av)
    (hD : 1 ≤ D) (hN : 0 < N) (hu : 1 ≤ u) :
    WeightedBy r (Lti.combFilter true a D (t2 B N x) none u)
      (Lti.combFilter true (scaled (r ^ D) a) D (weighted r (t2 B N x)) none u) := by
  have ha' : PerItem B (scaled (r ^ D) a) fun i => r ^ D * av i := by
    cases ha with
    | scalar c => rw [scaled_t0]; exact .scalar _
    | full g => rw [scaled_t1]; exact .full _
  rw [weighted_t2]
  obtain ⟨y, h1, h2, h3⟩ := C19_without_state_partial x ha hD hN hu
  obtain ⟨y', h1', h2', h3'⟩ := C19_without_state_partial (fun i t => r ^ t * x i t) ha' hD hN hu
  refine weightedBy_of h3 h3' ?_
  rw [weighted_t2]
  refine t2_congr rfl rfl fun i t _ _ => ?_
  induction t using Nat.strong_induction_on with
  | _ t ih =>
    rw [h2, h2', mul_sub]
    congr 1
    by_cases hj : D ≤ t
    · obtain ⟨m, rfl⟩ := Nat.exists_eq_add_of_le hj
      rw [show ((D + m : Nat) : Int) - D = m by push_cast; ring, ih m (by omega) (by omega)]; ring
    · rw [show (t : Int) - D = -1 - ((D - t - 1 : Nat) : Int) by omega, h1, h1', mul_zero, mul_zero, mul_zero]

example := C72_comb_filter_partial (N := 10) (D := 3) (u := 2) (-2 : ℤ) (fun i t => (i : ℤ) + t) (.full (B := 2) fun i => (i : ℤ) + 1)
  (by decide) (by decide) (by decide)

/-! ## Time-varying filters -/

/-- **C72, `lpv.fir`, direct form** without state. -/
theorem C72_lpv_fir_direct {B M N : Nat} (r : α) (b : Nat → Nat → Nat → α) (x : Nat → Nat → α) (hN : 0 < N) :
    WeightedBy r (Lpv.fir (t3 B N (M + 1) b) (t2 B N x) none false)
      (Lpv.fir (tapered 0 r (t3 B N (M + 1) b)) (weighted r (t2 B N x)) none false) := by
  rw [tapered_t3, weighted_t2]
  refine weightedBy_of (Lpv.fir_direct_none b x hN) (Lpv.fir_direct_none _ _ hN) ?_
  rw [weighted_t2]
  exact t2_congr rfl rfl fun i t _ _ => taps_wgt (fun _ => rfl) (wgt_causal fun _ => rfl) t

example := C72_lpv_fir_direct (B := 3) (M := 2) (N := 7) (-2 : ℤ) (fun i t k => (i : ℤ) + t * k) (fun i t => (i : ℤ) - t) (by decide)

/-- **C72, `lpv.fir`, transposed form** without state. -/
theorem C72_lpv_fir_transposed_partial {B M N : Nat} {r : α} (hr : star r = r) (b : Nat → Nat → Nat → α) (x : Nat → Nat → α)
    (hM : 0 < M) (hN : 0 < N) :
    WeightedBy r (Lpv.fir (t3 B N (M + 1) b) (t2 B N x) none true)
      (Lpv.fir (tapered 0 r (t3 B N (M + 1) b)) (weighted r (t2 B N x)) none true) := by
  rw [tapered_t3, weighted_t2]
  refine weightedBy_of (Lpv.fir_transposed_none b x hM hN) (Lpv.fir_transposed_none _ _ hM hN) ?_
  rw [weighted_t2]
  exact t2_congr rfl rfl fun i t _ _ => tvConv_weight (fun _ _ => star_weight hr _ _) (fun _ => rfl) t

example := C72_lpv_fir_transposed_partial (B := 3) (M := 2) (N := 7) (r := (-2 : ℤ)) rfl (fun i t k => (i : ℤ) + t * k)
  (fun i t => (i : ℤ) - t) (by decide) (by decide)

/-- **C72, `lpv.allpole`, direct form** without state. -/
theorem C72_lpv_allpole {B M N : Nat} {lpc : Lpv.Lpc α} (hl : IsLpc lpc) (r : α) (a : Nat → Nat → Nat → α) (x : Nat → Nat → α)
    (hM : 0 < M) (hN : 0 < N) :
    WeightedBy r (Lpv.allpole lpc (t3 B N M a) (t2 B N x) none false)
      (Lpv.allpole lpc (tapered 1 r (t3 B N M a)) (weighted r (t2 B N x)) none false) := by
  rw [tapered_t3, weighted_t2]
  refine weightedBy_of (allpole_out hl a x hM hN) (allpole_out hl _ _ hM hN) ?_
  rw [weighted_t2]
  exact t2_congr rfl rfl fun i t _ _ =>
    (wgt_tvSignal hM (fun t => zext_weight M 1 r (a i t)) (fun _ => by rw [mul_zero]) fun _ => rfl).at' t

example := C72_lpv_allpole (B := 3) (M := 2) (N := 7) Lpv.refLpc_isLpc (-2 : ℤ) (fun i t k => (i : ℤ) + t * k)
  (fun i t => (i : ℤ) - t) (by decide) (by decide)

/-- **C72, `lpv.allpole`, transposed form** without state. -/
theorem C72_lpv_allpole_transposed_partial {B M N : Nat} {lpc : Lpv.Lpc α} (hl : IsLpc lpc) {r : α} (hr : star r = r)
    (a : Nat → Nat → Nat → α) (x : Nat → Nat → α) (hM : 0 < M) (hMN : M ≤ N) :
    WeightedBy r (Lpv.allpole lpc (t3 B N M a) (t2 B N x) none true)
      (Lpv.allpole lpc (tapered 1 r (t3 B N M a)) (weighted r (t2 B N x)) none true) := by
  rw [tapered_t3, weighted_t2]
  refine weightedBy_of (Lpv.allpole_transposed_out hl a x hM hMN) (Lpv.allpole_transposed_out hl _ _ hM hMN) ?_
  rw [weighted_t2]
  exact t2_congr rfl rfl fun i t _ _ => tvTdf2Out_weight hM unitTaps_weight (fun _ _ => star_weight hr _ _)
    (fun _ => by rw [mul_zero]) (fun _ => rfl) t

example := C72_lpv_allpole_transposed_partial (B := 3) (M := 2) (N := 7) Lpv.refLpc_isLpc (r := (-2 : ℤ)) rfl
  (fun i t k => (i : ℤ) + t * k) (fun i t => (i : ℤ) - t) (by decide) (by decide)

/-- **C72, `lpv.lfilter`, backend `ssm`**, every form, without initial state. -/
theorem C72_lpv_lfilter_partial {B N K P : Nat} {b a X : Tensor α} {bv av : Nat → Nat → Nat → α} {x : Nat → Nat → α} {form : Form}
    {u : Option Int} (lpc : Lpv.Lpc α) (r : α) (hb : MatVals B N K b bv) (ha : MatVals B N P a av) (hx : Sig N B X x)
    (hf : form = .df1 ∨ form = .df2 ∨ (form = .tdf1 ∨ form = .tdf2) ∧ star r = r)
    (hBN : form = .df2 ∨ form = .tdf2 → b.rank = 2 ∧ a.rank = 2 ∨ B ≠ N) (hB : 0 < B)
    (hK : 0 < K) (hM : 0 < max P (K - 1)) (hN : 0 < N)
    (hu₁ : form = .df1 ∨ form = .tdf1 → FilterUnroll (max P (K - 1)) N (some (u.getD 1)))
    (hu₂ : form = .df2 ∨ form = .tdf2 → FilterUnroll (max P (K - 1)) N u) :
    WeightedBy r (Lpv.lfilter lpc b a X none form .ssm u)
      (Lpv.lfilter lpc (tapered 0 r b) (tapered 1 r a) (weighted r X) none form .ssm u) := by
  have hb' := tapered_mat hb 0 r
  have ha' := tapered_mat ha 1 r
  have hx' := weighted_sig hx r
  have hrb : (tapered 0 r b).rank = b.rank := rfl
  have hra : (tapered 1 r a).rank = a.rank := rfl
  have e : allFlatTv (weighted r X) (tapered 0 r b) (tapered 1 r a) none = allFlatTv X b a none := by
    unfold allFlatTv
    rw [hrb, hra, show (weighted r X).rank = X.rank from rfl]
  have za : ∀ i t j, zext P (fun k => r ^ (k + 1) * av i t k) j = r ^ (j + 1) * zext P (av i t) j := fun i t => zext_weight P 1 r _
  have zb : ∀ i t j, zext K (fun k => r ^ (k + 0) * bv i t k) j = r ^ j * zext K (bv i t) j := fun i t => zext_weight K 0 r _
  rcases hf with rfl | rfl | ⟨rfl | rfl, hr⟩
  · have hu := hu₁ (by simp)
    refine weightedBy_of (Lpv.lfilterWith_seq (c := false) (M := 0) (zf := fun _ _ => 0) hb ha hx
      (Lpv.ssmLfilter_tvdf1_of hb ha x none hK hM hN (Lpv.recOn_filter _ _ hB hM hN hu)))
      (Lpv.lfilterWith_seq (c := false) (M := 0) (zf := fun _ _ => 0) hb' ha' hx'
      (Lpv.ssmLfilter_tvdf1_of hb' ha' _ none hK hM hN (Lpv.recOn_filter _ _ hB hM hN hu))) ?_
    rw [e, weighted_packed]
    exact packed_congr fun i t _ => (wgt_tvSignal hM (za i) (fun _ => by rw [mul_zero])
      (fun t => taps_wgt (fun _ => rfl) (wgt_causal fun _ => rfl) t)).at' t
  · have hu := hu₂ (by simp)
    refine weightedBy_of (Lpv.lfilterWith_seq hb ha hx
      (Lpv.ssmLfilter_tvdf2_of hb ha x .zero (hBN (by simp)) hK hM hN (Lpv.recOn_filter _ _ hB hM hN hu)))
      (Lpv.lfilterWith_seq hb' ha' hx' (Lpv.ssmLfilter_tvdf2_of hb' ha' _ .zero (by rw [hrb, hra]; exact hBN (by simp))
      hK hM hN (Lpv.recOn_filter _ _ hB hM hN hu))) ?_
    rw [e, weighted_packed]
    exact packed_congr fun i t _ => taps_wgt (fun _ => rfl) (wgt_tvSignal hM (za i) (fun _ => by rw [mul_zero]) fun _ => rfl) t
  · have hu := hu₁ (by simp)
    refine weightedBy_of (Lpv.lfilterWith_seq (c := false) (M := 0) (zf := fun _ _ => 0) hb ha hx
      (Lpv.ssmLfilter_tvtdf1_of hb ha x none hK hM hN (Lpv.recOn_filter _ _ hB hM hN hu)))
      (Lpv.lfilterWith_seq (c := false) (M := 0) (zf := fun _ _ => 0) hb' ha' hx'
      (Lpv.ssmLfilter_tvtdf1_of hb' ha' _ none hK hM hN (Lpv.recOn_filter _ _ hB hM hN hu))) ?_
    rw [e, weighted_packed]
    exact packed_congr fun i t _ => tvConv_weight (zb i) (fun t => tallpole_weight (a := fun t m => star (zext P (av i t) m))
      (a' := fun t m => star (zext P (fun k => r ^ (k + 1) * av i t k) m)) hM (fun t j => by rw [za]; exact star_weight hr _ _)
      (fun _ => rfl) t) t
  · have hu := hu₂ (by simp)
    have h2 : b.rank = 2 ∨ B ≠ N := (hBN (by simp)).imp And.left id
    refine weightedBy_of (Lpv.lfilterWith_seq hb ha hx
      (Lpv.ssmLfilter_tvtdf2_of hb ha x .zero h2 hK hM hN (Lpv.recOn_filter _ _ hB hM hN hu)))
      (Lpv.lfilterWith_seq hb' ha' hx' (Lpv.ssmLfilter_tvtdf2_of hb' ha' _ .zero (by rw [hrb]; exact h2)
      hK hM hN (Lpv.recOn_filter _ _ hB hM hN hu))) ?_
    rw [e, weighted_packed]
    exact packed_congr fun i t _ => tvTdf2Out_weight hM (fun t j => by rw [zb]; exact star_weight hr _ _)
      (fun t j => by rw [za]; exact star_weight hr _ _) (fun _ => by rw [mul_zero]) (fun _ => rfl) t

example := C72_lpv_lfilter_partial (B := 3) (N := 7) (K := 3) (P := 2) (form := .tdf2) (u := some 2) Lpv.refLpc (-2 : ℤ)
  (.batched fun i t k => (i : ℤ) + t * k) (.shared fun t k => (t : ℤ) - k) (.batched 3 fun i t => (i : ℤ) * t)
  (Or.inr (Or.inr ⟨by simp, rfl⟩)) (fun _ => Or.inr (by decide)) (by decide) (by decide) (by decide)
  (by decide) (by simp) (fun _ => by unfold FilterUnroll GoodUnroll FewPrimes; decide +kernel)

/-- **C72, `lpv.lfilter`, backend `torchlpc`**, without initial state. -/
theorem C72_lpv_lfilter_torchlpc_partial {B N M P : Nat} {b a X : Tensor α} {bv av : Nat → Nat → Nat → α}
    {x : Nat → Nat → α} {form : Form} {u : Option Int} {lpc : Lpv.Lpc α} (hl : IsLpc lpc) (r : α) (hb : MatVals B N (M + 1) b bv)
    (ha : MatVals B N P a av) (hx : Sig N B X x)
    (hf : form = .df1 ∨ form = .df2 ∨ form = .tdf1 ∧ 0 < M ∧ P ≤ N ∧ star r = r) (hB : 0 < B) (hP : 0 < P) (hN : 0 < N) :
    WeightedBy r (Lpv.lfilter lpc b a X none form .torchlpc u)
      (Lpv.lfilter lpc (tapered 0 r b) (tapered 1 r a) (weighted r X) none form .torchlpc u) := by
  have hb' := tapered_mat hb 0 r
  have ha' := tapered_mat ha 1 r
  have hx' := weighted_sig hx r
  have e : allFlatTv (weighted r X) (tapered 0 r b) (tapered 1 r a) none = allFlatTv X b a none := by
    unfold allFlatTv
    rw [show (tapered 0 r b).rank = b.rank from rfl, show (tapered 1 r a).rank = a.rank from rfl,
      show (weighted r X).rank = X.rank from rfl]
  have za : ∀ i t j, zext P (fun k => r ^ (k + 1) * av i t k) j = r ^ (j + 1) * zext P (av i t) j := fun i t => zext_weight P 1 r _
  rcases hf with rfl | rfl | ⟨rfl, hM, hPN, hr⟩
  · refine weightedBy_of (torchlpc_df1_out hl hb ha hx hB (by omega) hP hN)
      (torchlpc_df1_out hl hb' ha' hx' hB (by omega) hP hN) ?_
    rw [e, weighted_packed]
    exact packed_congr fun i t _ => (wgt_tvSignal hP (za i) (fun _ => by rw [mul_zero])
      (fun t => taps_wgt (fun _ => rfl) (wgt_causal fun _ => rfl) t)).at' t
  · refine weightedBy_of (torchlpc_df2_out hl hb ha hx hB (by omega) hP hN)
      (torchlpc_df2_out hl hb' ha' hx' hB (by omega) hP hN) ?_
    rw [e, weighted_packed]
    exact packed_congr fun i t _ => taps_wgt (fun _ => rfl)
      (wgt_tvSignal (by omega) (za i) (fun _ => by rw [mul_zero]) fun _ => rfl) t
  · refine weightedBy_of (Lpv.torchlpc_tdf1_out hl hb ha hx hB hM hP hPN)
      (Lpv.torchlpc_tdf1_out hl hb' ha' hx' hB hM hP hPN) ?_
    rw [e, weighted_packed]
    exact packed_congr fun i t _ => tvConv_weight (fun _ _ => star_weight hr _ _) (fun t => tvTdf2Out_weight hP unitTaps_weight
      (fun _ _ => star_weight hr _ _) (fun _ => by rw [mul_zero]) (fun _ => rfl) t) t

example := C72_lpv_lfilter_torchlpc_partial (B := 3) (N := 7) (M := 2) (P := 2) (form := .tdf1) (u := none) Lpv.refLpc_isLpc (-2 : ℤ)
  (.batched fun i t k => (i : ℤ) + t * k) (.shared fun t k => (t : ℤ) - k) (.batched 3 fun i t => (i : ℤ) * t)
  (Or.inr (Or.inr ⟨rfl, by decide, by decide, rfl⟩)) (by decide) (by decide) (by decide)

/-! ## Where it fails -/

/-- For a complex factor the forms that conjugate the coefficients do not map the weighted signal to the weighted output. -/
theorem C72_complex (form : Form) (hf : form = .df1 ∨ form = .tdf1 ∨ form = .tdf2) :
    ∃ (r : ℤ√(-1)) (b a X : Tensor (ℤ√(-1))), ¬ WeightedBy r (Lti.lfilter b a X none form none)
      (Lti.lfilter (tapered 0 r b) (tapered 1 r a) (weighted r X) none form none) := by
  refine ⟨⟨0, 1⟩, t1 2 fun _ => 1, t1 1 fun _ => ⟨0, 2⟩, t1 2 fun t => if t = 0 then 1 else 0, ?_⟩
  rintro ⟨y, f₁, f₂, h, h'⟩
  have k : ∀ c c' : Res (Tensor (ℤ√(-1)) × Option (Tensor (ℤ√(-1)))), c = .ok (y, f₁) → c' = .ok (weighted ⟨0, 1⟩ y, f₂) →
      shape? (c.map Prod.fst) = some [2] →
      at? (c'.map Prod.fst) [1] = (at? (c.map Prod.fst) [1]).map fun v => ⟨0, 1⟩ * v := by
    rintro _ _ rfl rfl hs
    simp only [Except.map, shape?, Option.some.injEq] at hs
    simp only [Except.map, at?, get_weighted, hs, Option.map_some, timeAxis]
    simp
  have := k _ _ h h'
  revert this
  rcases hf with rfl | rfl | rfl <;> decide +kernel

end Props
