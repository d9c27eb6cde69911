import Verif.Props.C32

/-!
# C33: causality

`CausalOn f sx sz` (Verif/Spec/Linear.lean): on signals of shape `sx` and initial states of shape `sz` (`none`: no state), `f`
succeeds, and if two signals agree up to time `T` (inclusive) then so do the two outputs, for every `T`.  Then come theorems in
which time-varying coefficients too may change after `T`.  The hypotheses are those of the value theorems, see C32.
-/

namespace Props
open Torch Torch.Tensor Spec Phil
open Phil.Lti (Form)
variable {α : Type} [CommRing α] [StarRing α]

/-- **C33, `lti.linear_recurrence`.** -/
theorem C33_linear_recurrence {B N : Nat} {a init : Tensor α} {av iv : Nat → α} (u : Int) (ha : BatchVals B a av)
    (hi : BatchVals B init iv) (hN : 0 < N) (hu : 1 ≤ u) :
    CausalOn (noState fun zi x => Lti.linearRecurrence a zi x u) [B, N] (some init.shape) :=
  (lti_recurrence_both u ha hi hN hu).2

example := C33_linear_recurrence (B := 2) (N := 7) 2 (.full fun i => (i : ℤ) + 2) (.full fun i => (i : ℤ) + 2) (by decide) (by decide)

/-- **C33, `lpv.linear_recurrence`.** -/
theorem C33_lpv_linear_recurrence {B N : Nat} {a init : Tensor α} {av : Nat → Nat → α} {iv : Nat → α} (u : Int) (ha
    : TimeVals B N a av) (hi : BatchVals B init iv) (hN : 0 < N) (hu : 1 ≤ u) :
    CausalOn (noState fun zi x => Lpv.linearRecurrence a zi x u) [B, N] (some init.shape) :=
  (lpv_recurrence_both u ha hi hN hu).2

example := C33_lpv_linear_recurrence (B := 2) (N := 7) 2 (.full fun i t => (i : ℤ) + t) (.full fun i => (i : ℤ) + 2) (by decide) (by decide)

omit [StarRing α] in
/-- **C33, `lti.state_space_recursion`.** -/
theorem C33_state_space_recursion {B N M : Nat} {A x : Tensor α} {Av xv : Nat → Nat → Nat → α} (hA : MatVals B M M A
    Av) (hx : Drive B N M x xv) (u : Int) (hM : 0 < M) (hN : 0 < N) (hu : 1 ≤ u) :
    CausalOn (noState fun zi x => Lti.stateSpaceRecursion A zi x u none) x.shape (some [B, M]) :=
  (lti_recursion_both hA hx u hM hN hu).2

example := C33_state_space_recursion (B := 2) (N := 7) (M := 2) (.batched fun i t k => (i : ℤ) - t * k) (.full fun i t k => (i : ℤ) + t * k) 2
  (by decide) (by decide) (by decide)

omit [StarRing α] in
/-- **C33, `lpv.state_space_recursion`, for every unroll factor (also those for which the states are wrong, C07).** -/
theorem C33_lpv_state_space_recursion {B N M : Nat} {A x : Tensor α} {Av : Nat → Nat → Nat → Nat → α} {xv :
    Nat → Nat → Nat → α} (hA : MatSeq B N M M A Av) (hx : Drive B N M x xv) (u : Int) (hB : 0 < B) (hM : 0 < M) (hN
    : 0 < N) (hu : 1 ≤ u) :
    CausalOn (noState fun zi x => Lpv.stateSpaceRecursion A zi x u none) x.shape (some [B, M]) :=
  (lpv_recursion_both hA hx u hB hM hN hu).2

example := C33_lpv_state_space_recursion (B := 2) (N := 7) (M := 2) (.batched fun i t k j => (i : ℤ) + t * k - j)
  (.full fun i t k => (i : ℤ) + t * k) 2 (by decide) (by decide) (by decide) (by decide)

/-- **C33, `lti.state_space`, every layout of the matrices, with or without state.** -/
theorem C33_state_space {B N M : Nat} {A x : Tensor α} {Bm C D zi : Option (Tensor α)} {k : Option Nat} {Av v d :
    Nat → Nat → Nat → α} {r : Nat → (Nat → α) → Nat → α} {z : Nat → Nat → α} {u : Option Int} (hA : MatVals B M M A
    Av) (hB : LtiInput B N M Bm x v) (hC : LtiReadout B M C k r) (hD : LtiFeed B N D x k d) (hz : InitState B M zi
    z) (hM : 0 < M) (hN : 0 < N) (hu : ∀ i, u = some i → 1 ≤ i) :
    CausalOn (fun x zi => Lti.stateSpace A x Bm C D zi u none) x.shape (zi.map shape) :=
  (lti_stateSpace_both hA hB hC hD hz hM hN hu).2

example := C33_state_space (B := 3) (N := 7) (M := 2) (u := some 2) (.batched fun i t k => (i : ℤ) - t * k)
  (.batchVec (fun i t => (i : ℤ) + t) fun i t => (i : ℤ) * t) (.mat 2 (fun i t => (i : ℤ) + t) (by decide)) (.none _ _)
  (.full fun i t => (i : ℤ) - t) (by decide) (by decide) (by simp)

/-- **C33, `lpv.state_space`, every layout of the matrices, for every unroll factor.** -/
theorem C33_lpv_state_space {B N M : Nat} {A x : Tensor α} {Bm C D zi : Option (Tensor α)} {k : Option Nat}
    {Av : Nat → Nat → Nat → Nat → α} {v d : Nat → Nat → Nat → α} {r : Nat → Nat → (Nat → α) → Nat → α} {z : Nat →
    Nat → α} {u : Option Int} (hA : MatSeq B N M M A Av) (hB : LpvInput B N M Bm x v) (hC : LpvReadout B N M C k r)
    (hD : LpvFeed B N D x k d) (hz : InitState B M zi z) (hB0 : 0 < B) (hM : 0 < M) (hN : 0 < N) (hu : ∀ i, u = some i → 1 ≤ i) :
    CausalOn (fun x zi => Lpv.stateSpace A x Bm C D zi u none) x.shape (zi.map shape) :=
  (lpv_stateSpace_both hA hB hC hD hz hB0 hM hN hu).2

example := C33_lpv_state_space (B := 3) (N := 7) (M := 2) (u := some 2) (.batched fun i t k j => (i : ℤ) + t * k - j)
  (.batchVec (fun i t => (i : ℤ) + t) (fun i t => (i : ℤ) * t) (by decide)) (.mat 2 (fun i t => (i : ℤ) + t) (by decide) (by decide)) (.none _ _)
  (.full fun i t => (i : ℤ) - t) (by decide) (by decide) (by decide) (by simp)

/-- **C33, `lti.fir` without state (the transposed form is wrong for `M = 0`, see C17).** -/
theorem C33_fir_partial {B M N : Nat} (b : Nat → Nat → α) (tr : Bool) (hB : 0 < B) (hN : 0 < N) (hM : tr = true → 0
    < M) :
    CausalOn (fun x zi => Lti.fir (t2 B (M + 1) b) x zi tr) [B, N] none :=
  (lti_fir_none_both b tr hB hN hM).2

example := C33_fir_partial (B := 2) (M := 2) (N := 7) (fun i t => (i : ℤ) + t) true (by decide) (by decide) (by decide)

/-- **C33, `lti.fir`, direct form with state.** -/
theorem C33_fir_direct_partial {B M N : Nat} (b : Nat → Nat → α) (hB : 0 < B) (hM : 0 < M) (hN : 0 < N) :
    CausalOn (fun x zi => Lti.fir (t2 B (M + 1) b) x zi false) [B, N] (some [B, M]) :=
  (lti_fir_direct_both b hB hM hN).2

example := C33_fir_direct_partial (B := 2) (M := 2) (N := 7) (fun i t => (i : ℤ) + t) (by decide) (by decide) (by decide)

/-- **C33, `lti.fir`, transposed form with state; a shorter signal raises (C17).** -/
theorem C33_fir_transposed_partial {B M N : Nat} (b : Nat → Nat → α) (hB : 0 < B) (hM : 0 < M) (hMN : M ≤ N) :
    CausalOn (fun x zi => Lti.fir (t2 B (M + 1) b) x zi true) [B, N] (some [B, M]) :=
  (lti_fir_transposed_both b hB hM hMN).2

example := C33_fir_transposed_partial (B := 2) (M := 2) (N := 7) (fun i t => (i : ℤ) + t) (by decide) (by decide) (by decide)

/-- **C33, `lpv.fir`, direct form without state.** -/
theorem C33_lpv_fir_direct {B M N : Nat} (b : Nat → Nat → Nat → α) (hN : 0 < N) :
    CausalOn (fun x zi => Lpv.fir (t3 B N (M + 1) b) x zi false) [B, N] none :=
  (lpv_fir_direct_none_both b hN).2

example := C33_lpv_fir_direct (B := 2) (M := 2) (N := 7) (fun i t k => (i : ℤ) - t * k) (by decide)

/-- **C33, `lpv.fir`, direct form with state.** -/
theorem C33_lpv_fir_direct_state {B M N : Nat} (b : Nat → Nat → Nat → α) (hN : 0 < N) :
    CausalOn (fun x zi => Lpv.fir (t3 B N (M + 1) b) x zi false) [B, N] (some [B, M]) :=
  (lpv_fir_direct_both b hN).2

example := C33_lpv_fir_direct_state (B := 2) (M := 2) (N := 7) (fun i t k => (i : ℤ) - t * k) (by decide)

/-- **C33, `lpv.fir`, transposed form without state.** -/
theorem C33_lpv_fir_transposed_partial {B M N : Nat} (b : Nat → Nat → Nat → α) (hM : 0 < M) (hN : 0 < N) :
    CausalOn (fun x zi => Lpv.fir (t3 B N (M + 1) b) x zi true) [B, N] none :=
  (lpv_fir_transposed_none_both b hM hN).2

example := C33_lpv_fir_transposed_partial (B := 2) (M := 2) (N := 7) (fun i t k => (i : ℤ) - t * k) (by decide) (by decide)

/-- **C33, `lpv.fir`, transposed form with state.** -/
theorem C33_lpv_fir_transposed_state_partial {B M N : Nat} (b : Nat → Nat → Nat → α) (hN : 0 < N) (hMN : M ≤ N) :
    CausalOn (fun x zi => Lpv.fir (t3 B N (M + 1) b) x zi true) [B, N] (some [B, M]) :=
  (lpv_fir_transposed_both b hN hMN).2

example := C33_lpv_fir_transposed_state_partial (B := 2) (M := 2) (N := 7) (fun i t k => (i : ℤ) - t * k) (by decide) (by decide)

/-- **C33, `lti.lfilter`, direct form II.** -/
theorem C33_lfilter_df2 {B N K P : Nat} {b a X : Tensor α} {zi : Option (Tensor α)} {bv av x z : Nat → Nat → α} {u :
    Option Int} (hb : Rows B K b bv) (ha : Rows B P a av) (hx : Sig N B X x) (hz : InitState B (max P (K - 1)) zi z)
    (hK : 0 < K) (hM : 0 < max P (K - 1)) (hN : 0 < N) (hu : ∀ i, u = some i → 1 ≤ i) :
    CausalOn (fun x zi => Lti.lfilter b a x zi .df2 u) X.shape (zi.map shape) :=
  (lti_df2_both hb ha hx hz hK hM hN hu).2

example := C33_lfilter_df2 (B := 2) (N := 7) (K := 3) (P := 2) (u := some 2) (.batched fun i t => (i : ℤ) + t) (.batched fun i t => (i : ℤ) + t)
  (.batched 2 fun i t => (i : ℤ) * t) (.full fun i t => (i : ℤ) - t) (by decide) (by decide) (by decide) (by simp)

/-- **C33, `lti.lfilter`, transposed direct form II.** -/
theorem C33_lfilter_tdf2 {B N K P : Nat} {b a X : Tensor α} {zi : Option (Tensor α)} {bv av x z : Nat → Nat → α} {u
    : Option Int} (hb : Rows B K b bv) (ha : Rows B P a av) (hx : Sig N B X x) (hz : InitState B (max P (K - 1)) zi
    z) (hK : 0 < K) (hM : 0 < max P (K - 1)) (hN : 0 < N) (hu : ∀ i, u = some i → 1 ≤ i) :
    CausalOn (fun x zi => Lti.lfilter b a x zi .tdf2 u) X.shape (zi.map shape) :=
  (lti_tdf2_both hb ha hx hz hK hM hN hu).2

/-- **C33, `lti.lfilter`, direct form I.** -/
theorem C33_lfilter_df1 {B N K P : Nat} {b a X : Tensor α} {bv av x : Nat → Nat → α} {u : Option Int} (hb : Rows B K
    b bv) (ha : Rows B P a av) (hx : Sig N B X x) (hB : 0 < B) (hK : 0 < K) (hM : 0 < max P (K - 1)) (hN : 0 < N)
    (hu : ∀ i, u = some i → 1 ≤ i) :
    CausalOn (fun x zi => Lti.lfilter b a x zi .df1 u) X.shape none :=
  (lti_df1_both hb ha hx _ rfl hB hK hM hN hu).2

example := C33_lfilter_df1 (B := 2) (N := 7) (K := 3) (P := 2) (u := some 2) (.batched fun i t => (i : ℤ) + t) (.batched fun i t => (i : ℤ) + t)
  (.batched 2 fun i t => (i : ℤ) * t) (by decide) (by decide) (by decide) (by decide) (by simp)

/-- **C33, `lti.lfilter`, transposed direct form I.** -/
theorem C33_lfilter_tdf1 {B N K P : Nat} {b a X : Tensor α} {bv av x : Nat → Nat → α} {u : Option Int} (hb : Rows B
    K b bv) (ha : Rows B P a av) (hx : Sig N B X x) (hB : 0 < B) (hK : 0 < K) (hM : 0 < max P (K - 1)) (hN : 0 < N)
    (hu : ∀ i, u = some i → 1 ≤ i) :
    CausalOn (fun x zi => Lti.lfilter b a x zi .tdf1 u) X.shape none :=
  (lti_tdf1_both hb ha hx _ rfl hB hK hM hN hu).2

example := C33_lfilter_tdf1 (B := 2) (N := 7) (K := 3) (P := 2) (u := some 2) (.batched fun i t => (i : ℤ) + t) (.batched fun i t => (i : ℤ) + t)
  (.batched 2 fun i t => (i : ℤ) * t) (by decide) (by decide) (by decide) (by decide) (by simp)

/-- **C33, `lpv.lfilter`, direct form II, backend `ssm`.** -/
theorem C33_lpv_lfilter_df2_partial {B N K P : Nat} {b a X : Tensor α} {zi : Option (Tensor α)} {bv av : Nat → Nat →
    Nat → α} {x z : Nat → Nat → α} {u : Option Int} (lpc : Lpv.Lpc α) (hb : MatVals B N K b bv) (ha : MatVals B N P
    a av) (hx : Sig N B X x) (hz : InitState B (max P (K - 1)) zi z) (hBN : b.rank = 2 ∧ a.rank = 2 ∨ B ≠ N) (hB : 0
    < B) (hK : 0 < K) (hM : 0 < max P (K - 1)) (hN : 0 < N) (hu : ∀ i, u = some i → 1 ≤ i) :
    CausalOn (fun x zi => Lpv.lfilter lpc b a x zi .df2 .ssm u) X.shape (zi.map shape) :=
  (lpv_df2_both lpc hb ha hx hz hBN hB hK hM hN hu).2

example := C33_lpv_lfilter_df2_partial (B := 2) (N := 7) (K := 3) (P := 2) (u := some 2) Lpv.refLpc (.batched fun i t k => (i : ℤ) + t * k)
  (.batched fun i t k => (i : ℤ) - t * k) (.batched 2 fun i t => (i : ℤ) * t) (.full fun i t => (i : ℤ) - t) (Or.inr (by decide)) (by decide)
  (by decide) (by decide) (by decide) (by simp)

/-- **C33, `lpv.lfilter`, transposed direct form II, backend `ssm`.** -/
theorem C33_lpv_lfilter_tdf2_partial {B N K P : Nat} {b a X : Tensor α} {zi : Option (Tensor α)} {bv av : Nat → Nat
    → Nat → α} {x z : Nat → Nat → α} {u : Option Int} (lpc : Lpv.Lpc α) (hb : MatVals B N K b bv) (ha : MatVals B N
    P a av) (hx : Sig N B X x) (hz : InitState B (max P (K - 1)) zi z) (hBN : b.rank = 2 ∨ B ≠ N) (hB : 0 < B) (hK :
    0 < K) (hM : 0 < max P (K - 1)) (hN : 0 < N) (hu : ∀ i, u = some i → 1 ≤ i) :
    CausalOn (fun x zi => Lpv.lfilter lpc b a x zi .tdf2 .ssm u) X.shape (zi.map shape) :=
  (lpv_tdf2_both lpc hb ha hx hz hBN hB hK hM hN hu).2

example := C33_lpv_lfilter_tdf2_partial (B := 2) (N := 7) (K := 3) (P := 2) (u := some 2) Lpv.refLpc (.batched fun i t k => (i : ℤ) + t * k)
  (.batched fun i t k => (i : ℤ) - t * k) (.batched 2 fun i t => (i : ℤ) * t) (.full fun i t => (i : ℤ) - t) (Or.inr (by decide)) (by decide)
  (by decide) (by decide) (by decide) (by simp)

/-- **C33, `lpv.lfilter`, direct form I, backend `ssm`.** -/
theorem C33_lpv_lfilter_df1 {B N K P : Nat} {b a X : Tensor α} {bv av : Nat → Nat → Nat → α} {x : Nat → Nat
    → α} {u : Option Int} (lpc : Lpv.Lpc α) (hb : MatVals B N K b bv) (ha : MatVals B N P a av) (hx : Sig N B X x)
    (hB : 0 < B) (hK : 0 < K) (hM : 0 < max P (K - 1)) (hN : 0 < N) (hu : ∀ i, u = some i → 1 ≤ i) :
    CausalOn (fun x zi => Lpv.lfilter lpc b a x zi .df1 .ssm u) X.shape none :=
  (lpv_df1_both lpc hb ha hx _ rfl hB hK hM hN hu).2

example := C33_lpv_lfilter_df1 (B := 2) (N := 7) (K := 3) (P := 2) (u := some 2) Lpv.refLpc (.batched fun i t k => (i : ℤ) + t * k)
  (.batched fun i t k => (i : ℤ) - t * k) (.batched 2 fun i t => (i : ℤ) * t) (by decide) (by decide) (by decide) (by decide) (by simp)

/-- **C33, `lpv.lfilter`, transposed direct form I, backend `ssm`.** -/
theorem C33_lpv_lfilter_tdf1 {B N K P : Nat} {b a X : Tensor α} {bv av : Nat → Nat → Nat → α} {x : Nat → Nat
    → α} {u : Option Int} (lpc : Lpv.Lpc α) (hb : MatVals B N K b bv) (ha : MatVals B N P a av) (hx : Sig N B X x)
    (hB : 0 < B) (hK : 0 < K) (hM : 0 < max P (K - 1)) (hN : 0 < N) (hu : ∀ i, u = some i → 1 ≤ i) :
    CausalOn (fun x zi => Lpv.lfilter lpc b a x zi .tdf1 .ssm u) X.shape none :=
  (lpv_tdf1_both lpc hb ha hx _ rfl hB hK hM hN hu).2

example := C33_lpv_lfilter_tdf1 (B := 2) (N := 7) (K := 3) (P := 2) (u := some 2) Lpv.refLpc (.batched fun i t k => (i : ℤ) + t * k)
  (.batched fun i t k => (i : ℤ) - t * k) (.batched 2 fun i t => (i : ℤ) * t) (by decide) (by decide) (by decide) (by decide) (by simp)

/-- **C33, `lpv.lfilter`, direct form II, backend `torchlpc`.** -/
theorem C33_lpv_lfilter_torchlpc_partial {B N K P : Nat} {b a X : Tensor α} {zi : Option (Tensor α)} {bv av : Nat →
    Nat → Nat → α} {x z : Nat → Nat → α} {u : Option Int} {lpc : Lpv.Lpc α} (hl : IsLpc lpc) (hb : MatVals B N K b
    bv) (ha : MatVals B N P a av) (hx : Sig N B X x) (hz : InitState B (max P (K - 1)) zi z) (hB : 0 < B) (hK : 0 <
    K) (hP : 0 < P) (hN : 0 < N) (hf : zi = none ∨ P ≤ N) :
    CausalOn (fun x zi => Lpv.lfilter lpc b a x zi .df2 .torchlpc u) X.shape (zi.map shape) :=
  (torchlpc_df2_both hl hb ha hx hz hB hK hP hN hf).2

example := C33_lpv_lfilter_torchlpc_partial (B := 2) (N := 7) (K := 3) (P := 2) (u := some 2) Lpv.refLpc_isLpc
  (.batched fun i t k => (i : ℤ) + t * k) (.batched fun i t k => (i : ℤ) - t * k) (.batched 2 fun i t => (i : ℤ) * t) (.full fun i t => (i : ℤ) - t)
  (by decide) (by decide) (by decide) (by decide) (by decide)

/-- **C33, `lpv.allpole`, direct form without state.** -/
theorem C33_lpv_allpole {B M N : Nat} {lpc : Lpv.Lpc α} (hl : IsLpc lpc) (a : Nat → Nat → Nat → α) (hM : 0 < M) (hN
    : 0 < N) :
    CausalOn (fun x zi => Lpv.allpole lpc (t3 B N M a) x zi false) [B, N] none :=
  (allpole_none_both hl a hM hN).2

example := C33_lpv_allpole (B := 2) (M := 2) (N := 7) Lpv.refLpc_isLpc (fun i t k => (i : ℤ) + t * k) (by decide) (by decide)

/-- **C33, `lpv.allpole`, direct form with state.** -/
theorem C33_lpv_allpole_state_partial {B M N : Nat} {lpc : Lpv.Lpc α} (hl : IsLpc lpc) (a : Nat → Nat → Nat → α) (hM
    : 0 < M) (hMN : M ≤ N) :
    CausalOn (fun x zi => Lpv.allpole lpc (t3 B N M a) x zi false) [B, N] (some [B, M]) :=
  (allpole_some_both hl a hM hMN).2

example := C33_lpv_allpole_state_partial (B := 2) (M := 2) (N := 7) Lpv.refLpc_isLpc (fun i t k => (i : ℤ) + t * k) (by decide) (by decide)

/-- **C33, `lpv.lfilter`, direct form I, backend `torchlpc`.** -/
theorem C33_lpv_lfilter_torchlpc_df1 {B N K P : Nat} {b a X : Tensor α} {bv av : Nat → Nat → Nat → α}
    {x : Nat → Nat → α} {u : Option Int} {lpc : Lpv.Lpc α} (hl : IsLpc lpc) (hb : MatVals B N K b bv)
    (ha : MatVals B N P a av) (hx : Sig N B X x) (hB : 0 < B) (hK : 0 < K) (hP : 0 < P) (hN : 0 < N) :
    CausalOn (fun x zi => Lpv.lfilter lpc b a x zi .df1 .torchlpc u) X.shape none :=
  (torchlpc_df1_both hl hb ha hx hB hK hP hN).2

example := C33_lpv_lfilter_torchlpc_df1 (B := 2) (N := 7) (K := 3) (P := 2) (u := some 2) Lpv.refLpc_isLpc (.batched fun i t k => (i : ℤ) + t * k)
  (.batched fun i t k => (i : ℤ) - t * k) (.batched 2 fun i t => (i : ℤ) * t) (by decide) (by decide) (by decide) (by decide)

/-- **C33, `lpv.lfilter`, transposed direct form I, backend `torchlpc`.** -/
theorem C33_lpv_lfilter_torchlpc_tdf1_partial {B N M P : Nat} {b a X : Tensor α} {bv av : Nat → Nat → Nat → α}
    {x : Nat → Nat → α} {u : Option Int} {lpc : Lpv.Lpc α} (hl : IsLpc lpc) (hb : MatVals B N (M + 1) b bv)
    (ha : MatVals B N P a av) (hx : Sig N B X x) (hB : 0 < B) (hM : 0 < M) (hP : 0 < P) (hPN : P ≤ N) :
    CausalOn (fun x zi => Lpv.lfilter lpc b a x zi .tdf1 .torchlpc u) X.shape none :=
  (torchlpc_tdf1_both hl hb ha hx hB hM hP hPN).2

example := C33_lpv_lfilter_torchlpc_tdf1_partial (B := 2) (N := 7) (M := 2) (P := 2) (u := some 2) Lpv.refLpc_isLpc
  (.batched fun i t k => (i : ℤ) + t * k) (.batched fun i t k => (i : ℤ) - t * k) (.batched 2 fun i t => (i : ℤ) * t) (by decide) (by decide)
  (by decide) (by decide)

/-- **C33, `lpv.allpole`, transposed form without state.** -/
theorem C33_lpv_allpole_transposed_partial {B M N : Nat} {lpc : Lpv.Lpc α} (hl : IsLpc lpc)
    (a : Nat → Nat → Nat → α) (hM : 0 < M) (hMN : M ≤ N) :
    CausalOn (fun x zi => Lpv.allpole lpc (t3 B N M a) x zi true) [B, N] none :=
  (allpoleT_none_both hl a hM hMN).2

example := C33_lpv_allpole_transposed_partial (B := 2) (M := 2) (N := 7) Lpv.refLpc_isLpc (fun i t k => (i : ℤ) + t * k) (by decide) (by decide)

/-- **C33, `lpv.allpole`, transposed form with state.** -/
theorem C33_lpv_allpole_transposed_state_partial {B M N : Nat} {lpc : Lpv.Lpc α} (hl : IsLpc lpc)
    (a : Nat → Nat → Nat → α) (hM : 0 < M) (hMN : M ≤ N) :
    CausalOn (fun x zi => Lpv.allpole lpc (t3 B N M a) x zi true) [B, N] (some [B, M]) :=
  (allpoleT_some_both hl a hM hMN).2

example := C33_lpv_allpole_transposed_state_partial (B := 2) (M := 2) (N := 7) Lpv.refLpc_isLpc (fun i t k => (i : ℤ) + t * k) (by decide)
  (by decide)

/-- **C33, `lti.comb_filter` with the extension, delays of at least two.** -/
theorem C33_comb_filter_partial {B N D : Nat} {a : Tensor α} {av : Nat → α} {zi : Option (Tensor α)} {z : Nat → Nat
    → α} {u : Int} (ha : PerItem B a av) (hz : Past B D zi z) (hD : 2 ≤ D) (hN : 0 < N) (hu : 1 ≤ u) :
    CausalOn (fun x zi => Lti.combFilter true a D x zi u) [B, N] (zi.map shape) :=
  (comb_both ha hz hD hN hu).2

example := C33_comb_filter_partial (B := 2) (N := 7) (D := 3) (u := 2) (.full fun i => (i : ℤ) + 2) (.batched fun i t => (i : ℤ) - t) (by decide)
  (by decide) (by decide)

/-- **C33, `lti.comb_filter`, delay one, with or without the extension.** -/
theorem C33_comb_filter_one {B N : Nat} {a : Tensor α} {av : Nat → α} {zi : Option (Tensor α)} {z : Nat → Nat → α}
    {u : Int} (ext : Bool) (ha : PerItem B a av) (hz : Past B 1 zi z) (hN : 0 < N) (hu : 1 ≤ u) :
    CausalOn (fun x zi => Lti.combFilter ext a 1 x zi u) [B, N] (zi.map shape) :=
  (comb_one_both ext ha hz hN hu).2

example := C33_comb_filter_one (B := 2) (N := 7) (u := 2) true (.full fun i => (i : ℤ) + 2) (.batched fun i t => (i : ℤ) - t) (by decide)
  (by decide)

/-! ## Diagonalised filters -/

/-- **C33, `lti.diag_state_space`** with a given eigenbasis, complex coefficients (so the real part is not taken). -/
theorem C33_diag_state_space_partial {γ : Type} [Field γ] [StarRing γ] {B N M : Nat} {A L V W x : Tensor γ} {V' W' A' Bm C D zi : Option (Tensor γ)}
    {k : Option Nat} {l z : Nat → Nat → γ} {Av v w vx d : Nat → Nat → Nat → γ} {r : Nat → (Nat → γ) → Nat → γ} {u : Option Int}
    {ev : Tensor γ → Res (Tensor γ)} {fe : Tensor γ → Tensor γ → Res (Tensor γ)} {re : γ → γ}
    (hE : Eigen B M L V W l v w) (hA : MatVals B M M A Av) (hdec : ∀ b, Diagonalises M (Av b) (l b) (v b) (w b))
    (hV' : V' = none ∨ V' = some V) (hW' : W' = none ∨ W' = some W) (hone : V'.isSome ∨ W'.isSome)
    (hA' : ∀ A₁, A' = some A₁ → A₁.shape = V.shape)
    (hB : LtiInput B N M Bm x vx) (hC : LtiReadout B M C k r) (hD : LtiFeed B N D x k d) (hz : InitState B M zi z)
    (hM : 0 < M) (hN : 0 < N) (hu : ∀ i, u = some i → 1 ≤ i) :
    CausalOn (fun x zi => Lti.diagStateSpace ev fe re false x (some L) V' W' A' Bm C D zi none u) x.shape (zi.map shape) := by
  obtain ⟨F, g, hg⟩ := ltiInput_memoryless hB
  obtain ⟨F', g', hg'⟩ := ltiFeed_memoryless hD
  refine (both_congr (fun x' z' hx' hz' => ?_) (lti_stateSpace_both hA hB hC hD hz hM hN hu)).2
  exact C22_given_basis_partial hE hA hdec hV' hW' hone hA' (hg x' hx') hC (hg' x' hx') (initState_vals hz hz') hM hN hu hu (by simp)

example (ev : Tensor ℚ → Res (Tensor ℚ)) (fe : Tensor ℚ → Tensor ℚ → Res (Tensor ℚ)) :=
  C33_diag_state_space_partial (B := 3) (N := 5) (M := 2) (A' := none) (u := none) (ev := ev) (fe := fe) (re := id)
    (.shared _ _ _) (.shared _) (fun _ => Witness.two_three) (Or.inr rfl) (Or.inl rfl) (Or.inl rfl) (by simp)
    (.none (.scalar fun b t => (b : ℚ) * t)) (.mat 2 (fun i j => (i : ℚ) + j) (by decide)) (.none _ _) (.shared fun m => (m : ℚ) + 1)
    (by decide) (by decide) (by simp)

/-- **C33, `lti.lfilter`, backend `diag_ssm`**, direct form II, short numerator, complex coefficients. -/
theorem C33_diag_lfilter_df2_partial {β : Type} [RCLike β] {B N K P : Nat} {b a X : Tensor β} {bv av p z x : Nat → Nat → β} {zi : Option (Tensor β)}
    {u : Option Int} {ev : Tensor β → Res (Tensor β)} {re : β → β} {delayed : Bool}
    (hb : Rows B K b bv) (ha : Rows B P a av) (hx : Sig N B X x) (hz : InitState B P zi z) (hP : 0 < P) (hK : 0 < K)
    (hKP : K ≤ P + 1) (hN : 0 < N) (hu : ∀ i, u = some i → 1 ≤ i) (hp : ∀ i, DistinctPoles P (av i) (p i))
    (hp0 : ∀ i m, m < P → p i m ≠ 0) (hev : ListsEigenvalues ev B P (fun i => comp (av i))) :
    CausalOn (fun x zi => Lti.lfilterDiag ev findEigenvectors re false b a x zi .df2 delayed u) X.shape (zi.map shape) := by
  have hM : max P (K - 1) = P := by omega
  refine (both_congr (fun X' z' hX' hz' => ?_) (lti_df2_both hb ha hx (hM.symm ▸ hz) hK (by omega) hN hu)).2
  exact C23_short_partial hb ha (sig_vals hx hX') (initState_vals hz hz') hP hK hKP hN hu hu hp ⟨hp0, hev, by simp⟩

example (b x : Nat → Nat → ℂ) (z : Nat → ℂ) := C33_diag_lfilter_df2_partial (B := 3) (N := 7) (K := 2) (P := 2) (u := none)
  (ev := Witness.answer 3 2 Witness.rotEig) (re := id) (delayed := true) (.batched b) (.shared fun k => if k = 0 then (0 : ℂ) else 1)
  (.batched 3 x) (.shared z) (by decide) (by decide) (by decide) (by decide) (by simp) (fun _ => Witness.rot_poles)
  (fun _ m _ => Witness.rotEig_ne m) (Witness.rot_lists 3)

/-- **C33, `lti.lfilter`, backend `diag_ssm`**, transposed direct form II, short numerator. -/
theorem C33_diag_lfilter_tdf2_partial {β : Type} [RCLike β] {B N K P : Nat} {b a X : Tensor β} {bv av p z x : Nat → Nat → β} {zi : Option (Tensor β)}
    {u : Option Int} {ev : Tensor β → Res (Tensor β)} {re : β → β} {delayed realC : Bool}
    (hb : Rows B K b bv) (ha : Rows B P a av) (hx : Sig N B X x) (hz : InitState B P zi z) (hP : 0 < P) (hK : 0 < K)
    (hKP : K ≤ P + 1) (hN : 0 < N) (hu : ∀ i, u = some i → 1 ≤ i) (hp : ∀ i, DistinctPoles P (av i) (p i))
    (hev : ListsEigenvalues ev B P (fun i j k => comp (fun k => star (av i k)) k j)) :
    CausalOn (fun x zi => Lti.lfilterDiag ev findEigenvectors re realC b a x zi .tdf2 delayed u) X.shape (zi.map shape) := by
  have hM : max P (K - 1) = P := by omega
  refine (both_congr (fun X' z' hX' hz' => ?_) (lti_tdf2_both hb ha hx (hM.symm ▸ hz) hK (by omega) hN hu)).2
  exact C23_short_partial hb ha (sig_vals hx hX') (initState_vals hz hz') hP hK hKP hN hu hu hp hev

example (b x : Nat → Nat → ℂ) (z : Nat → ℂ) := C33_diag_lfilter_tdf2_partial (B := 3) (N := 7) (K := 2) (P := 2) (u := none)
  (ev := Witness.answer 3 2 Witness.rotEig) (re := id) (delayed := true) (realC := false) (.batched b)
  (.shared fun k => if k = 0 then (0 : ℂ) else 1) (.batched 3 x) (.shared z) (by decide) (by decide) (by decide) (by decide) (by simp)
  (fun _ => Witness.rot_poles) (Witness.rot_listsT 3)

/-! ## Coefficients that change after time `T` -/

/-- **C33, `lpv.linear_recurrence`**: neither later samples nor later coefficients matter, even with different layouts of the
coefficients and different unroll factors. -/
theorem C33_lpv_linear_recurrence_coeffs {B N T : Nat} {a a' init : Tensor α} {av av' : Nat → Nat → α} {iv : Nat → α}
    (x x' : Nat → Nat → α) (u u' : Int) (ha : TimeVals B N a av) (ha' : TimeVals B N a' av') (hi : BatchVals B init iv)
    (hN : 0 < N) (hu : 1 ≤ u) (hu' : 1 ≤ u') (ea : ∀ b t, t ≤ T → av b t = av' b t) (ex : ∀ b t, t ≤ T → x b t = x' b t) :
    ∃ y y', Lpv.linearRecurrence a init (t2 B N x) u = .ok y ∧ Lpv.linearRecurrence a' init (t2 B N x') u' = .ok y' ∧
      AgreeTo T y y' := by
  refine ⟨_, _, C02_linear_recurrence x u ha hi hN hu, C02_linear_recurrence x' u' ha' hi hN hu', ?_⟩
  refine agreeTo_packed (fl := false) (B := B) (N := N) (T := T) (f := fun b t => scalarRec (av b) (iv b) (x b) (t + 1))
    (g := fun b t => scalarRec (av' b) (iv b) (x' b) (t + 1)) fun b t ht => ?_
  exact scalarRec_agree (T := t + 1) (fun s hs => ea b s (by omega)) (fun s hs => ex b s (by omega)) le_rfl

/-- **C33, `lpv.state_space`**: the state matrix, the input, output and feedthrough matrices and the signal may all change
after time `T` without changing the output up to `T`. -/
theorem C33_lpv_state_space_coeffs_partial {B N M T : Nat} {A A' x x' : Tensor α} {Bm C D Bm' C' D' zi : Option (Tensor α)} {k : Option Nat}
    {Av Av' : Nat → Nat → Nat → Nat → α} {v d v' d' : Nat → Nat → Nat → α} {r r' : Nat → Nat → (Nat → α) → Nat → α}
    {z : Nat → Nat → α} {u u' : Option Int} (hA : MatSeq B N M M A Av) (hB : LpvInput B N M Bm x v)
    (hC : LpvReadout B N M C k r) (hD : LpvFeed B N D x k d) (hA' : MatSeq B N M M A' Av') (hB' : LpvInput B N M Bm' x' v')
    (hC' : LpvReadout B N M C' k r') (hD' : LpvFeed B N D' x' k d') (hz : InitState B M zi z) (hB0 : 0 < B) (hM : 0 < M)
    (hN : 0 < N) (hu : GoodUnroll N u) (hu' : GoodUnroll N u') (eA : ∀ b t i j, t < T → Av b t i j = Av' b t i j)
    (ev : ∀ b t m, t < T → v b t m = v' b t m) (er : ∀ b t h p, t ≤ T → r b t h p = r' b t h p)
    (ed : ∀ b t p, t ≤ T → d b t p = d' b t p) :
    ∃ y y' f f', Lpv.stateSpace A x Bm C D zi u none = .ok (y, f) ∧ Lpv.stateSpace A' x' Bm' C' D' zi u' none = .ok (y', f') ∧
      AgreeTo T y y' :=
  ⟨_, _, _, _, Lpv.stateSpace_eq hA hB hC hD hz hB0 hM hN hu.1 hu.2, Lpv.stateSpace_eq hA' hB' hC' hD' hz hB0 hM hN hu'.1 hu'.2,
    agreeTo_signal fun b t p ht => by
      rw [er b t _ p ht, ed b t p ht, show vecRec M (Av b) (z b) (v b) t = vecRec M (Av' b) (z b) (v' b) t from funext fun m =>
        vecRec_agree (T := T) (fun s i j hs => eA b s i j hs) (fun s m hs => ev b s m hs) ht m]⟩

example := C33_lpv_state_space_coeffs_partial (B := 3) (N := 7) (M := 2) (T := 4) (u := some 2) (u' := some 2)
  (.batched fun i t k j => (i : ℤ) + t * k - j) (.batchVec (fun i t => (i : ℤ) + t) (fun i t => (i : ℤ) * t) (by decide))
  (.mat 2 (fun i t => (i : ℤ) + t) (by decide) (by decide)) (.none _ _) (.batched fun i t k j => if t < 4 then (i : ℤ) + t * k - j else 9)
  (.batchVec (fun i t => (i : ℤ) + t) (fun i t => (i : ℤ) * t) (by decide)) (.mat 2 (fun i t => (i : ℤ) + t) (by decide) (by decide)) (.none _ _)
  (.full fun i t => (i : ℤ) - t) (by decide) (by decide) (by decide) (by unfold GoodUnroll; decide +kernel) (by unfold GoodUnroll; decide +kernel)
  (fun _ _ _ _ h => (if_pos h).symm) (by simp) (by simp) (by simp)

/-- **C33, `lpv.lfilter`, direct form II, backend `ssm`**: numerator, denominator and signal may change after time `T`. -/
theorem C33_lpv_lfilter_df2_coeffs_partial {B N K P T : Nat} {b a b' a' X X' : Tensor α} {bv av bv' av' : Nat → Nat → Nat → α}
    {x x' z : Nat → Nat → α} {zi : Option (Tensor α)} {u u' : Option Int} (lpc : Lpv.Lpc α)
    (hb : MatVals B N K b bv) (ha : MatVals B N P a av) (hx : Sig N B X x) (hb' : MatVals B N K b' bv') (ha' : MatVals B N P a' av')
    (hx' : Sig N B X' x') (hz : InitState B (max P (K - 1)) zi z) (hBN : b.rank = 2 ∧ a.rank = 2 ∨ B ≠ N)
    (hBN' : b'.rank = 2 ∧ a'.rank = 2 ∨ B ≠ N) (hB : 0 < B) (hK : 0 < K) (hM : 0 < max P (K - 1)) (hN : 0 < N)
    (hu : GoodUnroll N u) (hu' : GoodUnroll N u') (hfl : allFlatTv X b a zi = allFlatTv X' b' a' zi)
    (eb : ∀ i t k, t ≤ T → bv i t k = bv' i t k) (ea : ∀ i t k, t ≤ T → av i t k = av' i t k)
    (ex : ∀ i t, t ≤ T → x i t = x' i t) :
    ∃ y y' f f', Lpv.lfilter lpc b a X zi .df2 .ssm u = .ok (y, f) ∧ Lpv.lfilter lpc b' a' X' zi .df2 .ssm u' = .ok (y', f') ∧
      AgreeTo T y y' := by
  refine ⟨_, _, _, _, Lpv.lfilterWith_seq hb ha hx (Lpv.ssmLfilter_tvdf2 hb ha _ hz hBN hB hK hM hN hu),
    Lpv.lfilterWith_seq hb' ha' hx' (Lpv.ssmLfilter_tvdf2 hb' ha' _ hz hBN' hB hK hM hN hu'), ?_⟩
  rw [← hfl]
  refine agreeTo_packed fun i t ht => ?_
  rw [show bv i t = bv' i t from funext fun k => eb i t k ht]
  refine taps_agree (T := t) (fun _ => rfl) (fun n hn => ?_) le_rfl
  exact tvSignal_agree (T := t) (fun s k hs => by unfold zext; rw [ea i s k (by omega)]) (fun s hs => ex i s (by omega)) hn

/-- Numerator, denominator and signal change after time 4. -/
example := C33_lpv_lfilter_df2_coeffs_partial (B := 2) (N := 7) (K := 3) (P := 2) (T := 4) (u := some 2) (u' := some 1) Lpv.refLpc
  (.batched fun i t k => (i : ℤ) + t * k) (.batched fun i t k => (i : ℤ) - t * k) (.batched 2 fun i t => (i : ℤ) * t)
  (.batched fun i t k => if t ≤ 4 then (i : ℤ) + t * k else 9) (.batched fun i t k => if t ≤ 4 then (i : ℤ) - t * k else 9)
  (.batched 2 fun i t => if t ≤ 4 then (i : ℤ) * t else 9) (.full fun i t => (i : ℤ) - t)
  (Or.inr (by decide)) (Or.inr (by decide)) (by decide) (by decide) (by decide) (by decide) (by unfold GoodUnroll; decide +kernel)
  (by unfold GoodUnroll; decide +kernel) rfl (fun _ _ _ h => (if_pos h).symm) (fun _ _ _ h => (if_pos h).symm) (fun _ _ h => (if_pos h).symm)

/-- **C33, `lpv.lfilter`, transposed direct form II, backend `ssm`**: numerator, denominator and signal may change after `T`. -/
theorem C33_lpv_lfilter_tdf2_coeffs_partial {B N K P T : Nat} {b a b' a' X X' : Tensor α} {bv av bv' av' : Nat → Nat → Nat → α}
    {x x' z : Nat → Nat → α} {zi : Option (Tensor α)} {u u' : Option Int} (lpc : Lpv.Lpc α)
    (hb : MatVals B N K b bv) (ha : MatVals B N P a av) (hx : Sig N B X x) (hb' : MatVals B N K b' bv') (ha' : MatVals B N P a' av')
    (hx' : Sig N B X' x') (hz : InitState B (max P (K - 1)) zi z) (hBN : b.rank = 2 ∨ B ≠ N)
    (hBN' : b'.rank = 2 ∨ B ≠ N) (hB : 0 < B) (hK : 0 < K) (hM : 0 < max P (K - 1)) (hN : 0 < N)
    (hu : GoodUnroll N u) (hu' : GoodUnroll N u') (hfl : allFlatTv X b a zi = allFlatTv X' b' a' zi)
    (eb : ∀ i t k, t ≤ T → bv i t k = bv' i t k) (ea : ∀ i t k, t ≤ T → av i t k = av' i t k)
    (ex : ∀ i t, t ≤ T → x i t = x' i t) :
    ∃ y y' f f', Lpv.lfilter lpc b a X zi .tdf2 .ssm u = .ok (y, f) ∧ Lpv.lfilter lpc b' a' X' zi .tdf2 .ssm u' = .ok (y', f') ∧
      AgreeTo T y y' := by
  refine ⟨_, _, _, _, Lpv.lfilterWith_seq hb ha hx (Lpv.ssmLfilter_tvtdf2 hb ha _ hz hBN hB hK hM hN hu),
    Lpv.lfilterWith_seq hb' ha' hx' (Lpv.ssmLfilter_tvtdf2 hb' ha' _ hz hBN' hB hK hM hN hu'), ?_⟩
  rw [← hfl]
  refine agreeTo_packed fun i t ht => ?_
  exact tvTdf2Out_agree (T := t) (fun s k hs => by unfold zext; rw [eb i s k (by omega)])
    (fun s k hs => by unfold zext; rw [ea i s k (by omega)]) (fun s hs => ex i s (by omega)) le_rfl

/-- Numerator, denominator and signal change after time 4. -/
example := C33_lpv_lfilter_tdf2_coeffs_partial (B := 2) (N := 7) (K := 3) (P := 2) (T := 4) (u := some 2) (u' := some 1) Lpv.refLpc
  (.batched fun i t k => (i : ℤ) + t * k) (.batched fun i t k => (i : ℤ) - t * k) (.batched 2 fun i t => (i : ℤ) * t)
  (.batched fun i t k => if t ≤ 4 then (i : ℤ) + t * k else 9) (.batched fun i t k => if t ≤ 4 then (i : ℤ) - t * k else 9)
  (.batched 2 fun i t => if t ≤ 4 then (i : ℤ) * t else 9) (.full fun i t => (i : ℤ) - t)
  (Or.inr (by decide)) (Or.inr (by decide)) (by decide) (by decide) (by decide) (by decide) (by unfold GoodUnroll; decide +kernel)
  (by unfold GoodUnroll; decide +kernel) rfl (fun _ _ _ h => (if_pos h).symm) (fun _ _ _ h => (if_pos h).symm) (fun _ _ h => (if_pos h).symm)

/-- **C33, `lpv.state_space`**: the state matrix, the input, output and feedthrough matrices and the signal may all change
after time `T` without changing the output up to `T`, for every unroll factor. -/
theorem C33_lpv_state_space_coeffs {B N M T : Nat} {A A' x x' : Tensor α} {Bm C D Bm' C' D' zi : Option (Tensor α)} {k : Option Nat}
    {Av Av' : Nat → Nat → Nat → Nat → α} {v d v' d' : Nat → Nat → Nat → α} {r r' : Nat → Nat → (Nat → α) → Nat → α}
    {z : Nat → Nat → α} {u : Option Int} (hA : MatSeq B N M M A Av) (hB : LpvInput B N M Bm x v)
    (hC : LpvReadout B N M C k r) (hD : LpvFeed B N D x k d) (hA' : MatSeq B N M M A' Av') (hB' : LpvInput B N M Bm' x' v')
    (hC' : LpvReadout B N M C' k r') (hD' : LpvFeed B N D' x' k d') (hz : InitState B M zi z) (hB0 : 0 < B) (hM : 0 < M)
    (hN : 0 < N) (hu : ∀ i, u = some i → 1 ≤ i) (eA : ∀ b t i j, t < T → Av b t i j = Av' b t i j)
    (ev : ∀ b t m, t < T → v b t m = v' b t m) (er : ∀ b t h p, t ≤ T → r b t h p = r' b t h p)
    (ed : ∀ b t p, t ≤ T → d b t p = d' b t p) :
    ∃ y y' f f', Lpv.stateSpace A x Bm C D zi u none = .ok (y, f) ∧ Lpv.stateSpace A' x' Bm' C' D' zi u none = .ok (y', f') ∧
      AgreeTo T y y' :=
  ⟨_, _, _, _, Lpv.stateSpace_any hA hB hC hD hz hB0 hM hN hu, Lpv.stateSpace_any hA' hB' hC' hD' hz hB0 hM hN hu,
    agreeTo_signal fun b t p ht => by
      rw [er b t _ p ht, ed b t p ht, show Lpv.anyRec M N (u.getD (roundSqrt N)) (Av b) (z b) (v b) t =
        Lpv.anyRec M N (u.getD (roundSqrt N)) (Av' b) (z b) (v' b) t from funext fun m =>
          Lpv.anyRec_causal (Lpv.UnrollOk.getD hu hN) (fun s i j hs => eA b s i j (by omega)) (fun s m hs => ev b s m (by omega)) m]⟩

example := C33_lpv_state_space_coeffs (B := 3) (N := 7) (M := 2) (T := 4) (u := some 2) (.batched fun i t k j => (i : ℤ) + t * k - j)
  (.batchVec (fun i t => (i : ℤ) + t) (fun i t => (i : ℤ) * t) (by decide)) (.mat 2 (fun i t => (i : ℤ) + t) (by decide) (by decide)) (.none _ _)
  (.batched fun i t k j => if t < 4 then (i : ℤ) + t * k - j else 9) (.batchVec (fun i t => (i : ℤ) + t) (fun i t => (i : ℤ) * t) (by decide))
  (.mat 2 (fun i t => (i : ℤ) + t) (by decide) (by decide)) (.none _ _) (.full fun i t => (i : ℤ) - t) (by decide) (by decide) (by decide) (by simp)
  (fun _ _ _ _ h => (if_pos h).symm) (by simp) (by simp) (by simp)

/-- **C33, `lpv.lfilter`, direct form II, backend `ssm`**: numerator, denominator and signal may change after time `T`;
the same unroll factor on both sides, whatever it is. -/
theorem C33_lpv_lfilter_df2_coeffs_same_unroll_partial {B N K P T : Nat} {b a b' a' X X' : Tensor α} {bv av bv' av' : Nat → Nat → Nat → α}
    {x x' z : Nat → Nat → α} {zi : Option (Tensor α)} {u : Option Int} (lpc : Lpv.Lpc α)
    (hb : MatVals B N K b bv) (ha : MatVals B N P a av) (hx : Sig N B X x) (hb' : MatVals B N K b' bv') (ha' : MatVals B N P a' av')
    (hx' : Sig N B X' x') (hz : InitState B (max P (K - 1)) zi z) (hBN : b.rank = 2 ∧ a.rank = 2 ∨ B ≠ N)
    (hBN' : b'.rank = 2 ∧ a'.rank = 2 ∨ B ≠ N) (hB : 0 < B) (hK : 0 < K) (hM : 0 < max P (K - 1)) (hN : 0 < N)
    (hu : ∀ i, u = some i → 1 ≤ i) (hfl : allFlatTv X b a zi = allFlatTv X' b' a' zi)
    (eb : ∀ i t k, t ≤ T → bv i t k = bv' i t k) (ea : ∀ i t k, t ≤ T → av i t k = av' i t k)
    (ex : ∀ i t, t ≤ T → x i t = x' i t) :
    ∃ y y' f f', Lpv.lfilter lpc b a X zi .df2 .ssm u = .ok (y, f) ∧ Lpv.lfilter lpc b' a' X' zi .df2 .ssm u = .ok (y', f') ∧
      AgreeTo T y y' := by
  refine ⟨_, _, _, _, Lpv.lfilterWith_seq hb ha hx (Lpv.ssmLfilter_df2_any hb ha _ hz hBN hB hK hM hN hu),
    Lpv.lfilterWith_seq hb' ha' hx' (Lpv.ssmLfilter_df2_any hb' ha' _ hz hBN' hB hK hM hN hu), ?_⟩
  rw [← hfl]
  refine agreeTo_packed fun i t ht => ?_
  exact Lpv.anyDf2Out_causal (Lpv.UnrollOk.getD hu hN) (fun k => by unfold zext; rw [eb i t k ht])
    (fun s k hs => by unfold zext; rw [ea i s k (by omega)]) (fun s hs => ex i s (by omega))

example := C33_lpv_lfilter_df2_coeffs_same_unroll_partial (B := 2) (N := 7) (K := 3) (P := 2) (T := 4) (u := some 4) Lpv.refLpc
  (.batched fun i t k => (i : ℤ) + t * k) (.batched fun i t k => (i : ℤ) - t * k) (.batched 2 fun i t => (i : ℤ) * t)
  (.batched fun i t k => if t ≤ 4 then (i : ℤ) + t * k else 9) (.batched fun i t k => if t ≤ 4 then (i : ℤ) - t * k else 9)
  (.batched 2 fun i t => if t ≤ 4 then (i : ℤ) * t else 9) (.full fun i t => (i : ℤ) - t)
  (Or.inr (by decide)) (Or.inr (by decide)) (by decide) (by decide) (by decide) (by decide) (by simp)
  rfl (fun _ _ _ h => (if_pos h).symm) (fun _ _ _ h => (if_pos h).symm) (fun _ _ h => (if_pos h).symm)

/-- **C33, `lpv.lfilter`, transposed direct form II, backend `ssm`**: numerator, denominator and signal may change after `T`;
the same unroll factor on both sides, whatever it is. -/
theorem C33_lpv_lfilter_tdf2_coeffs_same_unroll_partial {B N K P T : Nat} {b a b' a' X X' : Tensor α} {bv av bv' av' : Nat → Nat → Nat → α}
    {x x' z : Nat → Nat → α} {zi : Option (Tensor α)} {u : Option Int} (lpc : Lpv.Lpc α)
    (hb : MatVals B N K b bv) (ha : MatVals B N P a av) (hx : Sig N B X x) (hb' : MatVals B N K b' bv') (ha' : MatVals B N P a' av')
    (hx' : Sig N B X' x') (hz : InitState B (max P (K - 1)) zi z) (hBN : b.rank = 2 ∨ B ≠ N)
    (hBN' : b'.rank = 2 ∨ B ≠ N) (hB : 0 < B) (hK : 0 < K) (hM : 0 < max P (K - 1)) (hN : 0 < N)
    (hu : ∀ i, u = some i → 1 ≤ i) (hfl : allFlatTv X b a zi = allFlatTv X' b' a' zi)
    (eb : ∀ i t k, t ≤ T → bv i t k = bv' i t k) (ea : ∀ i t k, t ≤ T → av i t k = av' i t k)
    (ex : ∀ i t, t ≤ T → x i t = x' i t) :
    ∃ y y' f f', Lpv.lfilter lpc b a X zi .tdf2 .ssm u = .ok (y, f) ∧ Lpv.lfilter lpc b' a' X' zi .tdf2 .ssm u = .ok (y', f') ∧
      AgreeTo T y y' := by
  refine ⟨_, _, _, _, Lpv.lfilterWith_seq hb ha hx (Lpv.ssmLfilter_tdf2_any hb ha _ hz hBN hB hK hM hN hu),
    Lpv.lfilterWith_seq hb' ha' hx' (Lpv.ssmLfilter_tdf2_any hb' ha' _ hz hBN' hB hK hM hN hu), ?_⟩
  rw [← hfl]
  refine agreeTo_packed fun i t ht => ?_
  rw [Lpv.anyTdf2State_causal (Lpv.UnrollOk.getD hu hN) (fun s k hs => by unfold zext; rw [eb i s k (by omega)])
    (fun s k hs => by unfold zext; rw [ea i s k (by omega)]) (fun s hs => ex i s (by omega)), ex i t ht, zext, zext, eb i t 0 ht]
  rfl

example := C33_lpv_lfilter_tdf2_coeffs_same_unroll_partial (B := 2) (N := 7) (K := 3) (P := 2) (T := 4) (u := some 4) Lpv.refLpc
  (.batched fun i t k => (i : ℤ) + t * k) (.batched fun i t k => (i : ℤ) - t * k) (.batched 2 fun i t => (i : ℤ) * t)
  (.batched fun i t k => if t ≤ 4 then (i : ℤ) + t * k else 9) (.batched fun i t k => if t ≤ 4 then (i : ℤ) - t * k else 9)
  (.batched 2 fun i t => if t ≤ 4 then (i : ℤ) * t else 9) (.full fun i t => (i : ℤ) - t)
  (Or.inr (by decide)) (Or.inr (by decide)) (by decide) (by decide) (by decide) (by decide) (by simp)
  rfl (fun _ _ _ h => (if_pos h).symm) (fun _ _ _ h => (if_pos h).symm) (fun _ _ h => (if_pos h).symm)

/-- The hypotheses are satisfiable. -/
example : CausalOn (fun x zi => Lti.lfilter (t1 2 fun j => (j + 1 : ℚ)) (t2 3 2 fun i k => (i - k : ℚ)) x zi .tdf2 (some 2)) [3, 5] none :=
  C33_lfilter_tdf2 (B := 3) (N := 5) (K := 2) (P := 2) (X := t2 3 5 fun _ _ => 0) (zi := none) (z := fun _ _ => 0)
    (.shared _) (.batched _) (.batched 3 _) .zero (by decide) (by decide) (by decide) (by simp)

example : ∃ y y', Lpv.linearRecurrence (t1 7 fun t => (t : ℚ)) (t0 1) (t2 2 7 fun i t => i + t) 3 = .ok y ∧
    Lpv.linearRecurrence (t2 1 7 fun _ t => if t ≤ 3 then (t : ℚ) else 9) (t0 1) (t2 2 7 fun i t => if t ≤ 3 then i + t else 0) 2 = .ok y' ∧
    AgreeTo 3 y y' :=
  C33_lpv_linear_recurrence_coeffs _ _ _ _ (.shared _) (.single _) (.scalar _) (by decide) (by decide) (by decide)
    (fun _ t ht => (if_pos ht).symm) (fun _ t ht => (if_pos ht).symm)

end Props
