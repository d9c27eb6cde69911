import Verif.Proof.LinearVals
import Verif.Proof.LinearTorchlpc
import Verif.Props.C20
import Verif.Props.C22
import Verif.Props.C23

/-!
# C32: the filtering functions are linear in the signal and the state jointly

`LinearOn f sx sz` (Verif/Spec/Linear.lean): on signals of shape `sx` and initial states of shape `sz` (`none`: no state), `f`
succeeds, and `f (c x₁ + d x₂) (c z₁ + d z₂)` is `c` times the first result plus `d` times the second, for the output and for
the final state, for every `c` and `d`.  The hypotheses only fix the layout of the coefficients and of one signal of that
shape; they are those of the property that gives the values (C01, C02, C06 to C10, C13 to C19, C27 to C30).  For functions that
return no final state `noState` adds an empty one.

Missing in the theorems marked partial: the inputs on which the value theorems are partial (sizes that the size-based dispatch confuses, C08 and C09; signals on which the transposed
forms raise, C17 and C27).
-/

namespace Props
open Torch Torch.Tensor Spec Phil
open Phil.Lti (Form PadMode)
variable {α : Type} [CommRing α] [StarRing α]

/-- **C32, `lti.linear_recurrence`.** -/
theorem C32_linear_recurrence {B N : Nat} {a init : Tensor α} {av iv : Nat → α} (u : Int) (ha : BatchVals B a av)
    (hi : BatchVals B init iv) (hN : 0 < N) (hu : 1 ≤ u) :
    LinearOn (noState fun zi x => Lti.linearRecurrence a zi x u) [B, N] (some init.shape) :=
  (lti_recurrence_both u ha hi hN hu).1

example := C32_linear_recurrence (B := 2) (N := 7) 2 (.full fun i => (i : ℤ) + 2) (.full fun i => (i : ℤ) + 2) (by decide) (by decide)

/-- **C32, `lpv.linear_recurrence`.** -/
theorem C32_lpv_linear_recurrence {B N : Nat} {a init : Tensor α} {av : Nat → Nat → α} {iv : Nat → α} (u : Int) (ha
    : TimeVals B N a av) (hi : BatchVals B init iv) (hN : 0 < N) (hu : 1 ≤ u) :
    LinearOn (noState fun zi x => Lpv.linearRecurrence a zi x u) [B, N] (some init.shape) :=
  (lpv_recurrence_both u ha hi hN hu).1

omit [StarRing α] in
/-- **C32, `lti.state_space_recursion`.** -/
theorem C32_state_space_recursion {B N M : Nat} {A x : Tensor α} {Av xv : Nat → Nat → Nat → α} (hA : MatVals B M M A
    Av) (hx : Drive B N M x xv) (u : Int) (hM : 0 < M) (hN : 0 < N) (hu : 1 ≤ u) :
    LinearOn (noState fun zi x => Lti.stateSpaceRecursion A zi x u none) x.shape (some [B, M]) :=
  (lti_recursion_both hA hx u hM hN hu).1

example := C32_state_space_recursion (B := 2) (N := 7) (M := 2) (.batched fun i t k => (i : ℤ) - t * k) (.full fun i t k => (i : ℤ) + t * k) 2
  (by decide) (by decide) (by decide)

omit [StarRing α] in
/-- **C32, `lpv.state_space_recursion`, for every unroll factor (also those for which the states are wrong, C07).** -/
theorem C32_lpv_state_space_recursion {B N M : Nat} {A x : Tensor α} {Av : Nat → Nat → Nat → Nat → α} {xv :
    Nat → Nat → Nat → α} (hA : MatSeq B N M M A Av) (hx : Drive B N M x xv) (u : Int) (hB : 0 < B) (hM : 0 < M) (hN
    : 0 < N) (hu : 1 ≤ u) :
    LinearOn (noState fun zi x => Lpv.stateSpaceRecursion A zi x u none) x.shape (some [B, M]) :=
  (lpv_recursion_both hA hx u hB hM hN hu).1

example := C32_lpv_state_space_recursion (B := 2) (N := 7) (M := 2) (.batched fun i t k j => (i : ℤ) + t * k - j)
  (.full fun i t k => (i : ℤ) + t * k) 2 (by decide) (by decide) (by decide) (by decide)

/-- **C32, `lti.state_space`, every layout of the matrices, with or without state.** -/
theorem C32_state_space {B N M : Nat} {A x : Tensor α} {Bm C D zi : Option (Tensor α)} {k : Option Nat} {Av v d :
    Nat → Nat → Nat → α} {r : Nat → (Nat → α) → Nat → α} {z : Nat → Nat → α} {u : Option Int} (hA : MatVals B M M A
    Av) (hB : LtiInput B N M Bm x v) (hC : LtiReadout B M C k r) (hD : LtiFeed B N D x k d) (hz : InitState B M zi
    z) (hM : 0 < M) (hN : 0 < N) (hu : ∀ i, u = some i → 1 ≤ i) :
    LinearOn (fun x zi => Lti.stateSpace A x Bm C D zi u none) x.shape (zi.map shape) :=
  (lti_stateSpace_both hA hB hC hD hz hM hN hu).1

example := C32_state_space (B := 3) (N := 7) (M := 2) (u := some 2) (.batched fun i t k => (i : ℤ) - t * k)
  (.batchVec (fun i t => (i : ℤ) + t) fun i t => (i : ℤ) * t) (.mat 2 (fun i t => (i : ℤ) + t) (by decide)) (.none _ _)
  (.full fun i t => (i : ℤ) - t) (by decide) (by decide) (by simp)

/-- **C32, `lpv.state_space`, every layout of the matrices, for every unroll factor.** -/
theorem C32_lpv_state_space {B N M : Nat} {A x : Tensor α} {Bm C D zi : Option (Tensor α)} {k : Option Nat}
    {Av : Nat → Nat → Nat → Nat → α} {v d : Nat → Nat → Nat → α} {r : Nat → Nat → (Nat → α) → Nat → α} {z : Nat →
    Nat → α} {u : Option Int} (hA : MatSeq B N M M A Av) (hB : LpvInput B N M Bm x v) (hC : LpvReadout B N M C k r)
    (hD : LpvFeed B N D x k d) (hz : InitState B M zi z) (hB0 : 0 < B) (hM : 0 < M) (hN : 0 < N) (hu : ∀ i, u = some i → 1 ≤ i) :
    LinearOn (fun x zi => Lpv.stateSpace A x Bm C D zi u none) x.shape (zi.map shape) :=
  (lpv_stateSpace_both hA hB hC hD hz hB0 hM hN hu).1

example := C32_lpv_state_space (B := 3) (N := 7) (M := 2) (u := some 2) (.batched fun i t k j => (i : ℤ) + t * k - j)
  (.batchVec (fun i t => (i : ℤ) + t) (fun i t => (i : ℤ) * t) (by decide)) (.mat 2 (fun i t => (i : ℤ) + t) (by decide) (by decide)) (.none _ _)
  (.full fun i t => (i : ℤ) - t) (by decide) (by decide) (by decide) (by simp)

/-- **C32, `lti.fir` without state (the transposed form is wrong for `M = 0`, see C17).** -/
theorem C32_fir_partial {B M N : Nat} (b : Nat → Nat → α) (tr : Bool) (hB : 0 < B) (hN : 0 < N) (hM : tr = true → 0
    < M) :
    LinearOn (fun x zi => Lti.fir (t2 B (M + 1) b) x zi tr) [B, N] none :=
  (lti_fir_none_both b tr hB hN hM).1

example := C32_fir_partial (B := 2) (M := 2) (N := 7) (fun i t => (i : ℤ) + t) true (by decide) (by decide) (by decide)

/-- **C32, `lti.fir`, direct form with state.** -/
theorem C32_fir_direct_partial {B M N : Nat} (b : Nat → Nat → α) (hB : 0 < B) (hM : 0 < M) (hN : 0 < N) :
    LinearOn (fun x zi => Lti.fir (t2 B (M + 1) b) x zi false) [B, N] (some [B, M]) :=
  (lti_fir_direct_both b hB hM hN).1

example := C32_fir_direct_partial (B := 2) (M := 2) (N := 7) (fun i t => (i : ℤ) + t) (by decide) (by decide) (by decide)

/-- **C32, `lti.fir`, transposed form with state; a shorter signal raises (C17).** -/
theorem C32_fir_transposed_partial {B M N : Nat} (b : Nat → Nat → α) (hB : 0 < B) (hM : 0 < M) (hMN : M ≤ N) :
    LinearOn (fun x zi => Lti.fir (t2 B (M + 1) b) x zi true) [B, N] (some [B, M]) :=
  (lti_fir_transposed_both b hB hM hMN).1

example := C32_fir_transposed_partial (B := 2) (M := 2) (N := 7) (fun i t => (i : ℤ) + t) (by decide) (by decide) (by decide)

/-- **C32, `lpv.fir`, direct form without state.** -/
theorem C32_lpv_fir_direct {B M N : Nat} (b : Nat → Nat → Nat → α) (hN : 0 < N) :
    LinearOn (fun x zi => Lpv.fir (t3 B N (M + 1) b) x zi false) [B, N] none :=
  (lpv_fir_direct_none_both b hN).1

example := C32_lpv_fir_direct (B := 2) (M := 2) (N := 7) (fun i t k => (i : ℤ) - t * k) (by decide)

/-- **C32, `lpv.fir`, direct form with state.** -/
theorem C32_lpv_fir_direct_state {B M N : Nat} (b : Nat → Nat → Nat → α) (hN : 0 < N) :
    LinearOn (fun x zi => Lpv.fir (t3 B N (M + 1) b) x zi false) [B, N] (some [B, M]) :=
  (lpv_fir_direct_both b hN).1

example := C32_lpv_fir_direct_state (B := 2) (M := 2) (N := 7) (fun i t k => (i : ℤ) - t * k) (by decide)

/-- **C32, `lpv.fir`, transposed form without state.** -/
theorem C32_lpv_fir_transposed_partial {B M N : Nat} (b : Nat → Nat → Nat → α) (hM : 0 < M) (hN : 0 < N) :
    LinearOn (fun x zi => Lpv.fir (t3 B N (M + 1) b) x zi true) [B, N] none :=
  (lpv_fir_transposed_none_both b hM hN).1

example := C32_lpv_fir_transposed_partial (B := 2) (M := 2) (N := 7) (fun i t k => (i : ℤ) - t * k) (by decide) (by decide)

/-- **C32, `lpv.fir`, transposed form with state.** -/
theorem C32_lpv_fir_transposed_state_partial {B M N : Nat} (b : Nat → Nat → Nat → α) (hN : 0 < N) (hMN : M ≤ N) :
    LinearOn (fun x zi => Lpv.fir (t3 B N (M + 1) b) x zi true) [B, N] (some [B, M]) :=
  (lpv_fir_transposed_both b hN hMN).1

example := C32_lpv_fir_transposed_state_partial (B := 2) (M := 2) (N := 7) (fun i t k => (i : ℤ) - t * k) (by decide) (by decide)

/-- **C32, `lti.lfilter`, direct form II.** -/
theorem C32_lfilter_df2 {B N K P : Nat} {b a X : Tensor α} {zi : Option (Tensor α)} {bv av x z : Nat → Nat → α} {u :
    Option Int} (hb : Rows B K b bv) (ha : Rows B P a av) (hx : Sig N B X x) (hz : InitState B (max P (K - 1)) zi z)
    (hK : 0 < K) (hM : 0 < max P (K - 1)) (hN : 0 < N) (hu : ∀ i, u = some i → 1 ≤ i) :
    LinearOn (fun x zi => Lti.lfilter b a x zi .df2 u) X.shape (zi.map shape) :=
  (lti_df2_both hb ha hx hz hK hM hN hu).1

/-- **C32, `lti.lfilter`, transposed direct form II.** -/
theorem C32_lfilter_tdf2 {B N K P : Nat} {b a X : Tensor α} {zi : Option (Tensor α)} {bv av x z : Nat → Nat → α} {u
    : Option Int} (hb : Rows B K b bv) (ha : Rows B P a av) (hx : Sig N B X x) (hz : InitState B (max P (K - 1)) zi
    z) (hK : 0 < K) (hM : 0 < max P (K - 1)) (hN : 0 < N) (hu : ∀ i, u = some i → 1 ≤ i) :
    LinearOn (fun x zi => Lti.lfilter b a x zi .tdf2 u) X.shape (zi.map shape) :=
  (lti_tdf2_both hb ha hx hz hK hM hN hu).1

example := C32_lfilter_tdf2 (B := 2) (N := 7) (K := 3) (P := 2) (u := some 2) (.batched fun i t => (i : ℤ) + t) (.batched fun i t => (i : ℤ) + t)
  (.batched 2 fun i t => (i : ℤ) * t) (.full fun i t => (i : ℤ) - t) (by decide) (by decide) (by decide) (by simp)

/-- **C32, `lti.lfilter`, direct form I.** -/
theorem C32_lfilter_df1 {B N K P : Nat} {b a X : Tensor α} {bv av x : Nat → Nat → α} {u : Option Int} (hb : Rows B K
    b bv) (ha : Rows B P a av) (hx : Sig N B X x) (hB : 0 < B) (hK : 0 < K) (hM : 0 < max P (K - 1)) (hN : 0 < N)
    (hu : ∀ i, u = some i → 1 ≤ i) :
    LinearOn (fun x zi => Lti.lfilter b a x zi .df1 u) X.shape none :=
  (lti_df1_both hb ha hx _ rfl hB hK hM hN hu).1

example := C32_lfilter_df1 (B := 2) (N := 7) (K := 3) (P := 2) (u := some 2) (.batched fun i t => (i : ℤ) + t) (.batched fun i t => (i : ℤ) + t)
  (.batched 2 fun i t => (i : ℤ) * t) (by decide) (by decide) (by decide) (by decide) (by simp)

/-- **C32, `lti.lfilter`, transposed direct form I.** -/
theorem C32_lfilter_tdf1 {B N K P : Nat} {b a X : Tensor α} {bv av x : Nat → Nat → α} {u : Option Int} (hb : Rows B
    K b bv) (ha : Rows B P a av) (hx : Sig N B X x) (hB : 0 < B) (hK : 0 < K) (hM : 0 < max P (K - 1)) (hN : 0 < N)
    (hu : ∀ i, u = some i → 1 ≤ i) :
    LinearOn (fun x zi => Lti.lfilter b a x zi .tdf1 u) X.shape none :=
  (lti_tdf1_both hb ha hx _ rfl hB hK hM hN hu).1

example := C32_lfilter_tdf1 (B := 2) (N := 7) (K := 3) (P := 2) (u := some 2) (.batched fun i t => (i : ℤ) + t) (.batched fun i t => (i : ℤ) + t)
  (.batched 2 fun i t => (i : ℤ) * t) (by decide) (by decide) (by decide) (by decide) (by simp)

/-- **C32, `lpv.lfilter`, direct form II, backend `ssm`.** -/
theorem C32_lpv_lfilter_df2_partial {B N K P : Nat} {b a X : Tensor α} {zi : Option (Tensor α)} {bv av : Nat → Nat →
    Nat → α} {x z : Nat → Nat → α} {u : Option Int} (lpc : Lpv.Lpc α) (hb : MatVals B N K b bv) (ha : MatVals B N P
    a av) (hx : Sig N B X x) (hz : InitState B (max P (K - 1)) zi z) (hBN : b.rank = 2 ∧ a.rank = 2 ∨ B ≠ N) (hB : 0
    < B) (hK : 0 < K) (hM : 0 < max P (K - 1)) (hN : 0 < N) (hu : ∀ i, u = some i → 1 ≤ i) :
    LinearOn (fun x zi => Lpv.lfilter lpc b a x zi .df2 .ssm u) X.shape (zi.map shape) :=
  (lpv_df2_both lpc hb ha hx hz hBN hB hK hM hN hu).1

example := C32_lpv_lfilter_df2_partial (B := 2) (N := 7) (K := 3) (P := 2) (u := some 2) Lpv.refLpc (.batched fun i t k => (i : ℤ) + t * k)
  (.batched fun i t k => (i : ℤ) - t * k) (.batched 2 fun i t => (i : ℤ) * t) (.full fun i t => (i : ℤ) - t) (Or.inr (by decide)) (by decide)
  (by decide) (by decide) (by decide) (by simp)

/-- **C32, `lpv.lfilter`, transposed direct form II, backend `ssm`.** -/
theorem C32_lpv_lfilter_tdf2_partial {B N K P : Nat} {b a X : Tensor α} {zi : Option (Tensor α)} {bv av : Nat → Nat
    → Nat → α} {x z : Nat → Nat → α} {u : Option Int} (lpc : Lpv.Lpc α) (hb : MatVals B N K b bv) (ha : MatVals B N
    P a av) (hx : Sig N B X x) (hz : InitState B (max P (K - 1)) zi z) (hBN : b.rank = 2 ∨ B ≠ N) (hB : 0 < B) (hK :
    0 < K) (hM : 0 < max P (K - 1)) (hN : 0 < N) (hu : ∀ i, u = some i → 1 ≤ i) :
    LinearOn (fun x zi => Lpv.lfilter lpc b a x zi .tdf2 .ssm u) X.shape (zi.map shape) :=
  (lpv_tdf2_both lpc hb ha hx hz hBN hB hK hM hN hu).1

example := C32_lpv_lfilter_tdf2_partial (B := 2) (N := 7) (K := 3) (P := 2) (u := some 2) Lpv.refLpc (.batched fun i t k => (i : ℤ) + t * k)
  (.batched fun i t k => (i : ℤ) - t * k) (.batched 2 fun i t => (i : ℤ) * t) (.full fun i t => (i : ℤ) - t) (Or.inr (by decide)) (by decide)
  (by decide) (by decide) (by decide) (by simp)

/-- **C32, `lpv.lfilter`, direct form I, backend `ssm`.** -/
theorem C32_lpv_lfilter_df1 {B N K P : Nat} {b a X : Tensor α} {bv av : Nat → Nat → Nat → α} {x : Nat → Nat
    → α} {u : Option Int} (lpc : Lpv.Lpc α) (hb : MatVals B N K b bv) (ha : MatVals B N P a av) (hx : Sig N B X x)
    (hB : 0 < B) (hK : 0 < K) (hM : 0 < max P (K - 1)) (hN : 0 < N) (hu : ∀ i, u = some i → 1 ≤ i) :
    LinearOn (fun x zi => Lpv.lfilter lpc b a x zi .df1 .ssm u) X.shape none :=
  (lpv_df1_both lpc hb ha hx _ rfl hB hK hM hN hu).1

example := C32_lpv_lfilter_df1 (B := 2) (N := 7) (K := 3) (P := 2) (u := some 2) Lpv.refLpc (.batched fun i t k => (i : ℤ) + t * k)
  (.batched fun i t k => (i : ℤ) - t * k) (.batched 2 fun i t => (i : ℤ) * t) (by decide) (by decide) (by decide) (by decide) (by simp)

/-- **C32, `lpv.lfilter`, transposed direct form I, backend `ssm`.** -/
theorem C32_lpv_lfilter_tdf1 {B N K P : Nat} {b a X : Tensor α} {bv av : Nat → Nat → Nat → α} {x : Nat → Nat
    → α} {u : Option Int} (lpc : Lpv.Lpc α) (hb : MatVals B N K b bv) (ha : MatVals B N P a av) (hx : Sig N B X x)
    (hB : 0 < B) (hK : 0 < K) (hM : 0 < max P (K - 1)) (hN : 0 < N) (hu : ∀ i, u = some i → 1 ≤ i) :
    LinearOn (fun x zi => Lpv.lfilter lpc b a x zi .tdf1 .ssm u) X.shape none :=
  (lpv_tdf1_both lpc hb ha hx _ rfl hB hK hM hN hu).1

example := C32_lpv_lfilter_tdf1 (B := 2) (N := 7) (K := 3) (P := 2) (u := some 2) Lpv.refLpc (.batched fun i t k => (i : ℤ) + t * k)
  (.batched fun i t k => (i : ℤ) - t * k) (.batched 2 fun i t => (i : ℤ) * t) (by decide) (by decide) (by decide) (by decide) (by simp)

/-- **C32, `lpv.lfilter`, direct form II, backend `torchlpc`.** -/
theorem C32_lpv_lfilter_torchlpc_partial {B N K P : Nat} {b a X : Tensor α} {zi : Option (Tensor α)} {bv av : Nat →
    Nat → Nat → α} {x z : Nat → Nat → α} {u : Option Int} {lpc : Lpv.Lpc α} (hl : IsLpc lpc) (hb : MatVals B N K b
    bv) (ha : MatVals B N P a av) (hx : Sig N B X x) (hz : InitState B (max P (K - 1)) zi z) (hB : 0 < B) (hK : 0 <
    K) (hP : 0 < P) (hN : 0 < N) (hf : zi = none ∨ P ≤ N) :
    LinearOn (fun x zi => Lpv.lfilter lpc b a x zi .df2 .torchlpc u) X.shape (zi.map shape) :=
  (torchlpc_df2_both hl hb ha hx hz hB hK hP hN hf).1

example := C32_lpv_lfilter_torchlpc_partial (B := 2) (N := 7) (K := 3) (P := 2) (u := some 2) Lpv.refLpc_isLpc
  (.batched fun i t k => (i : ℤ) + t * k) (.batched fun i t k => (i : ℤ) - t * k) (.batched 2 fun i t => (i : ℤ) * t) (.full fun i t => (i : ℤ) - t)
  (by decide) (by decide) (by decide) (by decide) (by decide)

/-- **C32, `lpv.allpole`, direct form without state.** -/
theorem C32_lpv_allpole {B M N : Nat} {lpc : Lpv.Lpc α} (hl : IsLpc lpc) (a : Nat → Nat → Nat → α) (hM : 0 < M) (hN
    : 0 < N) :
    LinearOn (fun x zi => Lpv.allpole lpc (t3 B N M a) x zi false) [B, N] none :=
  (allpole_none_both hl a hM hN).1

example := C32_lpv_allpole (B := 2) (M := 2) (N := 7) Lpv.refLpc_isLpc (fun i t k => (i : ℤ) + t * k) (by decide) (by decide)

/-- **C32, `lpv.allpole`, direct form with state.** -/
theorem C32_lpv_allpole_state_partial {B M N : Nat} {lpc : Lpv.Lpc α} (hl : IsLpc lpc) (a : Nat → Nat → Nat → α) (hM
    : 0 < M) (hMN : M ≤ N) :
    LinearOn (fun x zi => Lpv.allpole lpc (t3 B N M a) x zi false) [B, N] (some [B, M]) :=
  (allpole_some_both hl a hM hMN).1

example := C32_lpv_allpole_state_partial (B := 2) (M := 2) (N := 7) Lpv.refLpc_isLpc (fun i t k => (i : ℤ) + t * k) (by decide) (by decide)

/-- **C32, `lpv.lfilter`, direct form I, backend `torchlpc`.** -/
theorem C32_lpv_lfilter_torchlpc_df1 {B N K P : Nat} {b a X : Tensor α} {bv av : Nat → Nat → Nat → α}
    {x : Nat → Nat → α} {u : Option Int} {lpc : Lpv.Lpc α} (hl : IsLpc lpc) (hb : MatVals B N K b bv)
    (ha : MatVals B N P a av) (hx : Sig N B X x) (hB : 0 < B) (hK : 0 < K) (hP : 0 < P) (hN : 0 < N) :
    LinearOn (fun x zi => Lpv.lfilter lpc b a x zi .df1 .torchlpc u) X.shape none :=
  (torchlpc_df1_both hl hb ha hx hB hK hP hN).1

example := C32_lpv_lfilter_torchlpc_df1 (B := 2) (N := 7) (K := 3) (P := 2) (u := some 2) Lpv.refLpc_isLpc (.batched fun i t k => (i : ℤ) + t * k)
  (.batched fun i t k => (i : ℤ) - t * k) (.batched 2 fun i t => (i : ℤ) * t) (by decide) (by decide) (by decide) (by decide)

/-- **C32, `lpv.lfilter`, transposed direct form I, backend `torchlpc`.** -/
theorem C32_lpv_lfilter_torchlpc_tdf1_partial {B N M P : Nat} {b a X : Tensor α} {bv av : Nat → Nat → Nat → α}
    {x : Nat → Nat → α} {u : Option Int} {lpc : Lpv.Lpc α} (hl : IsLpc lpc) (hb : MatVals B N (M + 1) b bv)
    (ha : MatVals B N P a av) (hx : Sig N B X x) (hB : 0 < B) (hM : 0 < M) (hP : 0 < P) (hPN : P ≤ N) :
    LinearOn (fun x zi => Lpv.lfilter lpc b a x zi .tdf1 .torchlpc u) X.shape none :=
  (torchlpc_tdf1_both hl hb ha hx hB hM hP hPN).1

example := C32_lpv_lfilter_torchlpc_tdf1_partial (B := 2) (N := 7) (M := 2) (P := 2) (u := some 2) Lpv.refLpc_isLpc
  (.batched fun i t k => (i : ℤ) + t * k) (.batched fun i t k => (i : ℤ) - t * k) (.batched 2 fun i t => (i : ℤ) * t) (by decide) (by decide)
  (by decide) (by decide)

/-- **C32, `lpv.allpole`, transposed form without state.** -/
theorem C32_lpv_allpole_transposed_partial {B M N : Nat} {lpc : Lpv.Lpc α} (hl : IsLpc lpc)
    (a : Nat → Nat → Nat → α) (hM : 0 < M) (hMN : M ≤ N) :
    LinearOn (fun x zi => Lpv.allpole lpc (t3 B N M a) x zi true) [B, N] none :=
  (allpoleT_none_both hl a hM hMN).1

example := C32_lpv_allpole_transposed_partial (B := 2) (M := 2) (N := 7) Lpv.refLpc_isLpc (fun i t k => (i : ℤ) + t * k) (by decide) (by decide)

/-- **C32, `lpv.allpole`, transposed form with state.** -/
theorem C32_lpv_allpole_transposed_state_partial {B M N : Nat} {lpc : Lpv.Lpc α} (hl : IsLpc lpc)
    (a : Nat → Nat → Nat → α) (hM : 0 < M) (hMN : M ≤ N) :
    LinearOn (fun x zi => Lpv.allpole lpc (t3 B N M a) x zi true) [B, N] (some [B, M]) :=
  (allpoleT_some_both hl a hM hMN).1

example := C32_lpv_allpole_transposed_state_partial (B := 2) (M := 2) (N := 7) Lpv.refLpc_isLpc (fun i t k => (i : ℤ) + t * k) (by decide)
  (by decide)

/-- **C32, `lti.comb_filter` with the extension, delays of at least two.** -/
theorem C32_comb_filter_partial {B N D : Nat} {a : Tensor α} {av : Nat → α} {zi : Option (Tensor α)} {z : Nat → Nat
    → α} {u : Int} (ha : PerItem B a av) (hz : Past B D zi z) (hD : 2 ≤ D) (hN : 0 < N) (hu : 1 ≤ u) :
    LinearOn (fun x zi => Lti.combFilter true a D x zi u) [B, N] (zi.map shape) :=
  (comb_both ha hz hD hN hu).1

example := C32_comb_filter_partial (B := 2) (N := 7) (D := 3) (u := 2) (.full fun i => (i : ℤ) + 2) (.batched fun i t => (i : ℤ) - t) (by decide)
  (by decide) (by decide)

/-- **C32, `lti.comb_filter`, delay one, with or without the extension.** -/
theorem C32_comb_filter_one {B N : Nat} {a : Tensor α} {av : Nat → α} {zi : Option (Tensor α)} {z : Nat → Nat → α}
    {u : Int} (ext : Bool) (ha : PerItem B a av) (hz : Past B 1 zi z) (hN : 0 < N) (hu : 1 ≤ u) :
    LinearOn (fun x zi => Lti.combFilter ext a 1 x zi u) [B, N] (zi.map shape) :=
  (comb_one_both ext ha hz hN hu).1

example := C32_comb_filter_one (B := 2) (N := 7) (u := 2) true (.full fun i => (i : ℤ) + 2) (.batched fun i t => (i : ℤ) - t) (by decide)
  (by decide)

/-! ## Forward-backward filtering -/

omit [StarRing α] in
private theorem linear_of_add {F : (Nat → α) → Nat → α} (h : ∀ c x x' t, F (fun t => c * x t + x' t) t = c * F x t + F x' t)
    (c d : α) (x x₁ x₂ : Nat → α) (hx : ∀ t, x t = c * x₁ t + d * x₂ t) (t : Nat) : F x t = c * F x₁ t + d * F x₂ t := by
  have h0 : F (fun _ => 0) t = 0 := by
    have := h (-1) x₁ x₁ t
    rw [show (fun t => -1 * x₁ t + x₁ t) = fun _ => 0 from funext fun t => by ring] at this
    rw [this]; ring
  have h1 := h d x₂ (fun _ => 0) t
  rw [show x = fun t => c * x₁ t + (fun t => d * x₂ t + (fun _ => 0) t) t from funext fun t => by rw [hx]; ring, h c, h1, h0]
  ring

/-- **C32, `lti.filtfilt`, transposed direct form II**, all padding modes.  Missing: direct form I, which raises (C20). -/
theorem C32_filtfilt_tdf2_partial {γ : Type} [Field γ] [StarRing γ] {B N K P : Nat} {b a X : Tensor γ} {bv av x : Nat → Nat → γ}
    {pm : Option PadMode} {padlen : Option Int} {u : Option Int} (hb : Rows B K b bv) (ha : Rows B P a av) (hx : Sig N B X x)
    (hK : 0 < K) (hM : 0 < max P (K - 1)) (hs : ∀ i, 1 + ∑ k ∈ Finset.range P, star (av i k) ≠ 0)
    (he : Lti.edgeLength b a pm padlen < N) (hN : 0 < N) (hu : ∀ i, u = some i → 1 ≤ i) :
    LinearOn (noState fun _ x => Lti.filtfilt b a x pm padlen .tdf2 u) X.shape none := by
  obtain ⟨F, h, hF, -⟩ := C20_tdf2_partial (padlen := padlen) (pm := pm) hb ha hK hM hs he hN
  refine linearOn_packed (fl := decide (X.rank = 1 ∧ b.rank = 1 ∧ a.rank = 1)) (B := B) (N := N) (M := 0) (st := false)
    (fun X _ i t => F i (xval X i) t) (fun _ _ _ _ => 0) (fun X' z hX' hz => ?_) (fun c d x₁ x₂ z₁ z₂ hx _ i t => ?_)
    (fun c d _ _ _ _ _ _ i m => by ring)
  · rw [← show X'.rank = X.rank from congrArg List.length hX']
    exact bind_step (h X' _ u (sig_vals hx hX') hu) rfl
  · exact linear_of_add (hF i) c d _ _ _ (fun t => xval_lin hx i t) t

example := C32_filtfilt_tdf2_partial (B := 2) (N := 7) (K := 3) (P := 2) (pm := some .replicate) (padlen := some 2) (u := some 2)
  (.batched fun i t => (i : ℚ) + t) (.shared fun k => (k : ℚ) + 1) (.batched 2 fun i t => (i : ℚ) * t) (by decide) (by decide)
  (fun _ => by norm_num [Finset.sum_range_succ]) (by decide) (by decide) (by simp)

/-- **C32, `lti.filtfilt`, direct form II**, all padding modes.  Missing: numerators longer than `P + 1`, which raise (C20). -/
theorem C32_filtfilt_df2_partial {γ : Type} [Field γ] [StarRing γ] {B N K P : Nat} {b a X : Tensor γ} {bv av x : Nat → Nat → γ}
    {pm : Option PadMode} {padlen : Option Int} {u : Option Int} (hb : Rows B K b bv) (ha : Rows B P a av) (hx : Sig N B X x)
    (hK : 0 < K) (hP : 0 < P) (hKP : K ≤ P + 1) (hs : ∀ i, 1 + ∑ k ∈ Finset.range P, av i k ≠ 0)
    (he : Lti.edgeLength b a pm padlen < N) (hN : 0 < N) (hu : ∀ i, u = some i → 1 ≤ i) :
    LinearOn (noState fun _ x => Lti.filtfilt b a x pm padlen .df2 u) X.shape none := by
  obtain ⟨F, h, hF, -⟩ := C20_df2_partial (padlen := padlen) (pm := pm) hb ha hK hP hKP hs he hN
  refine linearOn_packed (fl := decide (X.rank = 1 ∧ b.rank = 1 ∧ a.rank = 1)) (B := B) (N := N) (M := 0) (st := false)
    (fun X _ i t => F i (xval X i) t) (fun _ _ _ _ => 0) (fun X' z hX' hz => ?_) (fun c d x₁ x₂ z₁ z₂ hx _ i t => ?_)
    (fun c d _ _ _ _ _ _ i m => by ring)
  · rw [← show X'.rank = X.rank from congrArg List.length hX']
    exact bind_step (h X' _ u (sig_vals hx hX') hu) rfl
  · exact linear_of_add (hF i) c d _ _ _ (fun t => xval_lin hx i t) t

example := C32_filtfilt_df2_partial (B := 2) (N := 7) (K := 3) (P := 2) (pm := some .replicate) (padlen := some 2) (u := some 2)
  (.batched fun i t => (i : ℚ) + t) (.shared fun k => (k : ℚ) + 1) (.batched 2 fun i t => (i : ℚ) * t) (by decide) (by decide) (by decide)
  (fun _ => by norm_num [Finset.sum_range_succ]) (by decide) (by decide) (by simp)

/-! ## Diagonalised filters -/

/-- **C32, `lti.diag_state_space`** with a given eigenbasis, complex coefficients (so the real part is not taken). -/
theorem C32_diag_state_space_partial {γ : Type} [Field γ] [StarRing γ] {B N M : Nat} {A L V W x : Tensor γ} {V' W' A' Bm C D zi : Option (Tensor γ)}
    {k : Option Nat} {l z : Nat → Nat → γ} {Av v w vx d : Nat → Nat → Nat → γ} {r : Nat → (Nat → γ) → Nat → γ} {u : Option Int}
    {ev : Tensor γ → Res (Tensor γ)} {fe : Tensor γ → Tensor γ → Res (Tensor γ)} {re : γ → γ}
    (hE : Eigen B M L V W l v w) (hA : MatVals B M M A Av) (hdec : ∀ b, Diagonalises M (Av b) (l b) (v b) (w b))
    (hV' : V' = none ∨ V' = some V) (hW' : W' = none ∨ W' = some W) (hone : V'.isSome ∨ W'.isSome)
    (hA' : ∀ A₁, A' = some A₁ → A₁.shape = V.shape)
    (hB : LtiInput B N M Bm x vx) (hC : LtiReadout B M C k r) (hD : LtiFeed B N D x k d) (hz : InitState B M zi z)
    (hM : 0 < M) (hN : 0 < N) (hu : ∀ i, u = some i → 1 ≤ i) :
    LinearOn (fun x zi => Lti.diagStateSpace ev fe re false x (some L) V' W' A' Bm C D zi none u) x.shape (zi.map shape) := by
  obtain ⟨F, g, hg⟩ := ltiInput_memoryless hB
  obtain ⟨F', g', hg'⟩ := ltiFeed_memoryless hD
  refine (both_congr (fun x' z' hx' hz' => ?_) (lti_stateSpace_both hA hB hC hD hz hM hN hu)).1
  exact C22_given_basis_partial hE hA hdec hV' hW' hone hA' (hg x' hx') hC (hg' x' hx') (initState_vals hz hz') hM hN hu hu (by simp)

example (ev : Tensor ℚ → Res (Tensor ℚ)) (fe : Tensor ℚ → Tensor ℚ → Res (Tensor ℚ)) :=
  C32_diag_state_space_partial (B := 3) (N := 5) (M := 2) (A' := none) (u := none) (ev := ev) (fe := fe) (re := id)
    (.shared _ _ _) (.shared _) (fun _ => Witness.two_three) (Or.inr rfl) (Or.inl rfl) (Or.inl rfl) (by simp)
    (.none (.scalar fun b t => (b : ℚ) * t)) (.mat 2 (fun i j => (i : ℚ) + j) (by decide)) (.none _ _) (.shared fun m => (m : ℚ) + 1)
    (by decide) (by decide) (by simp)

/-- **C32, `lti.lfilter`, backend `diag_ssm`**, direct form II, short numerator, complex coefficients. -/
theorem C32_diag_lfilter_df2_partial {β : Type} [RCLike β] {B N K P : Nat} {b a X : Tensor β} {bv av p z x : Nat → Nat → β} {zi : Option (Tensor β)}
    {u : Option Int} {ev : Tensor β → Res (Tensor β)} {re : β → β} {delayed : Bool}
    (hb : Rows B K b bv) (ha : Rows B P a av) (hx : Sig N B X x) (hz : InitState B P zi z) (hP : 0 < P) (hK : 0 < K)
    (hKP : K ≤ P + 1) (hN : 0 < N) (hu : ∀ i, u = some i → 1 ≤ i) (hp : ∀ i, DistinctPoles P (av i) (p i))
    (hp0 : ∀ i m, m < P → p i m ≠ 0) (hev : ListsEigenvalues ev B P (fun i => comp (av i))) :
    LinearOn (fun x zi => Lti.lfilterDiag ev findEigenvectors re false b a x zi .df2 delayed u) X.shape (zi.map shape) := by
  have hM : max P (K - 1) = P := by omega
  refine (both_congr (fun X' z' hX' hz' => ?_) (lti_df2_both hb ha hx (hM.symm ▸ hz) hK (by omega) hN hu)).1
  exact C23_short_partial hb ha (sig_vals hx hX') (initState_vals hz hz') hP hK hKP hN hu hu hp ⟨hp0, hev, by simp⟩

example (b x : Nat → Nat → ℂ) (z : Nat → ℂ) := C32_diag_lfilter_df2_partial (B := 3) (N := 7) (K := 2) (P := 2) (u := none)
  (ev := Witness.answer 3 2 Witness.rotEig) (re := id) (delayed := true) (.batched b) (.shared fun k => if k = 0 then (0 : ℂ) else 1)
  (.batched 3 x) (.shared z) (by decide) (by decide) (by decide) (by decide) (by simp) (fun _ => Witness.rot_poles)
  (fun _ m _ => Witness.rotEig_ne m) (Witness.rot_lists 3)

/-- **C32, `lti.lfilter`, backend `diag_ssm`**, transposed direct form II, short numerator. -/
theorem C32_diag_lfilter_tdf2_partial {β : Type} [RCLike β] {B N K P : Nat} {b a X : Tensor β} {bv av p z x : Nat → Nat → β} {zi : Option (Tensor β)}
    {u : Option Int} {ev : Tensor β → Res (Tensor β)} {re : β → β} {delayed realC : Bool}
    (hb : Rows B K b bv) (ha : Rows B P a av) (hx : Sig N B X x) (hz : InitState B P zi z) (hP : 0 < P) (hK : 0 < K)
    (hKP : K ≤ P + 1) (hN : 0 < N) (hu : ∀ i, u = some i → 1 ≤ i) (hp : ∀ i, DistinctPoles P (av i) (p i))
    (hev : ListsEigenvalues ev B P (fun i j k => comp (fun k => star (av i k)) k j)) :
    LinearOn (fun x zi => Lti.lfilterDiag ev findEigenvectors re realC b a x zi .tdf2 delayed u) X.shape (zi.map shape) := by
  have hM : max P (K - 1) = P := by omega
  refine (both_congr (fun X' z' hX' hz' => ?_) (lti_tdf2_both hb ha hx (hM.symm ▸ hz) hK (by omega) hN hu)).1
  exact C23_short_partial hb ha (sig_vals hx hX') (initState_vals hz hz') hP hK hKP hN hu hu hp hev

example (b x : Nat → Nat → ℂ) (z : Nat → ℂ) := C32_diag_lfilter_tdf2_partial (B := 3) (N := 7) (K := 2) (P := 2) (u := none)
  (ev := Witness.answer 3 2 Witness.rotEig) (re := id) (delayed := true) (realC := false) (.batched b)
  (.shared fun k => if k = 0 then (0 : ℂ) else 1) (.batched 3 x) (.shared z) (by decide) (by decide) (by decide) (by decide) (by simp)
  (fun _ => Witness.rot_poles) (Witness.rot_listsT 3)

/-- The hypotheses are satisfiable, and the claim is about two different signals with state. -/
example : LinearOn (fun x zi => Lti.lfilter (t1 2 fun j => (j + 1 : ℚ)) (t2 3 2 fun i k => (i - k : ℚ)) x zi .df2 none) [3, 5] (some [3, 2]) :=
  C32_lfilter_df2 (B := 3) (N := 5) (K := 2) (P := 2) (X := t2 3 5 fun _ _ => 0) (zi := some (t2 3 2 fun _ _ => 0))
    (.shared _) (.batched _) (.batched 3 _) (.full _) (by decide) (by decide) (by decide) (by simp)

example : LinearOn (noState fun zi x => Lpv.linearRecurrence (t2 1 7 fun _ t => (t : ℚ)) zi x 3) [2, 7] (some [2]) :=
  C32_lpv_linear_recurrence (init := t1 2 fun _ => 0) 3 (.single _) (.full _) (by decide) (by decide)

end Props
