import Verif.Proof.AcceptDiag
import Verif.Props.C08
import Verif.Props.C09
import Verif.Props.C11
import Verif.Props.C19
import Verif.Props.C20
import Verif.Props.C22
import Verif.Props.C28
import Verif.Props.C30

/-!
# C67: calls with ill-shaped arguments raise

Full claim: a call of a public function returns only when its arguments have the documented shapes; all other calls raise an
exception.  Together with the properties on values this says that nothing outside the documented layouts is silently accepted.

Every theorem reads "if the call returns, the arguments have these shapes".  The layouts are those of Spec/StateSpace.lean and
Spec/Layout.lean, which also say what a matrix of the given shape means.  Below each theorem are a call that returns and a call
that raises because of a single wrong size.

C67Small.lean and C03Batch.lean have the recurrences and the matrix functions, for which the converse holds as well.

False: the numerator of `df2` filters is accepted with any number of rows; a single time step of `b` is broadcast in
`lpv.lfilter` with `df2` and `tdf2` (`C67_lpv_lfilter_accepts_one_step`); `comb_filter` accepts any layout of the state;
`diag_state_space` with `out_idx` and one basis per item broadcasts the state (C67Diag.lean).
Missing: the time axis of `b` with `tdf1` is left open for an empty batch or filter.
-/

namespace Props
open Torch Torch.Tensor Spec Phil

/-- A call that never returns raises. -/
theorem raises_of {β : Type} {r : Res β} (h : ∀ y, r ≠ .ok y) : Fails r := by
  cases r with
  | error e => exact ⟨e, rfl⟩
  | ok y => exact absurd rfl (h y)

section
variable {α : Type} [CommRing α] [StarRing α]

/-- **C67, `lti.state_space`.** A call that returns had a non-empty signal, a square state matrix (one, or one per batch item), input,
output and feedthrough matrices in one of the documented layouts, an initial state of shape `(M,)` or `(batch, M)`, an unroll factor of
at least one, and not both `C` and `out_idx`. -/
theorem C67_lti_state_space {A x : Tensor α} {Bm C D zi : Option (Tensor α)} {u out : Option Int} {y : Tensor α × Option (Tensor α)}
    (h : Lti.stateSpace A x Bm C D zi u out = .ok y) :
    ∃ B N M, 0 < N ∧ (∃ Av, MatVals B M M A Av) ∧ (∃ v, LtiInput B N M Bm x v) ∧ (∃ k r, LtiReadout B M C k r) ∧
      (∃ k d, LtiFeed B N D x k d) ∧ (∃ z, InitState B M zi z) ∧ (∀ i, u = some i → 1 ≤ i) ∧ (C = none ∨ out = none) := by
  exact ⟨_, _, _, ltiStateSpace_ok h⟩

example : ∃ y, Lti.stateSpace (t2 3 3 fun i j => (i : ℤ) - j) (t3 2 7 2 fun b t f => (b : ℤ) + t * f)
    (some (t2 3 2 fun i f => (i : ℤ) + f)) (some (t2 4 3 fun p m => (p : ℤ) * m)) (some (t2 4 2 fun p f => (p : ℤ) - f))
    (some (t1 3 fun i => (i : ℤ))) none none = .ok y := by
  obtain ⟨_, _, h⟩ := C08_state_space_partial (B := 2) (N := 7) (M := 3) (u := none) (MatVals.shared fun i j => (i : ℤ) - j)
    (LtiInput.mat (B := 2) (N := 7) 2 (fun i f => (i : ℤ) + f) (fun b t f => (b : ℤ) + t * f) (by decide))
    (LtiReadout.mat 4 (fun p m => (p : ℤ) * m) (by decide)) (LtiFeed.mat (B := 2) (N := 7) 4 2 (fun p f => (p : ℤ) - f) _ (by decide))
    (InitState.shared fun i => (i : ℤ)) (by decide) (by decide) (by simp)
  exact ⟨_, h⟩

/-- An input matrix with one row too few. -/
example : Fails (Lti.stateSpace (t2 3 3 fun i j => (i : ℤ) - j) (t3 2 7 2 fun b t f => (b : ℤ) + t * f)
    (some (t2 2 2 fun i f => (i : ℤ) + f)) none none none none none) := by
  refine raises_of fun y h => ?_
  obtain ⟨B, N, M, _, ⟨Av, hA⟩, ⟨v, hv⟩, _⟩ := C67_lti_state_space h
  generalize hx : t3 2 7 2 (fun b t f => (b : ℤ) + t * f) = x at hv
  generalize hb : some (t2 2 2 fun i f => (i : ℤ) + f) = b at hv
  have hM : M = 3 := by
    generalize ha : t2 3 3 (fun i j => (i : ℤ) - j) = A at hA
    cases hA with
    | shared f => have := congrArg Tensor.shape ha; simp at this; omega
    | batched f => exact absurd (congrArg Tensor.rank ha) (by simp)
  cases hv with
  | none h => cases hb
  | vec g x' => exact absurd (congrArg Tensor.rank hx) (by simp)
  | batchVec g x' => exact absurd (congrArg Tensor.rank hx) (by simp)
  | mat F g x' hF =>
    have h2 := congrArg Tensor.shape (Option.some.inj hb)
    simp at h2
    omega
  | batchMat F g x' => exact absurd (congrArg Tensor.rank (Option.some.inj hb)) (by simp)

/-- **C67, `lpv.state_space`.** The same for time-varying models: one state matrix per time step, for all batch items or per item. -/
theorem C67_lpv_state_space {A x : Tensor α} {Bm C D zi : Option (Tensor α)} {u out : Option Int} {y : Tensor α × Option (Tensor α)}
    (h : Lpv.stateSpace A x Bm C D zi u out = .ok y) :
    ∃ B N M, 0 < N ∧ (∃ Av, MatSeq B N M M A Av) ∧ (∃ v, LpvInput B N M Bm x v) ∧ (∃ k r, LpvReadout B N M C k r) ∧
      (∃ k d, LpvFeed B N D x k d) ∧ (∃ z, InitState B M zi z) ∧ (∀ i, u = some i → 1 ≤ i) ∧ (C = none ∨ out = none) := by
  exact ⟨_, _, _, lpvStateSpace_ok h⟩

example : ∃ y, Lpv.stateSpace (t4 2 7 3 3 fun b t i j => (b : ℤ) + t * i - j) (t2 2 7 fun b t => (b : ℤ) + t) none none none none
    (some 2) none = .ok y := by
  obtain ⟨_, _, h⟩ := C09_state_space_partial (B := 2) (N := 7) (M := 3) (u := some 2) (MatSeq.batched fun b t i j => (b : ℤ) + t * i - j)
    (LpvInput.none (Drive.scalar fun b t => (b : ℤ) + t)) LpvReadout.none (LpvFeed.none _ _) (InitState.zero (B := 2) (M := 3))
    (by decide) (by decide) (by decide) (by unfold FilterUnroll GoodUnroll FewPrimes; decide +kernel)
  exact ⟨_, h⟩

/-- One state matrix too many. -/
example : Fails (Lpv.stateSpace (t4 2 8 3 3 fun b t i j => (b : ℤ) + t * i - j) (t2 2 7 fun b t => (b : ℤ) + t) none none none none
    (some 2) none) := by
  refine raises_of fun y h => ?_
  obtain ⟨B, N, M, _, ⟨Av, hA⟩, ⟨v, hv⟩, _⟩ := C67_lpv_state_space h
  generalize hx : t2 2 7 (fun b t => (b : ℤ) + t) = x at hv
  generalize ha : t4 2 8 3 3 (fun b t i j => (b : ℤ) + t * i - j) = A at hA
  have hN : N = 7 := by
    cases hv with
    | none h =>
      cases h with
      | full x' => exact absurd (congrArg Tensor.rank hx) (by simp)
      | scalar x' => have := congrArg Tensor.shape hx; simp at this; omega
  cases hA with
  | shared f => exact absurd (congrArg Tensor.rank ha) (by simp)
  | batched f => have := congrArg Tensor.shape ha; simp at this; omega

/-- **C67, `lti.fir`.** `b` is `(batch, K + 1)`, `x` is `(batch, time)`, `zi` is `(batch, K)`; batch and time are not empty. -/
theorem C67_lti_fir {b x : Tensor α} {zi : Option (Tensor α)} {tr : Bool} {y : Tensor α × Option (Tensor α)}
    (h : Lti.fir b x zi tr = .ok y) :
    ∃ B N K, 0 < B ∧ 0 < N ∧ b.shape = [B, K + 1] ∧ x.shape = [B, N] ∧ ∀ z, zi = some z → z.shape = [B, K] :=
  ltiFir_ok h

example : ∃ y, Lti.fir (t2 2 3 fun i k => (i : ℤ) - k) (t2 2 7 fun i t => (i : ℤ) * t) none false = .ok y :=
  ⟨_, Lti.fir_direct_none _ _ (by decide) (by decide)⟩

/-- A state for a longer filter. -/
example : Fails (Lti.fir (t2 2 3 fun i k => (i : ℤ) - k) (t2 2 7 fun i t => (i : ℤ) * t) (some (t2 2 3 fun _ _ => (0 : ℤ))) false) := by
  refine raises_of fun y h => ?_
  obtain ⟨B, N, K, _, _, h1, h2, h3⟩ := C67_lti_fir h
  have h3 := h3 _ rfl
  simp at h1 h2 h3
  omega

/-- **C67, `lpv.fir`.** `b` is `(batch, time, K + 1)`, `x` is `(batch, time)`, `zi` is `(batch, K)`. -/
theorem C67_lpv_fir {b x : Tensor α} {zi : Option (Tensor α)} {tr : Bool} {y : Tensor α × Option (Tensor α)}
    (h : Lpv.fir b x zi tr = .ok y) :
    ∃ B N K, b.shape = [B, N, K + 1] ∧ x.shape = [B, N] ∧ (∀ z, zi = some z → z.shape = [B, K]) ∧ (tr = false → 0 < N) :=
  lpvFir_ok h

example : ∃ y, Lpv.fir (t3 2 7 3 fun i t k => (i : ℤ) - k * t) (t2 2 7 fun i t => (i : ℤ) * t) none false = .ok y :=
  ⟨_, Lpv.fir_direct_none _ _ (by decide)⟩

/-- Coefficients for one time step too few. -/
example : Fails (Lpv.fir (t3 2 6 3 fun i t k => (i : ℤ) - k * t) (t2 2 7 fun i t => (i : ℤ) * t) none true) := by
  refine raises_of fun y h => ?_
  obtain ⟨B, N, K, h1, h2, _⟩ := C67_lpv_fir h
  simp at h1 h2
  omega

/-- **C67, `lpv.allpole`.** `a` is `(batch, time, P)`, `x` is `(batch, time)`, `zi` is `(batch, P)`. -/
theorem C67_lpv_allpole {lpc : Lpv.Lpc α} {a x : Tensor α} {zi : Option (Tensor α)} {tr : Bool} {y : Tensor α × Option (Tensor α)}
    (h : Lpv.allpole lpc a x zi tr = .ok y) :
    ∃ B N P, a.shape = [B, N, P] ∧ x.shape = [B, N] ∧ ∀ z, zi = some z → z.shape = [B, P] :=
  lpvAllpole_ok h

example : ∃ y, Lpv.allpole Lpv.refLpc (t3 2 7 2 fun i t k => (i : ℤ) + t * k) (t2 2 7 fun i t => (i : ℤ) * t)
    (some (t2 2 2 fun i t => (i : ℤ) + t)) false = .ok y := by
  obtain ⟨_, _, _, _, h⟩ := C28_direct_state_partial (B := 2) (M := 2) (N := 7) Lpv.refLpc_isLpc (fun i t k => (i : ℤ) + t * k)
    (fun i t => (i : ℤ) * t) (fun i t => (i : ℤ) + t) (by decide) (by decide)
  exact ⟨_, h⟩

/-- A state of one past output too many. -/
example : Fails (Lpv.allpole Lpv.refLpc (t3 2 7 2 fun i t k => (i : ℤ) + t * k) (t2 2 7 fun i t => (i : ℤ) * t)
    (some (t2 2 3 fun i t => (i : ℤ) + t)) false) := by
  refine raises_of fun y h => ?_
  obtain ⟨B, N, P, h1, h2, h3⟩ := C67_lpv_allpole h
  have h3 := h3 _ rfl
  simp at h1 h3
  omega

/-- **C67 (partial), `comb_filter`.** `a` is one number or one per batch item, `x` is `(batch, time)`, the delay and the unroll factor
are at least one, and a delay above one needs the compiled extension.  Of the state only the number of elements is checked: `delay`
for a 1-D state, `batch * delay` for others; a single element is accepted too and taken for all.  Missing: the documented
shapes of the state, see `C67_comb_filter_accepts_any_layout`. -/
theorem C67_comb_filter_partial {ext : Bool} {a x : Tensor α} {delay u : Int} {zi : Option (Tensor α)}
    {y : Tensor α × Option (Tensor α)} (h : Lti.combFilter ext a delay x zi u = .ok y) :
    ∃ B N, (a.shape = [] ∨ a.shape = [B]) ∧ x.shape = [B, N] ∧ 1 ≤ delay ∧ 1 ≤ u ∧ (delay = 1 ∨ ext = true) ∧
      ∀ z, zi = some z → (z.rank ≠ 1 ∨ delay = 1) ∧ (z.shape.prod ≤ 1 ∨ z.shape.prod = B * delay) ∨
        z.rank = 1 ∧ (B * z.shape.prod ≤ 1 ∨ z.shape.prod = delay) :=
  combFilter_ok h

/-- **A state of shape `(delay, batch)` is accepted by `comb_filter`** and read as if it were `(batch, delay)`: here the state
`[[1, 2], [3, 4], [5, 6]]` of two items and delay three.  So is a single number of shape `(1, 1)`. -/
theorem C67_comb_filter_accepts_any_layout :
    shape? ((Lti.combFilter true (t0 (1 : ℤ)) 3 (t2 2 4 fun _ _ => 0) (some (t2 3 2 fun i j => (2 * i + j : ℤ) + 1)) 1).map
      Prod.fst) = some [2, 4] ∧
    shape? ((Lti.combFilter true (t0 (1 : ℤ)) 3 (t2 2 4 fun _ _ => 0) (some (t2 1 1 fun _ _ => 1)) 1).map Prod.fst) =
      some [2, 4] := by
  decide +kernel

example : ∃ y, Lti.combFilter true (t1 2 fun i => (i : ℤ) + 1) 3 (t2 2 7 fun i t => (i : ℤ) + t) none 2 = .ok y := by
  obtain ⟨_, _, _, h⟩ := C19_without_state_partial (B := 2) (N := 7) (D := 3) (u := 2) (fun i t => (i : ℤ) + t)
    (.full fun i => (i : ℤ) + 1) (by decide) (by decide) (by decide)
  exact ⟨_, h⟩

/-- Without the extension a delay of three raises, however the other arguments are chosen. -/
example (a x : Tensor ℤ) (zi : Option (Tensor ℤ)) (u : Int) : Fails (Lti.combFilter false a 3 x zi u) := by
  refine raises_of fun y h => ?_
  obtain ⟨_, _, _, _, _, _, h, _⟩ := C67_comb_filter_partial h
  simp at h

/-- A state of four past outputs for a delay of three. -/
example (ext : Bool) (a : Tensor ℤ) (u : Int) :
    Fails (Lti.combFilter ext a 3 (t2 2 7 fun i t => (i : ℤ) + t) (some (t1 4 fun t => (t : ℤ))) u) := by
  refine raises_of fun y h => ?_
  obtain ⟨B, N, _, hx, _, _, _, h⟩ := C67_comb_filter_partial h
  have h := h _ rfl
  simp at hx h
  omega

/-- **C67 (partial), `lti.lfilter`.** `x` is `(time,)` or `(batch, time)` and not empty, `a` is `(P,)` or `(batch, P)`, `b` is `(K,)`,
`(1, K)` or `(batch, K)`, the form is one of the four, the unroll factor is at least one, and for `df2` and `tdf2` the state is
`(M,)` or `(batch, M)` with `M = max P (K - 1)`.  Missing: `df2` accepts a numerator with any number of rows. -/
theorem C67_lti_lfilter_partial {b a x : Tensor α} {zi : Option (Tensor α)} {form : Lti.Form} {u : Option Int}
    {y : Tensor α × Option (Tensor α)} (h : Lti.lfilter b a x zi form u = .ok y) :
    ∃ B N K P, 0 < N ∧ ((x.shape = [N] ∧ B = 1) ∨ x.shape = [B, N]) ∧ (a.shape = [P] ∨ a.shape = [B, P]) ∧
      (b.shape = [K] ∨ ∃ R, b.shape = [R, K] ∧ (form = .df2 ∨ R = 1 ∨ R = B)) ∧ form ≠ .other ∧
      (∀ i, u = some i → 1 ≤ i) ∧ (form = .df2 ∨ form = .tdf2 → ∃ z, InitState B (max P (K - 1)) zi z) :=
  ltiLfilter_ok h

example : ∃ y, Lti.lfilter (t1 3 fun k => (k : ℤ) + 1) (t2 2 2 fun i k => (i : ℤ) - k) (t2 2 7 fun i t => (i : ℤ) * t) none .tdf1
    (some 2) = .ok y := by
  obtain ⟨_, _, _, h⟩ := C11_lfilter (B := 2) (N := 7) (K := 3) (P := 2) (form := .tdf1) (u := some 2) (Rows.shared (B := 2) fun k => (k : ℤ) + 1)
    (Rows.batched fun i k => (i : ℤ) - k) (Sig.batched 2 fun i t => (i : ℤ) * t) (by simp) (by decide) (by decide) (by decide) (by decide)
    (by simp)
  exact ⟨_, h⟩

/-- A denominator for three items and a signal of two. -/
example (form : Lti.Form) (u : Option Int) : Fails (Lti.lfilter (t1 3 fun k => (k : ℤ) + 1) (t2 3 2 fun i k => (i : ℤ) - k)
    (t2 2 7 fun i t => (i : ℤ) * t) none form u) := by
  refine raises_of fun y h => ?_
  obtain ⟨B, N, K, P, _, h1, h2, _⟩ := C67_lti_lfilter_partial h
  simp at h1 h2
  omega

/-- **A numerator with three rows for a single signal is accepted by `df2`** and gives three output signals. -/
theorem C67_df2_accepts_any_rows :
    shape? ((Lti.lfilter (t2 3 1 fun i _ => (i : ℤ)) (t1 1 fun _ => (0 : ℤ)) (t2 1 1 fun _ _ => (5 : ℤ)) none .df2 none).map Prod.fst) =
      some [1, 1, 3] := by
  decide +kernel

/-- **C67 (partial), `lpv.lfilter` with the default backend.** `x` is `(time,)` or `(batch, time)` and not empty, `a` is `(time, P)` or
`(batch, time, P)`, the form is one of the four, the unroll factor is at least one and for `df2` and `tdf2` the state is
`(M,)` or `(batch, M)`.  With `df1` and `tdf1` also `b` is `(time, K)`, `(1, time, K)` or `(batch, time, K)`, with `tdf2` it is
`(time, K)` or `(batch, time, K)`, where a single time step is taken for all.  Missing: with `df2` the batch axis of `b` may be
the number of time steps, see `C67_lpv_df2_accepts_time_rows`, and for `tdf1` the batch and the filter must not be empty. -/
theorem C67_lpv_lfilter_partial {lpc : Lpv.Lpc α} {b a x : Tensor α} {zi : Option (Tensor α)} {form : Lti.Form} {u : Option Int}
    {y : Tensor α × Option (Tensor α)} (h : Lpv.lfilter lpc b a x zi form .ssm u = .ok y) :
    ∃ B N K P, 0 < N ∧ ((x.shape = [N] ∧ B = 1) ∨ x.shape = [B, N]) ∧ (a.shape = [N, P] ∨ a.shape = [B, N, P]) ∧
      (∃ R T, (b.shape = [T, K] ∨ b.shape = [R, T, K] ∧ (form = .df1 ∨ form = .tdf1 → R = 1 ∨ R = B) ∧
          (form = .df2 → R = B ∨ R = N) ∧ (form = .tdf2 → R = B ∨ N = 1)) ∧
        (form = .df1 → T = N) ∧ (form = .tdf1 → 0 < B → 0 < max P (K - 1) → T = N) ∧
        (form = .df2 ∨ form = .tdf2 → T = N ∨ T = 1 ∨ N = 1)) ∧ form ≠ .other ∧
      (∀ i, u = some i → 1 ≤ i) ∧ (form = .df2 ∨ form = .tdf2 → ∃ z, InitState B (max P (K - 1)) zi z) :=
  lpvLfilter_ok h

example : ∃ y, Lpv.lfilter Lpv.refLpc (t3 2 7 3 fun i t k => (i : ℤ) + t * k) (t3 2 7 2 fun i t k => (i : ℤ) - t * k)
    (t2 2 7 fun i t => (i : ℤ) * t) (some (t2 2 2 fun i t => (i : ℤ) - t)) .df2 .ssm (some 2) = .ok y := by
  obtain ⟨_, _, h⟩ := C30_ssm_df2_partial (B := 2) (N := 7) (K := 3) (P := 2) (u := some 2) Lpv.refLpc
    (.batched fun i t k => (i : ℤ) + t * k) (.batched fun i t k => (i : ℤ) - t * k) (.batched 2 fun i t => (i : ℤ) * t)
    (.full fun i t => (i : ℤ) - t) (Or.inr (by decide)) (by decide) (by decide) (by decide) (by decide)
    (by unfold FilterUnroll GoodUnroll FewPrimes; decide +kernel)
  exact ⟨_, h⟩

/-- **A numerator of shape `(time, time, K)` for a single signal is accepted by `df2`**, which returns one output signal per row. -/
theorem C67_lpv_df2_accepts_time_rows :
    shape? ((Lpv.lfilter Lpv.refLpc (t3 3 3 2 fun i t k => (i : ℤ) + t * k) (t2 3 1 fun t _ => (t : ℤ)) (t2 1 3 fun _ t => (t : ℤ))
      none .df2 .ssm none).map Prod.fst) = some [1, 3, 3] := by
  decide +kernel

/-- **A numerator for a single time step is accepted by `df2` and `tdf2`**, for seven time steps and two signals; `df1` and `tdf1`
reject it. -/
theorem C67_lpv_lfilter_accepts_one_step :
    (∀ form ∈ [Lti.Form.df2, .tdf2],
      shape? ((Lpv.lfilter Lpv.refLpc (t2 1 2 fun t k => (t : ℤ) + k) (t2 7 1 fun t _ => (t : ℤ)) (t2 2 7 fun i t => (i : ℤ) * t)
        none form .ssm none).map Prod.fst) = some [2, 7]) ∧
    ∀ form ∈ [Lti.Form.df1, .tdf1],
      shape? ((Lpv.lfilter Lpv.refLpc (t2 1 2 fun t k => (t : ℤ) + k) (t2 7 1 fun t _ => (t : ℤ)) (t2 2 7 fun i t => (i : ℤ) * t)
        none form .ssm none).map Prod.fst) = none := by
  decide +kernel

/-- A numerator shared by two items needs no batch axis; one of length one raises with `tdf2`. -/
example (lpc : Lpv.Lpc ℤ) (a : Tensor ℤ) (zi : Option (Tensor ℤ)) (u : Option Int) :
    Fails (Lpv.lfilter lpc (t3 1 7 2 fun i t k => (i : ℤ) + t * k) a (t2 2 7 fun i t => (i : ℤ) * t) zi .tdf2 .ssm u) := by
  refine raises_of fun y h => ?_
  obtain ⟨B, N, K, P, _, h1, _, ⟨R, T, h2, _⟩, _⟩ := C67_lpv_lfilter_partial h
  simp at h1 h2
  omega

/-- Denominators for one time step too many. -/
example (lpc : Lpv.Lpc ℤ) (b : Tensor ℤ) (form : Lti.Form) (u : Option Int) :
    Fails (Lpv.lfilter lpc b (t3 2 8 2 fun i t k => (i : ℤ) - t * k) (t2 2 7 fun i t => (i : ℤ) * t) none form .ssm u) := by
  refine raises_of fun y h => ?_
  obtain ⟨B, N, K, P, _, h1, h2, _⟩ := C67_lpv_lfilter_partial h
  simp at h1 h2
  omega

/-- **C67, `lpv.lfilter` with the torchlpc backend.** The time axes of `b`, `a` and `x` agree, each batch axis is absent, one or the common
batch size, the state is `(M,)`, `(1, M)` or `(batch, M)`, and the form is not `tdf2`.  Nothing is assumed of torchlpc. -/
theorem C67_torchlpc_lfilter {lpc : Lpv.Lpc α} {b a x : Tensor α} {zi : Option (Tensor α)} {form : Lti.Form} {u : Option Int}
    {y : Tensor α × Option (Tensor α)} (h : Lpv.lfilter lpc b a x zi form .torchlpc u = .ok y) :
    ∃ B N K P Rb Ra Rx, (Rb = 1 ∨ Rb = B) ∧ (Ra = 1 ∨ Ra = B) ∧ (Rx = 1 ∨ Rx = B) ∧
      ((x.shape = [N] ∧ Rx = 1) ∨ x.shape = [Rx, N]) ∧ ((b.shape = [N, K] ∧ Rb = 1) ∨ b.shape = [Rb, N, K]) ∧
      ((a.shape = [N, P] ∧ Ra = 1) ∨ a.shape = [Ra, N, P]) ∧
      (∀ z, zi = some z → z.shape = [max P (K - 1)] ∨ ∃ R, z.shape = [R, max P (K - 1)] ∧ (R = 1 ∨ R = B)) ∧
      (form = .df2 ∨ form = .df1 ∨ form = .tdf1) :=
  torchlpcLfilter_ok h

example : ∃ y, Lpv.lfilter Lpv.refLpc (t3 2 7 3 fun i t k => (i : ℤ) + t * k) (t3 2 7 2 fun i t k => (i : ℤ) - t * k)
    (t2 2 7 fun i t => (i : ℤ) * t) (some (t2 2 2 fun i t => (i : ℤ) - t)) .df2 .torchlpc (some 2) = .ok y := by
  obtain ⟨_, _, h⟩ := C30_torchlpc_df2_partial (B := 2) (N := 7) (K := 3) (P := 2) (u := some 2) Lpv.refLpc_isLpc
    (.batched fun i t k => (i : ℤ) + t * k) (.batched fun i t k => (i : ℤ) - t * k) (.batched 2 fun i t => (i : ℤ) * t)
    (.full fun i t => (i : ℤ) - t) (by decide) (by decide) (by decide) (by decide) (by decide)
  exact ⟨_, h⟩

/-- A state shorter than the longer of the two filters. -/
example (lpc : Lpv.Lpc ℤ) (form : Lti.Form) (u : Option Int) : Fails (Lpv.lfilter lpc (t3 2 7 4 fun i t k => (i : ℤ) + t * k)
    (t3 2 7 2 fun i t k => (i : ℤ) - t * k) (t2 2 7 fun i t => (i : ℤ) * t) (some (t2 2 2 fun i t => (i : ℤ) - t)) form .torchlpc u) := by
  refine raises_of fun y h => ?_
  obtain ⟨B, N, K, P, Rb, Ra, Rx, _, _, _, _, hb, ha, hz, _⟩ := C67_torchlpc_lfilter h
  have hz := hz _ rfl
  simp at hb ha hz
  omega

end

section
variable {α : Type} [Field α] [StarRing α]

/-- **C67 (partial), `diag_state_space`.** Eigenvalues are `(M,)`, then eigenvectors, their inverse and the state matrix are `(M, M)` if
given, or `(batch, M)`, then they are `(batch, M, M)` and one of the first two is given; without eigenvalues a square state matrix is
needed. The input matrix, `C` and `D` are in one of the documented layouts and `C` and `out_idx` are not both given.  The
initial state is in C67Diag.lean. -/
theorem C67_diag_state_space_partial {eigvals : Tensor α → Res (Tensor α)} {findEv : Tensor α → Tensor α → Res (Tensor α)} {re : α → α}
    {realC : Bool} {x : Tensor α} {L V W A Bm C D zi : Option (Tensor α)} {out u : Option Int} {y : Tensor α × Option (Tensor α)}
    (h : Lti.diagStateSpace eigvals findEv re realC x L V W A Bm C D zi out u = .ok y) :
    (C = none ∨ out = none) ∧ ∃ B N M, (x.shape = [B, N] ∨ ∃ F, x.shape = [B, N, F]) ∧
      ((L = none ∧ ∃ A' Av, A = some A' ∧ MatVals B M M A' Av) ∨
        ∃ L', L = some L' ∧
          ((L'.shape = [M] ∧ ∀ X, V = some X ∨ W = some X ∨ A = some X → X.shape = [M, M]) ∨
            (L'.shape = [B, M] ∧ (V.isSome ∨ W.isSome) ∧ ∀ X, V = some X ∨ W = some X ∨ A = some X → X.shape = [B, M, M]))) ∧
      (∀ b, Bm = some b → x.shape = [B, N] ∧ (b.shape = [M] ∨ b.shape = [B, M]) ∨
        ∃ F, x.shape = [B, N, F] ∧ (b.shape = [M, F] ∨ b.shape = [B, M, F])) ∧
      (∃ k r, LtiReadout B M C k r) ∧ ∃ k d, LtiFeed B N D x k d :=
  diagStateSpace_ok h

example : ∃ y, Lti.diagStateSpace (fun _ => .error "") (fun _ _ => .error "") id false (t2 2 7 fun b t => (b : ℚ) + t)
    (some (t1 3 fun i => (i : ℚ))) none none none none none none none none none = .ok y := by
  have e := C22_diagonal_partial (u := none) (u' := none) (ev := fun _ => .error "") (fe := fun _ _ => .error "") (re := id)
    (realC := false) (fun i => (i : ℚ)) (LtiInput.none (Drive.scalar fun b t => (b : ℚ) + t)) LtiReadout.none (LtiFeed.none _ _)
    (InitState.zero (B := 2) (M := 3)) (by decide) (by decide) (N := 7) (by simp) (by simp) (by simp)
  obtain ⟨_, _, h⟩ := C08_state_space_partial (u := none) (B := 2) (M := 3) (MatVals.shared fun i j => if i = j then (i : ℚ) else 0)
    (LtiInput.none (Drive.scalar fun b t => (b : ℚ) + t)) LtiReadout.none (LtiFeed.none _ _)
    (InitState.zero (B := 2) (M := 3)) (by decide) (by decide) (N := 7) (by simp)
  exact ⟨_, e.trans h⟩

/-- Three eigenvalues and eigenvectors of length two. -/
example (x : Tensor ℚ) (A Bm C D zi : Option (Tensor ℚ)) (out u : Option Int) :
    Fails (Lti.diagStateSpace (fun _ => .error "") (fun _ _ => .error "") id false x (some (t1 3 fun i => (i : ℚ)))
      (some (t2 2 2 fun i j => (i : ℚ) + j)) none A Bm C D zi out u) := by
  refine raises_of fun y h => ?_
  obtain ⟨_, B, N, M, _, h, _⟩ := C67_diag_state_space_partial h
  rcases h with ⟨h, _⟩ | ⟨L', hL, h⟩
  · cases h
  · cases hL
    rcases h with ⟨h1, h2⟩ | ⟨h1, _⟩
    · have := h2 _ (Or.inl rfl)
      simp at h1 this
      omega
    · simp at h1

/-- **C67 (partial), `filtfilt`.** The padding is shorter than the signal, the coefficients have one or two axes, the form is one of the
four and the unroll factor is at least one. -/
theorem C67_filtfilt_partial {b a x : Tensor α} {padmode : Option Lti.PadMode} {padlen : Option Int} {form : Lti.Form}
    {u : Option Int} {y : Tensor α} (h : Lti.filtfilt b a x padmode padlen form u = .ok y) :
    Lti.edgeLength b a padmode padlen < x.size (-1) ∧ (b.rank = 1 ∨ b.rank = 2) ∧ (a.rank = 1 ∨ a.rank = 2) ∧ form ≠ .other ∧
      ∀ i, u = some i → 1 ≤ i :=
  filtfilt_ok h

example : ∃ y, Lti.filtfilt (t1 2 fun k => (k : ℚ) + 1) (t1 1 fun _ => (1 / 2 : ℚ)) (t1 20 fun t => (t : ℚ)) (some .replicate) none .df2
    (some 2) = .ok y := by
  obtain ⟨_, h, _⟩ := C20_df2_partial (B := 1) (N := 20) (K := 2) (P := 1) (pm := some .replicate) (padlen := none)
    (.shared fun j => (j : ℚ) + 1) (.shared fun _ => (1 / 2 : ℚ)) (by decide) (by decide) (by decide) (fun _ => by norm_num) (by decide)
    (by decide)
  exact ⟨_, h _ _ _ (Sig.flat _) (by simp)⟩

/-- The default padding of `3 * max(len(b), len(a) + 1)` samples needs a signal that is longer. -/
example (form : Lti.Form) (u : Option Int) : Fails (Lti.filtfilt (t1 2 fun k => (k : ℚ) + 1) (t1 2 fun k => (k : ℚ))
    (t1 9 fun t => (t : ℚ)) (some .reflect) none form u) := by
  refine raises_of fun y h => ?_
  have := (C67_filtfilt_partial h).1
  simp [Lti.edgeLength] at this

end

end Props
