import Verif.Proof.Batch
import Verif.Proof.LinearVals
import Verif.Proof.LinearTorchlpc
import Verif.Proof.LtiFiltfilt

/-!
# C34: batch items do not influence each other

Each theorem compares two runs of a function, on batches of sizes `B` and `B'`.  If item `i` of the first problem (signal,
state, coefficients, each either shared or per item) has the same values as item `i'` of the second, then item `i` of the first
result equals item `i'` of the second, both for the output and for the final state (`SameItemResult`, Verif/Spec/Batch.lean).
With `B' = B` and `i' = i` this says that row `i` depends only on row `i` of the inputs and on the shared parameters; with
`B' = 1` and `i' = 0` that running a batch equals running each row alone (also without a batch axis); the unroll factors of the
two runs may differ (for the LPV functions only in the `_unroll` theorems).  The hypotheses are those of the value theorems; partial where these are (see C32).
-/

namespace Props
open Torch Torch.Tensor Spec Phil
open Phil.Lti (Form PadMode)
variable {α : Type} [CommRing α] [StarRing α] {B B' N i i' : Nat}

/-! ## Recurrences -/

/-- **C34, `lti.linear_recurrence`.** -/
theorem C34_linear_recurrence {a a' init init' : Tensor α} {av av' iv iv' : Nat → α} (x x' : Nat → Nat → α) (u u' : Int)
    (ha : BatchVals B a av) (ha' : BatchVals B' a' av') (hz : BatchVals B init iv) (hz' : BatchVals B' init' iv')
    (hN : 0 < N) (hu : 1 ≤ u) (hu' : 1 ≤ u') (hi : i < B) (hi' : i' < B')
    (ea : av i = av' i') (ez : iv i = iv' i') (ex : ∀ t, t < N → x i t = x' i' t) :
    ∃ y y', Lti.linearRecurrence a init (t2 B N x) u = .ok y ∧ Lti.linearRecurrence a' init' (t2 B' N x') u' = .ok y' ∧
      SameItem 1 i i' y y' :=
  ⟨_, _, C01_linear_recurrence x u ha hz hN hu, C01_linear_recurrence x' u' ha' hz' hN hu', sameItem_t2 hi hi' fun n hn => by
    rw [ea, ez]; exact scalarRec_congr rfl (fun _ _ => rfl) fun t ht => ex t (by omega)⟩

example := C34_linear_recurrence (B := 3) (B' := 5) (N := 7) (i := 1) (i' := 0) (fun i t => (i : ℤ) + t) (fun i t => ((i + 1 : Nat) : ℤ) + t) 2 2
  (.full fun i => (i : ℤ) + 2) (.full fun i => ((i + 1 : Nat) : ℤ) + 2) (.full fun i => (i : ℤ) + 2) (.full fun i => ((i + 1 : Nat) : ℤ) + 2)
  (by decide) (by decide) (by decide) (by decide) (by decide) rfl rfl (by intros; rfl)

/-- **C34, `lpv.linear_recurrence`.** -/
theorem C34_lpv_linear_recurrence {a a' init init' : Tensor α} {av av' : Nat → Nat → α} {iv iv' : Nat → α}
    (x x' : Nat → Nat → α) (u u' : Int) (ha : TimeVals B N a av) (ha' : TimeVals B' N a' av') (hz : BatchVals B init iv)
    (hz' : BatchVals B' init' iv') (hN : 0 < N) (hu : 1 ≤ u) (hu' : 1 ≤ u') (hi : i < B) (hi' : i' < B')
    (ea : ∀ t, t < N → av i t = av' i' t) (ez : iv i = iv' i') (ex : ∀ t, t < N → x i t = x' i' t) :
    ∃ y y', Lpv.linearRecurrence a init (t2 B N x) u = .ok y ∧ Lpv.linearRecurrence a' init' (t2 B' N x') u' = .ok y' ∧
      SameItem 1 i i' y y' :=
  ⟨_, _, C02_linear_recurrence x u ha hz hN hu, C02_linear_recurrence x' u' ha' hz' hN hu', sameItem_t2 hi hi' fun n hn =>
    scalarRec_congr ez (fun t ht => ea t (by omega)) fun t ht => ex t (by omega)⟩

example := C34_lpv_linear_recurrence (B := 3) (B' := 5) (N := 7) (i := 1) (i' := 0) (fun i t => (i : ℤ) + t) (fun i t => ((i + 1 : Nat) : ℤ) + t) 2
  2 (.full fun i t => (i : ℤ) + t) (.full fun i t => ((i + 1 : Nat) : ℤ) + t) (.full fun i => (i : ℤ) + 2) (.full fun i => ((i + 1 : Nat) : ℤ) + 2)
  (by decide) (by decide) (by decide) (by decide) (by decide) (by intros; rfl) rfl (by intros; rfl)

omit [StarRing α] in
/-- **C34, `lti.state_space_recursion`.** -/
theorem C34_state_space_recursion {M : Nat} {A A' x x' : Tensor α} {Av Av' xv xv' : Nat → Nat → Nat → α} (z z' : Nat → Nat → α)
    (hA : MatVals B M M A Av) (hA' : MatVals B' M M A' Av') (hx : Drive B N M x xv) (hx' : Drive B' N M x' xv') (u u' : Int)
    (hM : 0 < M) (hN : 0 < N) (hu : 1 ≤ u) (hu' : 1 ≤ u') (hi : i < B) (hi' : i' < B')
    (eA : ∀ j k, j < M → k < M → Av i j k = Av' i' j k) (ez : ∀ m, m < M → z i m = z' i' m)
    (ex : ∀ t m, t < N → m < M → xv i t m = xv' i' t m) :
    ∃ y y', Lti.stateSpaceRecursion A (t2 B M z) x u none = .ok y ∧ Lti.stateSpaceRecursion A' (t2 B' M z') x' u' none = .ok y' ∧
      SameItem 2 i i' y y' :=
  ⟨_, _, Lti.stateSpaceRecursion_layout hA hx z u none trivial hM hN hu,
    Lti.stateSpaceRecursion_layout hA' hx' z' u' none trivial hM hN hu', sameItem_t3 hi hi' fun n p hn hp =>
      vecRec_congr ez (fun _ _ j k hj hk => eA j k hj hk) (fun t ht m hm => ex t m (by omega) hm) hp⟩

example := C34_state_space_recursion (B := 3) (B' := 5) (N := 7) (i := 1) (i' := 0) (M := 2) (fun i t => (i : ℤ) + t)
  (fun i t => ((i + 1 : Nat) : ℤ) + t) (.batched fun i t k => (i : ℤ) - t * k) (.batched fun i t k => ((i + 1 : Nat) : ℤ) - t * k)
  (.full fun i t k => (i : ℤ) + t * k) (.full fun i t k => ((i + 1 : Nat) : ℤ) + t * k) 2 2 (by decide) (by decide) (by decide) (by decide)
  (by decide) (by decide) (by intros; rfl) (by intros; rfl) (by intros; rfl)

omit [StarRing α] in
/-- **C34, `lpv.state_space_recursion`.** -/
theorem C34_lpv_state_space_recursion {M : Nat} {A A' x x' : Tensor α} {Av Av' : Nat → Nat → Nat → Nat → α}
    {xv xv' : Nat → Nat → Nat → α} (z z' : Nat → Nat → α) (hA : MatSeq B N M M A Av) (hA' : MatSeq B' N M M A' Av')
    (hx : Drive B N M x xv) (hx' : Drive B' N M x' xv') (u : Int) (hM : 0 < M) (hN : 0 < N)
    (hu : 1 ≤ u) (hi : i < B) (hi' : i' < B')
    (eA : ∀ t j k, t < N → j < M → k < M → Av i t j k = Av' i' t j k) (ez : ∀ m, m < M → z i m = z' i' m)
    (ex : ∀ t m, t < N → m < M → xv i t m = xv' i' t m) :
    ∃ y y', Lpv.stateSpaceRecursion A (t2 B M z) x u none = .ok y ∧ Lpv.stateSpaceRecursion A' (t2 B' M z') x' u none = .ok y' ∧
      SameItem 2 i i' y y' :=
  ⟨_, _, Lpv.stateSpaceRecursion_any hA hx z u none trivial (by omega) hM hN hu,
    Lpv.stateSpaceRecursion_any hA' hx' z' u none trivial (by omega) hM hN hu, sameItem_t3 hi hi' fun n p hn hp =>
      Lpv.anyRec_congr hu ez (fun t ht j k hj hk => eA t j k (by omega) hj hk) (fun t ht m hm => ex t m (by omega) hm) hp⟩

example := C34_lpv_state_space_recursion (B := 3) (B' := 5) (N := 7) (i := 1) (i' := 0) (M := 2) (fun i t => (i : ℤ) + t)
  (fun i t => ((i + 1 : Nat) : ℤ) + t) (.batched fun i t k j => (i : ℤ) + t * k - j) (.batched fun i t k j => ((i + 1 : Nat) : ℤ) + t * k - j)
  (.full fun i t k => (i : ℤ) + t * k) (.full fun i t k => ((i + 1 : Nat) : ℤ) + t * k) 2 (by decide) (by decide) (by decide) (by decide)
  (by decide) (by intros; rfl) (by intros; rfl) (by intros; rfl)

omit [StarRing α] in
/-- **C34, `lpv.state_space_recursion`.** With different unroll factors, for which the blocked algorithm is right. -/
theorem C34_lpv_state_space_recursion_unroll_partial {M : Nat} {A A' x x' : Tensor α} {Av Av' : Nat → Nat → Nat → Nat → α}
    {xv xv' : Nat → Nat → Nat → α} (z z' : Nat → Nat → α) (hA : MatSeq B N M M A Av) (hA' : MatSeq B' N M M A' Av')
    (hx : Drive B N M x xv) (hx' : Drive B' N M x' xv') (u u' : Int) (hM : 0 < M) (hN : 0 < N)
    (hu : GoodUnroll N (some u)) (hu' : GoodUnroll N (some u')) (hi : i < B) (hi' : i' < B')
    (eA : ∀ t j k, t < N → j < M → k < M → Av i t j k = Av' i' t j k) (ez : ∀ m, m < M → z i m = z' i' m)
    (ex : ∀ t m, t < N → m < M → xv i t m = xv' i' t m) :
    ∃ y y', Lpv.stateSpaceRecursion A (t2 B M z) x u none = .ok y ∧ Lpv.stateSpaceRecursion A' (t2 B' M z') x' u' none = .ok y' ∧
      SameItem 2 i i' y y' :=
  ⟨_, _, Lpv.stateSpaceRecursion_layout hA hx z u none trivial (by omega) hM hN hu.1 hu.2,
    Lpv.stateSpaceRecursion_layout hA' hx' z' u' none trivial (by omega) hM hN hu'.1 hu'.2, sameItem_t3 hi hi' fun n p hn hp =>
      vecRec_congr ez (fun t ht j k hj hk => eA t j k (by omega) hj hk) (fun t ht m hm => ex t m (by omega) hm) hp⟩

example := C34_lpv_state_space_recursion_unroll_partial (B := 3) (B' := 5) (N := 7) (i := 1) (i' := 0) (M := 2) (fun i t => (i : ℤ) + t)
  (fun i t => ((i + 1 : Nat) : ℤ) + t) (.batched fun i t k j => (i : ℤ) + t * k - j) (.batched fun i t k j => ((i + 1 : Nat) : ℤ) + t * k - j)
  (.full fun i t k => (i : ℤ) + t * k) (.full fun i t k => ((i + 1 : Nat) : ℤ) + t * k) 2 2 (by decide) (by decide)
  (by unfold GoodUnroll; decide +kernel) (by unfold GoodUnroll; decide +kernel) (by decide) (by decide) (by intros; rfl) (by intros; rfl)
  (by intros; rfl)

/-! ## State space -/

omit [StarRing α] in
private theorem readout_range {M : Nat} {C : Option (Tensor α)} {k : Option Nat} {r : Nat → (Nat → α) → Nat → α}
    (h : LtiReadout B M C k r) {f g : Nat → α} (e : ∀ m, m < M → f m = g m) (i p : Nat) (hp : ∀ P, k = some P → p < P) :
    r i f p = r i g p := by
  cases h with
  | none => exact e p (hp M rfl)
  | _ => exact Finset.sum_congr rfl fun m hm => by rw [e m (Finset.mem_range.1 hm)]

omit [StarRing α] in
private theorem readout_range_tv {M : Nat} {C : Option (Tensor α)} {k : Option Nat} {r : Nat → Nat → (Nat → α) → Nat → α}
    (h : LpvReadout B N M C k r) {f g : Nat → α} (e : ∀ m, m < M → f m = g m) (i t p : Nat) (hp : ∀ P, k = some P → p < P) :
    r i t f p = r i t g p := by
  cases h with
  | none => exact e p (hp M rfl)
  | _ => exact Finset.sum_congr rfl fun m hm => by rw [e m (Finset.mem_range.1 hm)]

/-- **C34, `lti.state_space`.**  The two problems may use different documented layouts of the matrices. -/
theorem C34_state_space {M : Nat} {A A' x x' : Tensor α} {Bm C D zi Bm' C' D' zi' : Option (Tensor α)} {k : Option Nat}
    {Av v d Av' v' d' : Nat → Nat → Nat → α} {r r' : Nat → (Nat → α) → Nat → α} {z z' : Nat → Nat → α} {u u' : Option Int}
    (hA : MatVals B M M A Av) (hB : LtiInput B N M Bm x v) (hC : LtiReadout B M C k r) (hD : LtiFeed B N D x k d)
    (hz : InitState B M zi z) (hA' : MatVals B' M M A' Av') (hB' : LtiInput B' N M Bm' x' v') (hC' : LtiReadout B' M C' k r')
    (hD' : LtiFeed B' N D' x' k d') (hz' : InitState B' M zi' z') (hM : 0 < M) (hN : 0 < N)
    (hu : ∀ i, u = some i → 1 ≤ i) (hu' : ∀ i, u' = some i → 1 ≤ i) (hi : i < B) (hi' : i' < B')
    (eA : ∀ j k, j < M → k < M → Av i j k = Av' i' j k) (ez : ∀ m, m < M → z i m = z' i' m)
    (ev : ∀ t m, t < N → m < M → v i t m = v' i' t m) (er : ∀ h p, (∀ P, k = some P → p < P) → r i h p = r' i' h p)
    (ed : ∀ t p, t < N → (∀ P, k = some P → p < P) → d i t p = d' i' t p) :
    SameItemResult (itemRank k) i i' (Lti.stateSpace A x Bm C D zi u none) (Lti.stateSpace A' x' Bm' C' D' zi' u' none) := by
  refine sameItemResult_signal (Lti.stateSpace_eq hA hB hC hD hz hM hN hu) (Lti.stateSpace_eq hA' hB' hC' hD' hz' hM hN hu')
    hi hi' (fun n p hn hp => ?_) (fun m hm => ?_)
  · rw [readout_range hC (fun m hm => vecRec_congr ez (fun _ _ j k hj hk => eA j k hj hk)
      (fun t ht m hm => ev t m (by omega) hm) hm) i p hp, er _ p hp, ed n p hn hp]
  · exact vecRec_congr ez (fun _ _ j k hj hk => eA j k hj hk) (fun t ht m hm => ev t m ht hm) hm

example := C34_state_space (B := 3) (B' := 5) (N := 7) (i := 1) (i' := 0) (M := 2) (u := some 2) (u' := some 2)
  (.batched fun i t k => (i : ℤ) - t * k) (.batchVec (fun i t => (i : ℤ) + t) fun i t => (i : ℤ) * t) (.mat 2 (fun i t => (i : ℤ) + t) (by decide))
  (.none _ _) (.full fun i t => (i : ℤ) - t) (.batched fun i t k => ((i + 1 : Nat) : ℤ) - t * k)
  (.batchVec (fun i t => ((i + 1 : Nat) : ℤ) + t) fun i t => ((i + 1 : Nat) : ℤ) * t) (.mat 2 (fun i t => (i : ℤ) + t) (by decide)) (.none _ _)
  (.full fun i t => ((i + 1 : Nat) : ℤ) - t) (by decide) (by decide) (by simp) (by simp) (by decide) (by decide) (by intros; rfl) (by intros; rfl)
  (by intros; rfl) (by intros; rfl) (by intros; rfl)

/-- **C34, `lpv.state_space`.**  The two problems may use different documented layouts of the matrices. -/
theorem C34_lpv_state_space {M : Nat} {A A' x x' : Tensor α} {Bm C D zi Bm' C' D' zi' : Option (Tensor α)} {k : Option Nat}
    {Av Av' : Nat → Nat → Nat → Nat → α} {v d v' d' : Nat → Nat → Nat → α} {r r' : Nat → Nat → (Nat → α) → Nat → α}
    {z z' : Nat → Nat → α} {u : Option Int}
    (hA : MatSeq B N M M A Av) (hB : LpvInput B N M Bm x v) (hC : LpvReadout B N M C k r) (hD : LpvFeed B N D x k d)
    (hz : InitState B M zi z) (hA' : MatSeq B' N M M A' Av') (hB' : LpvInput B' N M Bm' x' v') (hC' : LpvReadout B' N M C' k r')
    (hD' : LpvFeed B' N D' x' k d') (hz' : InitState B' M zi' z') (hM : 0 < M) (hN : 0 < N)
    (hu : ∀ i, u = some i → 1 ≤ i) (hi : i < B) (hi' : i' < B')
    (eA : ∀ t j k, t < N → j < M → k < M → Av i t j k = Av' i' t j k) (ez : ∀ m, m < M → z i m = z' i' m)
    (ev : ∀ t m, t < N → m < M → v i t m = v' i' t m)
    (er : ∀ t h p, t < N → (∀ P, k = some P → p < P) → r i t h p = r' i' t h p)
    (ed : ∀ t p, t < N → (∀ P, k = some P → p < P) → d i t p = d' i' t p) :
    SameItemResult (itemRank k) i i' (Lpv.stateSpace A x Bm C D zi u none) (Lpv.stateSpace A' x' Bm' C' D' zi' u none) := by
  refine sameItemResult_signal (Lpv.stateSpace_any hA hB hC hD hz (by omega) hM hN hu)
    (Lpv.stateSpace_any hA' hB' hC' hD' hz' (by omega) hM hN hu) hi hi' (fun n p hn hp => ?_) (fun m hm => ?_)
  · rw [readout_range_tv hC (fun m hm => Lpv.anyRec_congr (Lpv.UnrollOk.getD hu hN) ez (fun t ht j k hj hk => eA t j k (by omega) hj hk)
      (fun t ht m hm => ev t m (by omega) hm) hm) i n p hp, er n _ p hn hp, ed n p hn hp]
  · exact Lpv.anyRec_congr (Lpv.UnrollOk.getD hu hN) ez (fun t ht j k hj hk => eA t j k ht hj hk) (fun t ht m hm => ev t m ht hm) hm

example := C34_lpv_state_space (B := 3) (B' := 5) (N := 7) (i := 1) (i' := 0) (M := 2) (u := some 2) (.batched fun i t k j => (i : ℤ) + t * k - j)
  (.batchVec (fun i t => (i : ℤ) + t) (fun i t => (i : ℤ) * t) (by decide)) (.mat 2 (fun i t => (i : ℤ) + t) (by decide) (by decide)) (.none _ _)
  (.full fun i t => (i : ℤ) - t) (.batched fun i t k j => ((i + 1 : Nat) : ℤ) + t * k - j)
  (.batchVec (fun i t => ((i + 1 : Nat) : ℤ) + t) (fun i t => ((i + 1 : Nat) : ℤ) * t) (by decide))
  (.mat 2 (fun i t => (i : ℤ) + t) (by decide) (by decide)) (.none _ _) (.full fun i t => ((i + 1 : Nat) : ℤ) - t) (by decide) (by decide) (by simp)
  (by decide) (by decide) (by intros; rfl) (by intros; rfl) (by intros; rfl) (by intros; rfl) (by intros; rfl)

/-- **C34, `lpv.state_space`.**  The two problems may use different documented layouts of the matrices. With different unroll factors, for which the blocked algorithm is right. -/
theorem C34_lpv_state_space_unroll_partial {M : Nat} {A A' x x' : Tensor α} {Bm C D zi Bm' C' D' zi' : Option (Tensor α)} {k : Option Nat}
    {Av Av' : Nat → Nat → Nat → Nat → α} {v d v' d' : Nat → Nat → Nat → α} {r r' : Nat → Nat → (Nat → α) → Nat → α}
    {z z' : Nat → Nat → α} {u u' : Option Int}
    (hA : MatSeq B N M M A Av) (hB : LpvInput B N M Bm x v) (hC : LpvReadout B N M C k r) (hD : LpvFeed B N D x k d)
    (hz : InitState B M zi z) (hA' : MatSeq B' N M M A' Av') (hB' : LpvInput B' N M Bm' x' v') (hC' : LpvReadout B' N M C' k r')
    (hD' : LpvFeed B' N D' x' k d') (hz' : InitState B' M zi' z') (hM : 0 < M) (hN : 0 < N)
    (hu : GoodUnroll N u) (hu' : GoodUnroll N u') (hi : i < B) (hi' : i' < B')
    (eA : ∀ t j k, t < N → j < M → k < M → Av i t j k = Av' i' t j k) (ez : ∀ m, m < M → z i m = z' i' m)
    (ev : ∀ t m, t < N → m < M → v i t m = v' i' t m)
    (er : ∀ t h p, t < N → (∀ P, k = some P → p < P) → r i t h p = r' i' t h p)
    (ed : ∀ t p, t < N → (∀ P, k = some P → p < P) → d i t p = d' i' t p) :
    SameItemResult (itemRank k) i i' (Lpv.stateSpace A x Bm C D zi u none) (Lpv.stateSpace A' x' Bm' C' D' zi' u' none) := by
  refine sameItemResult_signal (Lpv.stateSpace_eq hA hB hC hD hz (by omega) hM hN hu.1 hu.2)
    (Lpv.stateSpace_eq hA' hB' hC' hD' hz' (by omega) hM hN hu'.1 hu'.2) hi hi' (fun n p hn hp => ?_) (fun m hm => ?_)
  · rw [readout_range_tv hC (fun m hm => vecRec_congr ez (fun t ht j k hj hk => eA t j k (by omega) hj hk)
      (fun t ht m hm => ev t m (by omega) hm) hm) i n p hp, er n _ p hn hp, ed n p hn hp]
  · exact vecRec_congr ez (fun t ht j k hj hk => eA t j k ht hj hk) (fun t ht m hm => ev t m ht hm) hm

example := C34_lpv_state_space_unroll_partial (B := 3) (B' := 5) (N := 7) (i := 1) (i' := 0) (M := 2) (u := some 2) (u' := some 2)
  (.batched fun i t k j => (i : ℤ) + t * k - j) (.batchVec (fun i t => (i : ℤ) + t) (fun i t => (i : ℤ) * t) (by decide))
  (.mat 2 (fun i t => (i : ℤ) + t) (by decide) (by decide)) (.none _ _) (.full fun i t => (i : ℤ) - t)
  (.batched fun i t k j => ((i + 1 : Nat) : ℤ) + t * k - j)
  (.batchVec (fun i t => ((i + 1 : Nat) : ℤ) + t) (fun i t => ((i + 1 : Nat) : ℤ) * t) (by decide))
  (.mat 2 (fun i t => (i : ℤ) + t) (by decide) (by decide)) (.none _ _) (.full fun i t => ((i + 1 : Nat) : ℤ) - t) (by decide) (by decide)
  (by unfold GoodUnroll; decide +kernel) (by unfold GoodUnroll; decide +kernel) (by decide) (by decide) (by intros; rfl) (by intros; rfl)
  (by intros; rfl) (by intros; rfl) (by intros; rfl)

/-! ## Filters

The equalities of coefficients and samples are on the functions that describe the tensors; a tensor has many such functions, which
differ outside its shape, and any of them may be used. -/

/-- **C34, `lti.lfilter`, direct form II**. -/
theorem C34_lfilter_df2 {K P : Nat} {b a X b' a' X' : Tensor α} {zi zi' : Option (Tensor α)} {bv av bv' av' : Nat → Nat → α}
    {x x' z z' : Nat → Nat → α} {u u' : Option Int}
    (hb : Rows B K b bv) (ha : Rows B P a av) (hx : Sig N B X x) (hb' : Rows B' K b' bv') (ha' : Rows B' P a' av') (hx' : Sig N B' X' x')
    (hz : InitState B (max P (K - 1)) zi z) (hz' : InitState B' (max P (K - 1)) zi' z')
    (hK : 0 < K) (hM : 0 < max P (K - 1)) (hN : 0 < N) (hu : ∀ i, u = some i → 1 ≤ i) (hu' : ∀ i, u' = some i → 1 ≤ i)
    (hi : i < B) (hi' : i' < B') (eb : bv i = bv' i') (ea : av i = av' i') (ez : z i = z' i') (ex : x i = x' i') :
    SameItemResult 1 i i' (Lti.lfilter b a X zi .df2 u) (Lti.lfilter b' a' X' zi' .df2 u') := by
  refine sameItemResult_packed (Lti.lfilterWith_eq hb ha hx (Lti.ssmLfilter_df2 hb ha _ hz hK hM hN hu))
    (Lti.lfilterWith_eq hb' ha' hx' (Lti.ssmLfilter_df2 hb' ha' _ hz' hK hM hN hu')) hi hi' (flat_zero hx hi) (flat_zero hx' hi')
    (fun n hn => ?_) (fun m hm => ?_)
  · rw [eb, ea, ez, ex]
  · rw [ea, ez, ex]

/-- **C34, `lti.lfilter`, transposed direct form II**. -/
theorem C34_lfilter_tdf2 {K P : Nat} {b a X b' a' X' : Tensor α} {zi zi' : Option (Tensor α)} {bv av bv' av' : Nat → Nat → α}
    {x x' z z' : Nat → Nat → α} {u u' : Option Int}
    (hb : Rows B K b bv) (ha : Rows B P a av) (hx : Sig N B X x) (hb' : Rows B' K b' bv') (ha' : Rows B' P a' av') (hx' : Sig N B' X' x')
    (hz : InitState B (max P (K - 1)) zi z) (hz' : InitState B' (max P (K - 1)) zi' z')
    (hK : 0 < K) (hM : 0 < max P (K - 1)) (hN : 0 < N) (hu : ∀ i, u = some i → 1 ≤ i) (hu' : ∀ i, u' = some i → 1 ≤ i)
    (hi : i < B) (hi' : i' < B') (eb : bv i = bv' i') (ea : av i = av' i') (ez : z i = z' i') (ex : x i = x' i') :
    SameItemResult 1 i i' (Lti.lfilter b a X zi .tdf2 u) (Lti.lfilter b' a' X' zi' .tdf2 u') := by
  refine sameItemResult_packed (Lti.lfilterWith_eq hb ha hx (Lti.ssmLfilter_tdf2 hb ha _ hz hK hM hN hu))
    (Lti.lfilterWith_eq hb' ha' hx' (Lti.ssmLfilter_tdf2 hb' ha' _ hz' hK hM hN hu')) hi hi' (flat_zero hx hi) (flat_zero hx' hi')
    (fun n hn => ?_) (fun m hm => ?_)
  · rw [eb, ea, ez, ex]
  · rw [eb, ea, ez, ex]

example := C34_lfilter_tdf2 (B := 3) (B' := 5) (N := 7) (i := 1) (i' := 0) (K := 3) (P := 2) (u := some 2) (u' := some 2)
  (.batched fun i t => (i : ℤ) + t) (.batched fun i t => (i : ℤ) + t) (.batched 3 fun i t => (i : ℤ) * t)
  (.batched fun i t => ((i + 1 : Nat) : ℤ) + t) (.batched fun i t => ((i + 1 : Nat) : ℤ) + t) (.batched 5 fun i t => ((i + 1 : Nat) : ℤ) * t)
  (.full fun i t => (i : ℤ) - t) (.full fun i t => ((i + 1 : Nat) : ℤ) - t) (by decide) (by decide) (by decide) (by simp) (by simp) (by decide)
  (by decide) rfl rfl rfl rfl

/-- **C34, `lti.lfilter`, direct form I**. -/
theorem C34_lfilter_df1 {K P : Nat} {b a X b' a' X' : Tensor α} {zi zi' : Option (Tensor α)} {bv av bv' av' : Nat → Nat → α}
    {x x' : Nat → Nat → α} {u u' : Option Int}
    (hb : Rows B K b bv) (ha : Rows B P a av) (hx : Sig N B X x) (hb' : Rows B' K b' bv') (ha' : Rows B' P a' av') (hx' : Sig N B' X' x')
    (hK : 0 < K) (hM : 0 < max P (K - 1)) (hN : 0 < N) (hu : ∀ i, u = some i → 1 ≤ i) (hu' : ∀ i, u' = some i → 1 ≤ i)
    (hi : i < B) (hi' : i' < B') (eb : bv i = bv' i') (ea : av i = av' i') (ex : x i = x' i') :
    SameItemResult 1 i i' (Lti.lfilter b a X zi .df1 u) (Lti.lfilter b' a' X' zi' .df1 u') := by
  refine sameItemResult_packed (Lti.lfilterWith_eq (c := false) (M := 0) (zf := fun _ _ => 0) hb ha hx (Lti.ssmLfilter_df1 hb ha _ zi (by omega) hK hM hN hu))
    (Lti.lfilterWith_eq (c := false) (M := 0) (zf := fun _ _ => 0) hb' ha' hx' (Lti.ssmLfilter_df1 hb' ha' _ zi' (by omega) hK hM hN hu')) hi hi' (flat_zero hx hi) (flat_zero hx' hi')
    (fun n hn => ?_) (fun m hm => ?_)
  · rw [eb, ea, ex]
  · rfl

example := C34_lfilter_df1 (B := 3) (B' := 5) (N := 7) (i := 1) (i' := 0) (K := 3) (P := 2) (zi := none) (zi' := none) (u := some 2) (u' := some 2)
  (.batched fun i t => (i : ℤ) + t) (.batched fun i t => (i : ℤ) + t) (.batched 3 fun i t => (i : ℤ) * t)
  (.batched fun i t => ((i + 1 : Nat) : ℤ) + t) (.batched fun i t => ((i + 1 : Nat) : ℤ) + t) (.batched 5 fun i t => ((i + 1 : Nat) : ℤ) * t)
  (by decide) (by decide) (by decide) (by simp) (by simp) (by decide) (by decide) rfl rfl rfl

/-- **C34, `lti.lfilter`, transposed direct form I**. -/
theorem C34_lfilter_tdf1 {K P : Nat} {b a X b' a' X' : Tensor α} {zi zi' : Option (Tensor α)} {bv av bv' av' : Nat → Nat → α}
    {x x' : Nat → Nat → α} {u u' : Option Int}
    (hb : Rows B K b bv) (ha : Rows B P a av) (hx : Sig N B X x) (hb' : Rows B' K b' bv') (ha' : Rows B' P a' av') (hx' : Sig N B' X' x')
    (hK : 0 < K) (hM : 0 < max P (K - 1)) (hN : 0 < N) (hu : ∀ i, u = some i → 1 ≤ i) (hu' : ∀ i, u' = some i → 1 ≤ i)
    (hi : i < B) (hi' : i' < B') (eb : bv i = bv' i') (ea : av i = av' i') (ex : x i = x' i') :
    SameItemResult 1 i i' (Lti.lfilter b a X zi .tdf1 u) (Lti.lfilter b' a' X' zi' .tdf1 u') := by
  refine sameItemResult_packed (Lti.lfilterWith_eq (c := false) (M := 0) (zf := fun _ _ => 0) hb ha hx (Lti.ssmLfilter_tdf1 hb ha _ zi (by omega) hK hM hN hu))
    (Lti.lfilterWith_eq (c := false) (M := 0) (zf := fun _ _ => 0) hb' ha' hx' (Lti.ssmLfilter_tdf1 hb' ha' _ zi' (by omega) hK hM hN hu')) hi hi' (flat_zero hx hi) (flat_zero hx' hi')
    (fun n hn => ?_) (fun m hm => ?_)
  · rw [eb, ea, ex]
  · rfl

example := C34_lfilter_tdf1 (B := 3) (B' := 5) (N := 7) (i := 1) (i' := 0) (K := 3) (P := 2) (zi := none) (zi' := none) (u := some 2) (u' := some 2)
  (.batched fun i t => (i : ℤ) + t) (.batched fun i t => (i : ℤ) + t) (.batched 3 fun i t => (i : ℤ) * t)
  (.batched fun i t => ((i + 1 : Nat) : ℤ) + t) (.batched fun i t => ((i + 1 : Nat) : ℤ) + t) (.batched 5 fun i t => ((i + 1 : Nat) : ℤ) * t)
  (by decide) (by decide) (by decide) (by simp) (by simp) (by decide) (by decide) rfl rfl rfl

/-- **C34, `lpv.lfilter`, direct form II**, backend `ssm`. -/
theorem C34_lpv_lfilter_df2_partial {K P : Nat} {b a X b' a' X' : Tensor α} {zi zi' : Option (Tensor α)} {bv av bv' av' : Nat → Nat → Nat → α}
    {x x' z z' : Nat → Nat → α} {u : Option Int} (lpc : Lpv.Lpc α)
    (hb : MatVals B N K b bv) (ha : MatVals B N P a av) (hx : Sig N B X x) (hb' : MatVals B' N K b' bv') (ha' : MatVals B' N P a' av') (hx' : Sig N B' X' x')
    (hz : InitState B (max P (K - 1)) zi z) (hz' : InitState B' (max P (K - 1)) zi' z')
    (hBN : b.rank = 2 ∧ a.rank = 2 ∨ B ≠ N) (hBN' : b'.rank = 2 ∧ a'.rank = 2 ∨ B' ≠ N)
    (hK : 0 < K) (hM : 0 < max P (K - 1)) (hN : 0 < N) (hu : ∀ i, u = some i → 1 ≤ i)
    (hi : i < B) (hi' : i' < B') (eb : bv i = bv' i') (ea : av i = av' i') (ez : z i = z' i') (ex : x i = x' i') :
    SameItemResult 1 i i' (Lpv.lfilter lpc b a X zi .df2 .ssm u) (Lpv.lfilter lpc b' a' X' zi' .df2 .ssm u) := by
  refine sameItemResult_packed (Lpv.lfilterWith_seq hb ha hx (Lpv.ssmLfilter_df2_any hb ha _ hz hBN (by omega) hK hM hN hu))
    (Lpv.lfilterWith_seq hb' ha' hx' (Lpv.ssmLfilter_df2_any hb' ha' _ hz' hBN' (by omega) hK hM hN hu)) hi hi' (flatTv_zero hx hi) (flatTv_zero hx' hi')
    (fun n hn => ?_) (fun m hm => ?_)
  · rw [eb, ea, ez, ex]
  · rw [ea, ez, ex]

example := C34_lpv_lfilter_df2_partial (B := 3) (B' := 5) (N := 7) (i := 1) (i' := 0) (K := 3) (P := 2) (u := some 2) Lpv.refLpc
  (.batched fun i t k => (i : ℤ) + t * k) (.batched fun i t k => (i : ℤ) - t * k) (.batched 3 fun i t => (i : ℤ) * t)
  (.batched fun i t k => ((i + 1 : Nat) : ℤ) + t * k) (.batched fun i t k => ((i + 1 : Nat) : ℤ) - t * k)
  (.batched 5 fun i t => ((i + 1 : Nat) : ℤ) * t) (.full fun i t => (i : ℤ) - t) (.full fun i t => ((i + 1 : Nat) : ℤ) - t) (Or.inr (by decide))
  (Or.inr (by decide)) (by decide) (by decide) (by decide) (by simp) (by decide) (by decide) rfl rfl rfl rfl

/-- **C34, `lpv.lfilter`, direct form II**, backend `ssm`. With different unroll factors, for which the blocked algorithm is right. -/
theorem C34_lpv_lfilter_df2_unroll_partial {K P : Nat} {b a X b' a' X' : Tensor α} {zi zi' : Option (Tensor α)} {bv av bv' av' : Nat → Nat → Nat → α}
    {x x' z z' : Nat → Nat → α} {u u' : Option Int} (lpc : Lpv.Lpc α)
    (hb : MatVals B N K b bv) (ha : MatVals B N P a av) (hx : Sig N B X x) (hb' : MatVals B' N K b' bv') (ha' : MatVals B' N P a' av') (hx' : Sig N B' X' x')
    (hz : InitState B (max P (K - 1)) zi z) (hz' : InitState B' (max P (K - 1)) zi' z')
    (hBN : b.rank = 2 ∧ a.rank = 2 ∨ B ≠ N) (hBN' : b'.rank = 2 ∧ a'.rank = 2 ∨ B' ≠ N)
    (hK : 0 < K) (hM : 0 < max P (K - 1)) (hN : 0 < N) (hu : GoodUnroll N u) (hu' : GoodUnroll N u')
    (hi : i < B) (hi' : i' < B') (eb : bv i = bv' i') (ea : av i = av' i') (ez : z i = z' i') (ex : x i = x' i') :
    SameItemResult 1 i i' (Lpv.lfilter lpc b a X zi .df2 .ssm u) (Lpv.lfilter lpc b' a' X' zi' .df2 .ssm u') := by
  refine sameItemResult_packed (Lpv.lfilterWith_seq hb ha hx (Lpv.ssmLfilter_tvdf2 hb ha _ hz hBN (by omega) hK hM hN hu))
    (Lpv.lfilterWith_seq hb' ha' hx' (Lpv.ssmLfilter_tvdf2 hb' ha' _ hz' hBN' (by omega) hK hM hN hu')) hi hi' (flatTv_zero hx hi) (flatTv_zero hx' hi')
    (fun n hn => ?_) (fun m hm => ?_)
  · rw [eb, ea, ez, ex]
  · rw [ea, ez, ex]

example := C34_lpv_lfilter_df2_unroll_partial (B := 3) (B' := 5) (N := 7) (i := 1) (i' := 0) (K := 3) (P := 2) (u := some 2) (u' := some 2)
  Lpv.refLpc (.batched fun i t k => (i : ℤ) + t * k) (.batched fun i t k => (i : ℤ) - t * k) (.batched 3 fun i t => (i : ℤ) * t)
  (.batched fun i t k => ((i + 1 : Nat) : ℤ) + t * k) (.batched fun i t k => ((i + 1 : Nat) : ℤ) - t * k)
  (.batched 5 fun i t => ((i + 1 : Nat) : ℤ) * t) (.full fun i t => (i : ℤ) - t) (.full fun i t => ((i + 1 : Nat) : ℤ) - t) (Or.inr (by decide))
  (Or.inr (by decide)) (by decide) (by decide) (by decide) (by unfold GoodUnroll; decide +kernel) (by unfold GoodUnroll; decide +kernel) (by decide)
  (by decide) rfl rfl rfl rfl

/-- **C34, `lpv.lfilter`, transposed direct form II**, backend `ssm`. -/
theorem C34_lpv_lfilter_tdf2_partial {K P : Nat} {b a X b' a' X' : Tensor α} {zi zi' : Option (Tensor α)} {bv av bv' av' : Nat → Nat → Nat → α}
    {x x' z z' : Nat → Nat → α} {u : Option Int} (lpc : Lpv.Lpc α)
    (hb : MatVals B N K b bv) (ha : MatVals B N P a av) (hx : Sig N B X x) (hb' : MatVals B' N K b' bv') (ha' : MatVals B' N P a' av') (hx' : Sig N B' X' x')
    (hz : InitState B (max P (K - 1)) zi z) (hz' : InitState B' (max P (K - 1)) zi' z')
    (hBN : b.rank = 2 ∨ B ≠ N) (hBN' : b'.rank = 2 ∨ B' ≠ N)
    (hK : 0 < K) (hM : 0 < max P (K - 1)) (hN : 0 < N) (hu : ∀ i, u = some i → 1 ≤ i)
    (hi : i < B) (hi' : i' < B') (eb : bv i = bv' i') (ea : av i = av' i') (ez : z i = z' i') (ex : x i = x' i') :
    SameItemResult 1 i i' (Lpv.lfilter lpc b a X zi .tdf2 .ssm u) (Lpv.lfilter lpc b' a' X' zi' .tdf2 .ssm u) := by
  refine sameItemResult_packed (Lpv.lfilterWith_seq hb ha hx (Lpv.ssmLfilter_tdf2_any hb ha _ hz hBN (by omega) hK hM hN hu))
    (Lpv.lfilterWith_seq hb' ha' hx' (Lpv.ssmLfilter_tdf2_any hb' ha' _ hz' hBN' (by omega) hK hM hN hu)) hi hi' (flatTv_zero hx hi) (flatTv_zero hx' hi')
    (fun n hn => ?_) (fun m hm => ?_)
  · rw [eb, ea, ez, ex]
  · rw [eb, ea, ez, ex]

example := C34_lpv_lfilter_tdf2_partial (B := 3) (B' := 5) (N := 7) (i := 1) (i' := 0) (K := 3) (P := 2) (u := some 2) Lpv.refLpc
  (.batched fun i t k => (i : ℤ) + t * k) (.batched fun i t k => (i : ℤ) - t * k) (.batched 3 fun i t => (i : ℤ) * t)
  (.batched fun i t k => ((i + 1 : Nat) : ℤ) + t * k) (.batched fun i t k => ((i + 1 : Nat) : ℤ) - t * k)
  (.batched 5 fun i t => ((i + 1 : Nat) : ℤ) * t) (.full fun i t => (i : ℤ) - t) (.full fun i t => ((i + 1 : Nat) : ℤ) - t) (Or.inr (by decide))
  (Or.inr (by decide)) (by decide) (by decide) (by decide) (by simp) (by decide) (by decide) rfl rfl rfl rfl

/-- **C34, `lpv.lfilter`, transposed direct form II**, backend `ssm`. With different unroll factors, for which the blocked algorithm is right. -/
theorem C34_lpv_lfilter_tdf2_unroll_partial {K P : Nat} {b a X b' a' X' : Tensor α} {zi zi' : Option (Tensor α)} {bv av bv' av' : Nat → Nat → Nat → α}
    {x x' z z' : Nat → Nat → α} {u u' : Option Int} (lpc : Lpv.Lpc α)
    (hb : MatVals B N K b bv) (ha : MatVals B N P a av) (hx : Sig N B X x) (hb' : MatVals B' N K b' bv') (ha' : MatVals B' N P a' av') (hx' : Sig N B' X' x')
    (hz : InitState B (max P (K - 1)) zi z) (hz' : InitState B' (max P (K - 1)) zi' z')
    (hBN : b.rank = 2 ∨ B ≠ N) (hBN' : b'.rank = 2 ∨ B' ≠ N)
    (hK : 0 < K) (hM : 0 < max P (K - 1)) (hN : 0 < N) (hu : GoodUnroll N u) (hu' : GoodUnroll N u')
    (hi : i < B) (hi' : i' < B') (eb : bv i = bv' i') (ea : av i = av' i') (ez : z i = z' i') (ex : x i = x' i') :
    SameItemResult 1 i i' (Lpv.lfilter lpc b a X zi .tdf2 .ssm u) (Lpv.lfilter lpc b' a' X' zi' .tdf2 .ssm u') := by
  refine sameItemResult_packed (Lpv.lfilterWith_seq hb ha hx (Lpv.ssmLfilter_tvtdf2 hb ha _ hz hBN (by omega) hK hM hN hu))
    (Lpv.lfilterWith_seq hb' ha' hx' (Lpv.ssmLfilter_tvtdf2 hb' ha' _ hz' hBN' (by omega) hK hM hN hu')) hi hi' (flatTv_zero hx hi) (flatTv_zero hx' hi')
    (fun n hn => ?_) (fun m hm => ?_)
  · rw [eb, ea, ez, ex]
  · rw [eb, ea, ez, ex]

example := C34_lpv_lfilter_tdf2_unroll_partial (B := 3) (B' := 5) (N := 7) (i := 1) (i' := 0) (K := 3) (P := 2) (u := some 2) (u' := some 2)
  Lpv.refLpc (.batched fun i t k => (i : ℤ) + t * k) (.batched fun i t k => (i : ℤ) - t * k) (.batched 3 fun i t => (i : ℤ) * t)
  (.batched fun i t k => ((i + 1 : Nat) : ℤ) + t * k) (.batched fun i t k => ((i + 1 : Nat) : ℤ) - t * k)
  (.batched 5 fun i t => ((i + 1 : Nat) : ℤ) * t) (.full fun i t => (i : ℤ) - t) (.full fun i t => ((i + 1 : Nat) : ℤ) - t) (Or.inr (by decide))
  (Or.inr (by decide)) (by decide) (by decide) (by decide) (by unfold GoodUnroll; decide +kernel) (by unfold GoodUnroll; decide +kernel) (by decide)
  (by decide) rfl rfl rfl rfl

/-- **C34, `lpv.lfilter`, direct form I**, backend `ssm`. -/
theorem C34_lpv_lfilter_df1 {K P : Nat} {b a X b' a' X' : Tensor α} {zi zi' : Option (Tensor α)} {bv av bv' av' : Nat → Nat → Nat → α}
    {x x' : Nat → Nat → α} {u : Option Int} (lpc : Lpv.Lpc α)
    (hb : MatVals B N K b bv) (ha : MatVals B N P a av) (hx : Sig N B X x) (hb' : MatVals B' N K b' bv') (ha' : MatVals B' N P a' av') (hx' : Sig N B' X' x')
    (hK : 0 < K) (hM : 0 < max P (K - 1)) (hN : 0 < N) (hu : ∀ i, u = some i → 1 ≤ i)
    (hi : i < B) (hi' : i' < B') (eb : bv i = bv' i') (ea : av i = av' i') (ex : x i = x' i') :
    SameItemResult 1 i i' (Lpv.lfilter lpc b a X zi .df1 .ssm u) (Lpv.lfilter lpc b' a' X' zi' .df1 .ssm u) := by
  refine sameItemResult_packed (Lpv.lfilterWith_seq (c := false) (M := 0) (zf := fun _ _ => 0) hb ha hx (Lpv.ssmLfilter_df1_any hb ha _ zi (by omega) hK hM hN hu))
    (Lpv.lfilterWith_seq (c := false) (M := 0) (zf := fun _ _ => 0) hb' ha' hx' (Lpv.ssmLfilter_df1_any hb' ha' _ zi' (by omega) hK hM hN hu)) hi hi' (flatTv_zero hx hi) (flatTv_zero hx' hi')
    (fun n hn => ?_) (fun m hm => ?_)
  · rw [eb, ea, ex]
  · rfl

example := C34_lpv_lfilter_df1 (B := 3) (B' := 5) (N := 7) (i := 1) (i' := 0) (K := 3) (P := 2) (zi := none) (zi' := none) (u := some 2) Lpv.refLpc
  (.batched fun i t k => (i : ℤ) + t * k) (.batched fun i t k => (i : ℤ) - t * k) (.batched 3 fun i t => (i : ℤ) * t)
  (.batched fun i t k => ((i + 1 : Nat) : ℤ) + t * k) (.batched fun i t k => ((i + 1 : Nat) : ℤ) - t * k)
  (.batched 5 fun i t => ((i + 1 : Nat) : ℤ) * t) (by decide) (by decide) (by decide) (by simp) (by decide) (by decide) rfl rfl rfl

/-- **C34, `lpv.lfilter`, direct form I**, backend `ssm`. With different unroll factors, for which the blocked algorithm is right. -/
theorem C34_lpv_lfilter_df1_unroll_partial {K P : Nat} {b a X b' a' X' : Tensor α} {zi zi' : Option (Tensor α)} {bv av bv' av' : Nat → Nat → Nat → α}
    {x x' : Nat → Nat → α} {u u' : Option Int} (lpc : Lpv.Lpc α)
    (hb : MatVals B N K b bv) (ha : MatVals B N P a av) (hx : Sig N B X x) (hb' : MatVals B' N K b' bv') (ha' : MatVals B' N P a' av') (hx' : Sig N B' X' x')
    (hK : 0 < K) (hM : 0 < max P (K - 1)) (hN : 0 < N) (hu : GoodUnroll N (some (u.getD 1))) (hu' : GoodUnroll N (some (u'.getD 1)))
    (hi : i < B) (hi' : i' < B') (eb : bv i = bv' i') (ea : av i = av' i') (ex : x i = x' i') :
    SameItemResult 1 i i' (Lpv.lfilter lpc b a X zi .df1 .ssm u) (Lpv.lfilter lpc b' a' X' zi' .df1 .ssm u') := by
  refine sameItemResult_packed (Lpv.lfilterWith_seq (c := false) (M := 0) (zf := fun _ _ => 0) hb ha hx (Lpv.ssmLfilter_tvdf1 hb ha _ zi (by omega) hK hM hN hu))
    (Lpv.lfilterWith_seq (c := false) (M := 0) (zf := fun _ _ => 0) hb' ha' hx' (Lpv.ssmLfilter_tvdf1 hb' ha' _ zi' (by omega) hK hM hN hu')) hi hi' (flatTv_zero hx hi) (flatTv_zero hx' hi')
    (fun n hn => ?_) (fun m hm => ?_)
  · rw [eb, ea, ex]
  · rfl

example := C34_lpv_lfilter_df1_unroll_partial (B := 3) (B' := 5) (N := 7) (i := 1) (i' := 0) (K := 3) (P := 2) (zi := none) (zi' := none)
  (u := some 2) (u' := some 2) Lpv.refLpc (.batched fun i t k => (i : ℤ) + t * k) (.batched fun i t k => (i : ℤ) - t * k)
  (.batched 3 fun i t => (i : ℤ) * t) (.batched fun i t k => ((i + 1 : Nat) : ℤ) + t * k) (.batched fun i t k => ((i + 1 : Nat) : ℤ) - t * k)
  (.batched 5 fun i t => ((i + 1 : Nat) : ℤ) * t) (by decide) (by decide) (by decide) (by unfold GoodUnroll; decide +kernel)
  (by unfold GoodUnroll; decide +kernel) (by decide) (by decide) rfl rfl rfl

/-- **C34, `lpv.lfilter`, transposed direct form I**, backend `ssm`. -/
theorem C34_lpv_lfilter_tdf1 {K P : Nat} {b a X b' a' X' : Tensor α} {zi zi' : Option (Tensor α)} {bv av bv' av' : Nat → Nat → Nat → α}
    {x x' : Nat → Nat → α} {u : Option Int} (lpc : Lpv.Lpc α)
    (hb : MatVals B N K b bv) (ha : MatVals B N P a av) (hx : Sig N B X x) (hb' : MatVals B' N K b' bv') (ha' : MatVals B' N P a' av') (hx' : Sig N B' X' x')
    (hK : 0 < K) (hM : 0 < max P (K - 1)) (hN : 0 < N) (hu : ∀ i, u = some i → 1 ≤ i)
    (hi : i < B) (hi' : i' < B') (eb : bv i = bv' i') (ea : av i = av' i') (ex : x i = x' i') :
    SameItemResult 1 i i' (Lpv.lfilter lpc b a X zi .tdf1 .ssm u) (Lpv.lfilter lpc b' a' X' zi' .tdf1 .ssm u) := by
  refine sameItemResult_packed (Lpv.lfilterWith_seq (c := false) (M := 0) (zf := fun _ _ => 0) hb ha hx (Lpv.ssmLfilter_tdf1_any hb ha _ zi (by omega) hK hM hN hu))
    (Lpv.lfilterWith_seq (c := false) (M := 0) (zf := fun _ _ => 0) hb' ha' hx' (Lpv.ssmLfilter_tdf1_any hb' ha' _ zi' (by omega) hK hM hN hu)) hi hi' (flatTv_zero hx hi) (flatTv_zero hx' hi')
    (fun n hn => ?_) (fun m hm => ?_)
  · rw [eb, ea, ex]
  · rfl

example := C34_lpv_lfilter_tdf1 (B := 3) (B' := 5) (N := 7) (i := 1) (i' := 0) (K := 3) (P := 2) (zi := none) (zi' := none) (u := some 2) Lpv.refLpc
  (.batched fun i t k => (i : ℤ) + t * k) (.batched fun i t k => (i : ℤ) - t * k) (.batched 3 fun i t => (i : ℤ) * t)
  (.batched fun i t k => ((i + 1 : Nat) : ℤ) + t * k) (.batched fun i t k => ((i + 1 : Nat) : ℤ) - t * k)
  (.batched 5 fun i t => ((i + 1 : Nat) : ℤ) * t) (by decide) (by decide) (by decide) (by simp) (by decide) (by decide) rfl rfl rfl

/-- **C34, `lpv.lfilter`, transposed direct form I**, backend `ssm`. With different unroll factors, for which the blocked algorithm is right. -/
theorem C34_lpv_lfilter_tdf1_unroll_partial {K P : Nat} {b a X b' a' X' : Tensor α} {zi zi' : Option (Tensor α)} {bv av bv' av' : Nat → Nat → Nat → α}
    {x x' : Nat → Nat → α} {u u' : Option Int} (lpc : Lpv.Lpc α)
    (hb : MatVals B N K b bv) (ha : MatVals B N P a av) (hx : Sig N B X x) (hb' : MatVals B' N K b' bv') (ha' : MatVals B' N P a' av') (hx' : Sig N B' X' x')
    (hK : 0 < K) (hM : 0 < max P (K - 1)) (hN : 0 < N) (hu : GoodUnroll N (some (u.getD 1))) (hu' : GoodUnroll N (some (u'.getD 1)))
    (hi : i < B) (hi' : i' < B') (eb : bv i = bv' i') (ea : av i = av' i') (ex : x i = x' i') :
    SameItemResult 1 i i' (Lpv.lfilter lpc b a X zi .tdf1 .ssm u) (Lpv.lfilter lpc b' a' X' zi' .tdf1 .ssm u') := by
  refine sameItemResult_packed (Lpv.lfilterWith_seq (c := false) (M := 0) (zf := fun _ _ => 0) hb ha hx (Lpv.ssmLfilter_tvtdf1 hb ha _ zi (by omega) hK hM hN hu))
    (Lpv.lfilterWith_seq (c := false) (M := 0) (zf := fun _ _ => 0) hb' ha' hx' (Lpv.ssmLfilter_tvtdf1 hb' ha' _ zi' (by omega) hK hM hN hu')) hi hi' (flatTv_zero hx hi) (flatTv_zero hx' hi')
    (fun n hn => ?_) (fun m hm => ?_)
  · rw [eb, ea, ex]
  · rfl

example := C34_lpv_lfilter_tdf1_unroll_partial (B := 3) (B' := 5) (N := 7) (i := 1) (i' := 0) (K := 3) (P := 2) (zi := none) (zi' := none)
  (u := some 2) (u' := some 2) Lpv.refLpc (.batched fun i t k => (i : ℤ) + t * k) (.batched fun i t k => (i : ℤ) - t * k)
  (.batched 3 fun i t => (i : ℤ) * t) (.batched fun i t k => ((i + 1 : Nat) : ℤ) + t * k) (.batched fun i t k => ((i + 1 : Nat) : ℤ) - t * k)
  (.batched 5 fun i t => ((i + 1 : Nat) : ℤ) * t) (by decide) (by decide) (by decide) (by unfold GoodUnroll; decide +kernel)
  (by unfold GoodUnroll; decide +kernel) (by decide) (by decide) rfl rfl rfl

/-- **C34, `lpv.lfilter`, direct form II, backend `torchlpc`.** -/
theorem C34_lpv_lfilter_torchlpc_partial {K P : Nat} {b a X b' a' X' : Tensor α} {zi zi' : Option (Tensor α)} {bv av bv' av' : Nat → Nat → Nat → α}
    {x x' z z' : Nat → Nat → α} {u u' : Option Int} {lpc : Lpv.Lpc α} (hl : IsLpc lpc)
    (hb : MatVals B N K b bv) (ha : MatVals B N P a av) (hx : Sig N B X x) (hb' : MatVals B' N K b' bv') (ha' : MatVals B' N P a' av') (hx' : Sig N B' X' x')
    (hz : InitState B (max P (K - 1)) zi z) (hz' : InitState B' (max P (K - 1)) zi' z')
    (hK : 0 < K) (hP : 0 < P) (hN : 0 < N) (hf : zi = none ∨ P ≤ N) (hf' : zi' = none ∨ P ≤ N)
    (hi : i < B) (hi' : i' < B') (eb : bv i = bv' i') (ea : av i = av' i') (ez : z i = z' i') (ex : x i = x' i') :
    SameItemResult 1 i i' (Lpv.lfilter lpc b a X zi .df2 .torchlpc u) (Lpv.lfilter lpc b' a' X' zi' .df2 .torchlpc u') := by
  obtain ⟨w, hw, e⟩ := C30_torchlpc_df2_partial (u := u) hl hb ha hx hz (by omega) hK hP hN hf
  obtain ⟨w', hw', e'⟩ := C30_torchlpc_df2_partial (u := u') hl hb' ha' hx' hz' (by omega) hK hP hN hf'
  have hM : 0 < max P (K - 1) := by omega
  have key : ∀ n : Int, n < N → withPast (z i) (w i) n = withPast (z' i') (w' i') n := fun n hn => by
    rw [allPole_tvSignal (fun n hn => hw i n hn) hM (by omega) hn, allPole_tvSignal (fun n hn => hw' i' n hn) hM (by omega) hn,
      ea, ez, ex]
  refine sameItemResult_packed e e' hi hi' (flatTv_zero hx hi) (flatTv_zero hx' hi') (fun n hn => ?_) (fun m hm => ?_)
  · rw [eb]
    exact Finset.sum_congr rfl fun j _ => by rw [key _ (by omega)]
  · exact key _ (by omega)

example := C34_lpv_lfilter_torchlpc_partial (B := 3) (B' := 5) (N := 7) (i := 1) (i' := 0) (K := 3) (P := 2) (u := some 2) (u' := some 2)
  Lpv.refLpc_isLpc (.batched fun i t k => (i : ℤ) + t * k) (.batched fun i t k => (i : ℤ) - t * k) (.batched 3 fun i t => (i : ℤ) * t)
  (.batched fun i t k => ((i + 1 : Nat) : ℤ) + t * k) (.batched fun i t k => ((i + 1 : Nat) : ℤ) - t * k)
  (.batched 5 fun i t => ((i + 1 : Nat) : ℤ) * t) (.full fun i t => (i : ℤ) - t) (.full fun i t => ((i + 1 : Nat) : ℤ) - t) (by decide) (by decide)
  (by decide) (by decide) (by decide) (by decide) (by decide) rfl rfl rfl rfl

/-- **C34, `lpv.lfilter`, direct form I, backend `torchlpc`.** -/
theorem C34_lpv_lfilter_torchlpc_df1 {K P : Nat} {b a X b' a' X' : Tensor α} {bv av bv' av' : Nat → Nat → Nat → α}
    {x x' : Nat → Nat → α} {u u' : Option Int} {lpc : Lpv.Lpc α} (hl : IsLpc lpc)
    (hb : MatVals B N K b bv) (ha : MatVals B N P a av) (hx : Sig N B X x) (hb' : MatVals B' N K b' bv') (ha' : MatVals B' N P a' av') (hx' : Sig N B' X' x')
    (hK : 0 < K) (hP : 0 < P) (hN : 0 < N)
    (hi : i < B) (hi' : i' < B') (eb : bv i = bv' i') (ea : av i = av' i') (ex : x i = x' i') :
    SameItemResult 1 i i' (Lpv.lfilter lpc b a X none .df1 .torchlpc u) (Lpv.lfilter lpc b' a' X' none .df1 .torchlpc u') := by
  refine sameItemResult_packed (c := false) (c' := false) (M := 0) (F := fun _ _ => 0) (F' := fun _ _ => 0)
    (torchlpc_df1_out hl hb ha hx (by omega) hK hP hN) (torchlpc_df1_out hl hb' ha' hx' (by omega) hK hP hN)
    hi hi' (flatTv_zero hx hi) (flatTv_zero hx' hi') (fun n hn => ?_) (fun m hm => rfl)
  rw [eb, ea, ex]

example := C34_lpv_lfilter_torchlpc_df1 (B := 3) (B' := 5) (N := 7) (i := 1) (i' := 0) (K := 3) (P := 2) (u := some 2) (u' := some 2)
  Lpv.refLpc_isLpc (.batched fun i t k => (i : ℤ) + t * k) (.batched fun i t k => (i : ℤ) - t * k) (.batched 3 fun i t => (i : ℤ) * t)
  (.batched fun i t k => ((i + 1 : Nat) : ℤ) + t * k) (.batched fun i t k => ((i + 1 : Nat) : ℤ) - t * k)
  (.batched 5 fun i t => ((i + 1 : Nat) : ℤ) * t) (by decide) (by decide) (by decide) (by decide) (by decide) rfl rfl rfl

/-- **C34, `lpv.lfilter`, transposed direct form I, backend `torchlpc`.** -/
theorem C34_lpv_lfilter_torchlpc_tdf1_partial {M P : Nat} {b a X b' a' X' : Tensor α} {bv av bv' av' : Nat → Nat → Nat → α}
    {x x' : Nat → Nat → α} {u u' : Option Int} {lpc : Lpv.Lpc α} (hl : IsLpc lpc)
    (hb : MatVals B N (M + 1) b bv) (ha : MatVals B N P a av) (hx : Sig N B X x) (hb' : MatVals B' N (M + 1) b' bv') (ha' : MatVals B' N P a' av')
    (hx' : Sig N B' X' x') (hM : 0 < M) (hP : 0 < P) (hPN : P ≤ N)
    (hi : i < B) (hi' : i' < B') (eb : bv i = bv' i') (ea : av i = av' i') (ex : x i = x' i') :
    SameItemResult 1 i i' (Lpv.lfilter lpc b a X none .tdf1 .torchlpc u) (Lpv.lfilter lpc b' a' X' none .tdf1 .torchlpc u') := by
  refine sameItemResult_packed (c := false) (c' := false) (M := 0) (F := fun _ _ => 0) (F' := fun _ _ => 0)
    (Lpv.torchlpc_tdf1_out hl hb ha hx (by omega) hM hP hPN) (Lpv.torchlpc_tdf1_out hl hb' ha' hx' (by omega) hM hP hPN)
    hi hi' (flatTv_zero hx hi) (flatTv_zero hx' hi') (fun n hn => ?_) (fun m hm => rfl)
  rw [eb, ea, ex]

example := C34_lpv_lfilter_torchlpc_tdf1_partial (B := 3) (B' := 5) (N := 7) (i := 1) (i' := 0) (M := 2) (P := 2) (u := some 2) (u' := some 2)
  Lpv.refLpc_isLpc (.batched fun i t k => (i : ℤ) + t * k) (.batched fun i t k => (i : ℤ) - t * k) (.batched 3 fun i t => (i : ℤ) * t)
  (.batched fun i t k => ((i + 1 : Nat) : ℤ) + t * k) (.batched fun i t k => ((i + 1 : Nat) : ℤ) - t * k)
  (.batched 5 fun i t => ((i + 1 : Nat) : ℤ) * t) (by decide) (by decide) (by decide) (by decide) (by decide) rfl rfl rfl

/-! ## FIR filters -/

/-- **C34, `lti.fir` without state.** -/
theorem C34_fir_partial {M : Nat} (b b' x x' : Nat → Nat → α) (tr : Bool) (hN : 0 < N) (hM : tr = true → 0 < M) (hi : i < B) (hi' : i' < B')
    (eb : b i = b' i') (ex : x i = x' i') :
    SameItemResult 1 i i' (Lti.fir (t2 B (M + 1) b) (t2 B N x) none tr) (Lti.fir (t2 B' (M + 1) b') (t2 B' N x') none tr) := by
  cases tr with
  | true =>
    refine sameItemResult_none
      (Lti.fir_transpose_none b x (Nat.zero_lt_of_lt hi) hN (hM rfl)) (Lti.fir_transpose_none b' x' (Nat.zero_lt_of_lt hi') hN (hM rfl)) hi hi'
      (fun n hn => ?_)
    rw [eb, ex]
  | false =>
    refine sameItemResult_none
      (Lti.fir_direct_none b x (Nat.zero_lt_of_lt hi) hN) (Lti.fir_direct_none b' x' (Nat.zero_lt_of_lt hi') hN) hi hi'
      (fun n hn => ?_)
    rw [eb, ex]

example := C34_fir_partial (B := 3) (B' := 5) (N := 7) (i := 1) (i' := 0) (M := 2) (fun i t => (i : ℤ) + t) (fun i t => ((i + 1 : Nat) : ℤ) + t)
  (fun i t => (i : ℤ) * t) (fun i t => ((i + 1 : Nat) : ℤ) * t) true (by decide) (by decide) (by decide) (by decide) rfl rfl

/-- **C34, `lti.fir`, direct form with state.** -/
theorem C34_fir_direct_partial {M : Nat} (b b' x x' z z' : Nat → Nat → α) (hM : 0 < M) (hN : 0 < N) (hi : i < B) (hi' : i' < B')
    (eb : b i = b' i') (ex : x i = x' i') (ez : z i = z' i') :
    SameItemResult 1 i i' (Lti.fir (t2 B (M + 1) b) (t2 B N x) (some (t2 B M z)) false)
      (Lti.fir (t2 B' (M + 1) b') (t2 B' N x') (some (t2 B' M z')) false) := by
  refine sameItemResult_some
    (Lti.fir_direct_some b x z (Nat.zero_lt_of_lt hi) hM hN) (Lti.fir_direct_some b' x' z' (Nat.zero_lt_of_lt hi') hM hN) hi hi'
    (fun n hn => ?_) (fun m hm => ?_)
  · rw [eb, ex, ez]
  · rw [ex, ez]

example := C34_fir_direct_partial (B := 3) (B' := 5) (N := 7) (i := 1) (i' := 0) (M := 2) (fun i t => (i : ℤ) + t)
  (fun i t => ((i + 1 : Nat) : ℤ) + t) (fun i t => (i : ℤ) * t) (fun i t => ((i + 1 : Nat) : ℤ) * t) (fun i t => (i : ℤ) - t)
  (fun i t => ((i + 1 : Nat) : ℤ) - t) (by decide) (by decide) (by decide) (by decide) rfl rfl rfl

/-- **C34, `lti.fir`, transposed form with state.** -/
theorem C34_fir_transposed_partial {M : Nat} (b b' x x' z z' : Nat → Nat → α) (hM : 0 < M) (hMN : M ≤ N) (hi : i < B) (hi' : i' < B')
    (eb : b i = b' i') (ex : x i = x' i') (ez : z i = z' i') :
    SameItemResult 1 i i' (Lti.fir (t2 B (M + 1) b) (t2 B N x) (some (t2 B M z)) true)
      (Lti.fir (t2 B' (M + 1) b') (t2 B' N x') (some (t2 B' M z')) true) := by
  refine sameItemResult_some
    (Lti.fir_transpose_some b x z (Nat.zero_lt_of_lt hi) hM hMN) (Lti.fir_transpose_some b' x' z' (Nat.zero_lt_of_lt hi') hM hMN) hi hi'
    (fun n hn => ?_) (fun m hm => ?_)
  · rw [eb, ex, ez]
  · rw [eb, ex]

example := C34_fir_transposed_partial (B := 3) (B' := 5) (N := 7) (i := 1) (i' := 0) (M := 2) (fun i t => (i : ℤ) + t)
  (fun i t => ((i + 1 : Nat) : ℤ) + t) (fun i t => (i : ℤ) * t) (fun i t => ((i + 1 : Nat) : ℤ) * t) (fun i t => (i : ℤ) - t)
  (fun i t => ((i + 1 : Nat) : ℤ) - t) (by decide) (by decide) (by decide) (by decide) rfl rfl rfl

/-- **C34, `lpv.fir`, direct form without state.** -/
theorem C34_lpv_fir_direct {M : Nat} (b b' : Nat → Nat → Nat → α) (x x' : Nat → Nat → α) (hN : 0 < N) (hi : i < B) (hi' : i' < B')
    (eb : b i = b' i') (ex : x i = x' i') :
    SameItemResult 1 i i' (Lpv.fir (t3 B N (M + 1) b) (t2 B N x) none false) (Lpv.fir (t3 B' N (M + 1) b') (t2 B' N x') none false) := by
  refine sameItemResult_none
    (Lpv.fir_direct_none b x hN) (Lpv.fir_direct_none b' x' hN) hi hi' (fun n hn => ?_)
  rw [eb, ex]

example := C34_lpv_fir_direct (B := 3) (B' := 5) (N := 7) (i := 1) (i' := 0) (M := 2) (fun i t k => (i : ℤ) - t * k)
  (fun i t k => ((i + 1 : Nat) : ℤ) - t * k) (fun i t => (i : ℤ) * t) (fun i t => ((i + 1 : Nat) : ℤ) * t) (by decide) (by decide) (by decide) rfl
  rfl

/-- **C34, `lpv.fir`, direct form with state.** -/
theorem C34_lpv_fir_direct_state {M : Nat} (b b' : Nat → Nat → Nat → α) (x x' z z' : Nat → Nat → α) (hN : 0 < N) (hi : i < B) (hi' : i' < B')
    (eb : b i = b' i') (ex : x i = x' i') (ez : z i = z' i') :
    SameItemResult 1 i i' (Lpv.fir (t3 B N (M + 1) b) (t2 B N x) (some (t2 B M z)) false)
      (Lpv.fir (t3 B' N (M + 1) b') (t2 B' N x') (some (t2 B' M z')) false) := by
  refine sameItemResult_some
    (Lpv.fir_direct_some b x z hN) (Lpv.fir_direct_some b' x' z' hN) hi hi' (fun n hn => ?_) (fun m hm => ?_)
  · rw [eb, ex, ez]
  · rw [ex, ez]

example := C34_lpv_fir_direct_state (B := 3) (B' := 5) (N := 7) (i := 1) (i' := 0) (M := 2) (fun i t k => (i : ℤ) - t * k)
  (fun i t k => ((i + 1 : Nat) : ℤ) - t * k) (fun i t => (i : ℤ) * t) (fun i t => ((i + 1 : Nat) : ℤ) * t) (fun i t => (i : ℤ) - t)
  (fun i t => ((i + 1 : Nat) : ℤ) - t) (by decide) (by decide) (by decide) rfl rfl rfl

/-- **C34, `lpv.fir`, transposed form without state.** -/
theorem C34_lpv_fir_transposed_partial {M : Nat} (b b' : Nat → Nat → Nat → α) (x x' : Nat → Nat → α) (hM : 0 < M) (hN : 0 < N)
    (hi : i < B) (hi' : i' < B') (eb : b i = b' i') (ex : x i = x' i') :
    SameItemResult 1 i i' (Lpv.fir (t3 B N (M + 1) b) (t2 B N x) none true) (Lpv.fir (t3 B' N (M + 1) b') (t2 B' N x') none true) := by
  refine sameItemResult_none
    (Lpv.fir_transposed_none b x hM hN) (Lpv.fir_transposed_none b' x' hM hN) hi hi' (fun n hn => ?_)
  rw [eb, ex]

example := C34_lpv_fir_transposed_partial (B := 3) (B' := 5) (N := 7) (i := 1) (i' := 0) (M := 2) (fun i t k => (i : ℤ) - t * k)
  (fun i t k => ((i + 1 : Nat) : ℤ) - t * k) (fun i t => (i : ℤ) * t) (fun i t => ((i + 1 : Nat) : ℤ) * t) (by decide) (by decide) (by decide)
  (by decide) rfl rfl

/-- **C34, `lpv.fir`, transposed form with state.** -/
theorem C34_lpv_fir_transposed_state_partial {M : Nat} (b b' : Nat → Nat → Nat → α) (x x' z z' : Nat → Nat → α) (hN : 0 < N) (hMN : M ≤ N)
    (hi : i < B) (hi' : i' < B') (eb : b i = b' i') (ex : x i = x' i') (ez : z i = z' i') :
    SameItemResult 1 i i' (Lpv.fir (t3 B N (M + 1) b) (t2 B N x) (some (t2 B M z)) true)
      (Lpv.fir (t3 B' N (M + 1) b') (t2 B' N x') (some (t2 B' M z')) true) := by
  refine sameItemResult_some
    (Lpv.fir_transposed_some b x z hN hMN) (Lpv.fir_transposed_some b' x' z' hN hMN) hi hi' (fun n hn => ?_) (fun m hm => ?_)
  · rw [eb, ex, ez]
  · rw [eb, ex]

example := C34_lpv_fir_transposed_state_partial (B := 3) (B' := 5) (N := 7) (i := 1) (i' := 0) (M := 2) (fun i t k => (i : ℤ) - t * k)
  (fun i t k => ((i + 1 : Nat) : ℤ) - t * k) (fun i t => (i : ℤ) * t) (fun i t => ((i + 1 : Nat) : ℤ) * t) (fun i t => (i : ℤ) - t)
  (fun i t => ((i + 1 : Nat) : ℤ) - t) (by decide) (by decide) (by decide) (by decide) rfl rfl rfl

/-! ## All-pole and comb filters -/

/-- **C34, `lpv.allpole`, direct form without state.** -/
theorem C34_lpv_allpole {M : Nat} {lpc : Lpv.Lpc α} (hl : IsLpc lpc) (a a' : Nat → Nat → Nat → α) (x x' : Nat → Nat → α)
    (hM : 0 < M) (hN : 0 < N) (hi : i < B) (hi' : i' < B') (ea : a i = a' i') (ex : x i = x' i') :
    SameItemResult 1 i i' (Lpv.allpole lpc (t3 B N M a) (t2 B N x) none false) (Lpv.allpole lpc (t3 B' N M a') (t2 B' N x') none false) := by
  obtain ⟨y, zf, e, hy, -⟩ := hl B N M x a _ _ hN hM (.given fun _ _ => 0)
  obtain ⟨y', zf', e', hy', -⟩ := hl B' N M x' a' _ _ hN hM (.given fun _ _ => 0)
  rw [Lpv.allpole_none_eq, if_neg (by simp), Lpv.allpole_none_eq, if_neg (by simp)]
  refine ⟨_, _, _, _, bind_step e rfl, bind_step e' rfl, sameItem_t2 hi hi' fun n hn => ?_, fun _ _ h => by cases h⟩
  have h := allPole_tvSignal (hy i) hM le_rfl (show (n : Int) < N by omega)
  have h' := allPole_tvSignal (hy' i') hM le_rfl (show (n : Int) < N by omega)
  rw [withPast_nat] at h h'
  rw [h, h', ea, ex]

example := C34_lpv_allpole (B := 3) (B' := 5) (N := 7) (i := 1) (i' := 0) (M := 2) Lpv.refLpc_isLpc (fun i t k => (i : ℤ) + t * k)
  (fun i t k => ((i + 1 : Nat) : ℤ) + t * k) (fun i t => (i : ℤ) + t) (fun i t => ((i + 1 : Nat) : ℤ) + t) (by decide) (by decide) (by decide)
  (by decide) rfl rfl

/-- **C34, `lpv.allpole`, direct form with state.** -/
theorem C34_lpv_allpole_state_partial {M : Nat} {lpc : Lpv.Lpc α} (hl : IsLpc lpc) (a a' : Nat → Nat → Nat → α) (x x' z z' : Nat → Nat → α)
    (hM : 0 < M) (hMN : M ≤ N) (hi : i < B) (hi' : i' < B') (ea : a i = a' i') (ex : x i = x' i') (ez : z i = z' i') :
    SameItemResult 1 i i' (Lpv.allpole lpc (t3 B N M a) (t2 B N x) (some (t2 B M z)) false)
      (Lpv.allpole lpc (t3 B' N M a') (t2 B' N x') (some (t2 B' M z')) false) := by
  obtain ⟨y, zf, e, hy, hf⟩ := hl B N M x a _ _ (by omega) hM (.given z)
  obtain ⟨y', zf', e', hy', hf'⟩ := hl B' N M x' a' _ _ (by omega) hM (.given z')
  rw [Lpv.allpole_some_eq, if_neg (by simp), Lpv.allpole_some_eq, if_neg (by simp)]
  have key : ∀ n : Int, n < N → withPast (z i) (y i) n = withPast (z' i') (y' i') n := fun n hn => by
    rw [allPole_tvSignal (hy i) hM le_rfl hn, allPole_tvSignal (hy' i') hM le_rfl hn, ea, ez, ex]
  refine ⟨_, _, _, _, bind_step e rfl, bind_step e' rfl, sameItem_t2 hi hi' fun n hn => ?_, fun g g' h h' => ?_⟩
  · have := key n (by omega)
    rwa [withPast_nat, withPast_nat] at this
  · cases h; cases h'
    rw [hf hMN, hf' hMN]
    exact sameItem_t2 hi hi' fun m hm => key _ (by omega)

example := C34_lpv_allpole_state_partial (B := 3) (B' := 5) (N := 7) (i := 1) (i' := 0) (M := 2) Lpv.refLpc_isLpc (fun i t k => (i : ℤ) + t * k)
  (fun i t k => ((i + 1 : Nat) : ℤ) + t * k) (fun i t => (i : ℤ) + t) (fun i t => ((i + 1 : Nat) : ℤ) + t) (fun i t => (i : ℤ) * t)
  (fun i t => ((i + 1 : Nat) : ℤ) * t) (by decide) (by decide) (by decide) (by decide) rfl rfl rfl

/-- **C34, `lpv.allpole`, transposed form without state.** -/
theorem C34_lpv_allpole_transposed_partial {M : Nat} {lpc : Lpv.Lpc α} (hl : IsLpc lpc) (a a' : Nat → Nat → Nat → α)
    (x x' : Nat → Nat → α) (hM : 0 < M) (hMN : M ≤ N) (hi : i < B) (hi' : i' < B') (ea : a i = a' i') (ex : x i = x' i') :
    SameItemResult 1 i i' (Lpv.allpole lpc (t3 B N M a) (t2 B N x) none true)
      (Lpv.allpole lpc (t3 B' N M a') (t2 B' N x') none true) := by
  refine sameItemResult_none (Lpv.allpole_transposed_out hl a x hM hMN) (Lpv.allpole_transposed_out hl a' x' hM hMN) hi hi'
    (fun n hn => ?_)
  rw [ea, ex]

example := C34_lpv_allpole_transposed_partial (B := 3) (B' := 5) (N := 7) (i := 1) (i' := 0) (M := 2) Lpv.refLpc_isLpc
  (fun i t k => (i : ℤ) + t * k) (fun i t k => ((i + 1 : Nat) : ℤ) + t * k) (fun i t => (i : ℤ) + t) (fun i t => ((i + 1 : Nat) : ℤ) + t)
  (by decide) (by decide) (by decide) (by decide) rfl rfl

/-- **C34, `lpv.allpole`, transposed form with state.** -/
theorem C34_lpv_allpole_transposed_state_partial {M : Nat} {lpc : Lpv.Lpc α} (hl : IsLpc lpc) (a a' : Nat → Nat → Nat → α)
    (x x' z z' : Nat → Nat → α) (hM : 0 < M) (hMN : M ≤ N) (hi : i < B) (hi' : i' < B') (ea : a i = a' i') (ex : x i = x' i')
    (ez : z i = z' i') :
    SameItemResult 1 i i' (Lpv.allpole lpc (t3 B N M a) (t2 B N x) (some (t2 B M z)) true)
      (Lpv.allpole lpc (t3 B' N M a') (t2 B' N x') (some (t2 B' M z')) true) := by
  refine sameItemResult_some (Lpv.allpole_transposed_state hl a x z hM hMN) (Lpv.allpole_transposed_state hl a' x' z' hM hMN)
    hi hi' (fun n hn => ?_) (fun m hm => ?_)
  · rw [ea, ex, ez]
  · rw [ea, ex, ez]

example := C34_lpv_allpole_transposed_state_partial (B := 3) (B' := 5) (N := 7) (i := 1) (i' := 0) (M := 2) Lpv.refLpc_isLpc
  (fun i t k => (i : ℤ) + t * k) (fun i t k => ((i + 1 : Nat) : ℤ) + t * k) (fun i t => (i : ℤ) + t) (fun i t => ((i + 1 : Nat) : ℤ) + t)
  (fun i t => (i : ℤ) * t) (fun i t => ((i + 1 : Nat) : ℤ) * t) (by decide) (by decide) (by decide) (by decide) rfl rfl rfl

/-- **C34, `lti.comb_filter`** with the extension, delays of at least two. -/
theorem C34_comb_filter_partial {D : Nat} {a a' : Tensor α} {av av' : Nat → α} {zi zi' : Option (Tensor α)} {z z' : Nat → Nat → α} {u u' : Int}
    (x x' : Nat → Nat → α) (ha : PerItem B a av) (hz : Past B D zi z) (ha' : PerItem B' a' av') (hz' : Past B' D zi' z')
    (hD : 2 ≤ D) (hN : 0 < N) (hu : 1 ≤ u) (hu' : 1 ≤ u') (hi : i < B) (hi' : i' < B') (ea : av i = av' i') (ez : z i = z' i')
    (ex : x i = x' i') :
    SameItemResult 1 i i' (Lti.combFilter true a D (t2 B N x) zi u) (Lti.combFilter true a' D (t2 B' N x') zi' u') := by
  refine ⟨_, _, _, _, Lti.combFilter_eq x ha hz hD hN hu, Lti.combFilter_eq x' ha' hz' hD hN hu', sameItem_t2 hi hi' fun n hn => ?_, fun g g' h h' => ?_⟩
  · rw [ea, ez, ex]
  · cases zi <;> cases zi' <;> cases h <;> cases h'
    exact sameItem_t2 hi hi' fun m hm => by rw [ea, ez, ex]

example := C34_comb_filter_partial (B := 3) (B' := 5) (N := 7) (i := 1) (i' := 0) (D := 3) (u := 2) (u' := 2) (fun i t => (i : ℤ) + t)
  (fun i t => ((i + 1 : Nat) : ℤ) + t) (.full fun i => (i : ℤ) + 2) (.batched fun i t => (i : ℤ) - t) (.full fun i => ((i + 1 : Nat) : ℤ) + 2)
  (.batched fun i t => ((i + 1 : Nat) : ℤ) - t) (by decide) (by decide) (by decide) (by decide) (by decide) (by decide) rfl rfl rfl

/-- **C34, `lti.comb_filter`**, delay one, with or without the extension. -/
theorem C34_comb_filter_one {a a' : Tensor α} {av av' : Nat → α} {zi zi' : Option (Tensor α)} {z z' : Nat → Nat → α} {u u' : Int}
    (ext ext' : Bool) (x x' : Nat → Nat → α) (ha : PerItem B a av) (hz : Past B 1 zi z) (ha' : PerItem B' a' av') (hz' : Past B' 1 zi' z')
    (hN : 0 < N) (hu : 1 ≤ u) (hu' : 1 ≤ u') (hi : i < B) (hi' : i' < B') (ea : av i = av' i') (ez : z i = z' i') (ex : x i = x' i') :
    SameItemResult 1 i i' (Lti.combFilter ext a 1 (t2 B N x) zi u) (Lti.combFilter ext' a' 1 (t2 B' N x') zi' u') := by
  refine ⟨_, _, _, _, Lti.combFilter_one ext x ha hz hN hu, Lti.combFilter_one ext' x' ha' hz' hN hu', sameItem_t2 hi hi' fun n hn => ?_,
    fun g g' h => by cases h⟩
  rw [ea, ez, ex]

example := C34_comb_filter_one (B := 3) (B' := 5) (N := 7) (i := 1) (i' := 0) (u := 2) (u' := 2) true true (fun i t => (i : ℤ) * t)
  (fun i t => ((i + 1 : Nat) : ℤ) * t) (.full fun i => (i : ℤ) + 2) (.batched fun i t => (i : ℤ) - t) (.full fun i => ((i + 1 : Nat) : ℤ) + 2)
  (.batched fun i t => ((i + 1 : Nat) : ℤ) - t) (by decide) (by decide) (by decide) (by decide) (by decide) rfl rfl rfl

/-! ## Forward-backward filtering -/

section
variable {γ : Type} [Field γ] [StarRing γ]

omit [StarRing γ] in
private theorem steady_unique {M : Nat} {D : Nat → Nat → γ} (hD : (mat M M fun i j => (if i = j then 1 else 0) - D i j).det ≠ 0)
    {c z z' : Nat → γ} (h : ∀ m, m < M → z m = ∑ j ∈ Finset.range M, D m j * z j + c m)
    (h' : ∀ m, m < M → z' m = ∑ j ∈ Finset.range M, D m j * z' j + c m) {m : Nat} (hm : m < M) : z m = z' m := by
  have key := Matrix.eq_zero_of_mulVec_eq_zero hD (v := fun j : Fin M => z j - z' j) (by
    funext m
    simp only [Matrix.mulVec, dotProduct, mat, Matrix.of_apply, Pi.zero_apply]
    rw [Fin.sum_univ_eq_sum_range (fun j => ((if (m : Nat) = j then 1 else 0) - D m j) * (z j - z' j)) M]
    simp only [sub_mul, ite_mul, one_mul, zero_mul, Finset.sum_sub_distrib]
    rw [Finset.sum_ite_eq, if_pos (Finset.mem_range.2 m.2)]
    simp only [mul_sub, Finset.sum_sub_distrib]
    have e1 := h m m.2
    have e2 := h' m m.2
    linear_combination e1 - e2)
  have := congrFun key ⟨m, hm⟩
  exact sub_eq_zero.1 this

omit [StarRing γ] in
private theorem edge_eq {K P : Nat} {b b' a a' : Tensor γ} {bv av bv' av' : Nat → Nat → γ} {pm : Option PadMode} {padlen : Option Int}
    (hb : Rows B K b bv) (ha : Rows B P a av) (hb' : Rows B' K b' bv') (ha' : Rows B' P a' av') :
    Lti.edgeLength b a pm padlen = Lti.edgeLength b' a' pm padlen := by
  unfold Lti.edgeLength
  rw [Lti.size_rows hb, Lti.size_rows ha, Lti.size_rows hb', Lti.size_rows ha']

/-- **C34, `lti.filtfilt`, transposed direct form II**, every padding mode. -/
theorem C34_filtfilt_tdf2_partial {K P : Nat} {b a X b' a' X' : Tensor γ} {bv av x bv' av' x' : Nat → Nat → γ} {pm : Option PadMode}
    {padlen : Option Int} {u u' : Option Int} (hb : Rows B K b bv) (ha : Rows B P a av) (hx : Sig N B X x)
    (hb' : Rows B' K b' bv') (ha' : Rows B' P a' av') (hx' : Sig N B' X' x') (hK : 0 < K) (hM : 0 < max P (K - 1))
    (hs : ∀ i, 1 + ∑ k ∈ Finset.range P, star (av i k) ≠ 0) (hs' : ∀ i, 1 + ∑ k ∈ Finset.range P, star (av' i k) ≠ 0)
    (he : Lti.edgeLength b a pm padlen < N) (hN : 0 < N) (hu : ∀ i, u = some i → 1 ≤ i) (hu' : ∀ i, u' = some i → 1 ≤ i)
    (hi : i < B) (hi' : i' < B') (eb : bv i = bv' i') (ea : av i = av' i') (ex : x i = x' i') :
    ∃ y y', Lti.filtfilt b a X pm padlen .tdf2 u = .ok y ∧ Lti.filtfilt b' a' X' pm padlen .tdf2 u' = .ok y' ∧
      SameItem 1 i i' y y' := by
  have hed := edge_eq (pm := pm) (padlen := padlen) hb ha hb' ha'
  obtain ⟨z, hz, h⟩ := Lti.filtfilt_tdf2 hb ha hK hM hs he hN
  obtain ⟨z', hz', h'⟩ := Lti.filtfilt_tdf2 hb' ha' hK hM hs' (hed ▸ he) hN
  obtain ⟨f, eX, hf⟩ : ∃ f, X = packed f B N x ∧ (f = true → B = 1) := by
    cases hx with
    | flat x => exact ⟨true, rfl, fun _ => rfl⟩
    | batched B x => exact ⟨false, rfl, by simp⟩
  obtain ⟨f', eX', hf'⟩ : ∃ f, X' = packed f B' N x' ∧ (f = true → B' = 1) := by
    cases hx' with
    | flat x => exact ⟨true, rfl, fun _ => rfl⟩
    | batched B x => exact ⟨false, rfl, by simp⟩
  subst eX eX'
  refine ⟨_, _, h hf hu, h' hf' hu', sameItem_packed hi hi' (fun q => ?_) (fun q => ?_) fun n hn => ?_⟩
  · have := hf (by simp_all); omega
  · have := hf' (by simp_all); omega
  have hzz : ∀ m, m < max P (K - 1) → z i m = z' i' m := fun m hm => by
    refine steady_unique (D := fun m j => comp (fun k => star (zext P (av i) k)) j m) (det_comp_transpose _ ?_) (hz i) ?_ hm
    · rw [zext_star, Lti.sum_zext_one (by omega)]
      exact hs i
    · rw [ea, eb]; exact hz' i'
  rw [← hed, eb, ea, ex]
  congr 1
  funext x t
  unfold tdf2Out
  refine congrArg₂ (· + ·) ?_ rfl
  exact vecRec_congr (fun m hm => by rw [hzz m hm]) (fun _ _ _ _ _ _ => rfl) (fun _ _ _ _ => rfl) hM

example := C34_filtfilt_tdf2_partial (B := 3) (B' := 5) (N := 7) (i := 1) (i' := 0) (K := 3) (P := 2) (pm := some .replicate) (padlen := some 2)
  (u := some 2) (u' := some 2) (.batched fun i t => (i : ℚ) + t) (.shared fun k => (k : ℚ) + 1) (.batched 3 fun i t => (i : ℚ) * t)
  (.batched fun i t => ((i + 1 : Nat) : ℚ) + t) (.shared fun k => (k : ℚ) + 1) (.batched 5 fun i t => ((i + 1 : Nat) : ℚ) * t)
  (by decide) (by decide) (fun _ => by norm_num [Finset.sum_range_succ])
  (fun _ => by norm_num [Finset.sum_range_succ]) (by decide) (by decide) (by simp) (by simp) (by decide) (by decide) rfl rfl rfl

/-- **C34, `lti.filtfilt`, direct form II**, every padding mode. -/
theorem C34_filtfilt_df2_partial {K P : Nat} {b a X b' a' X' : Tensor γ} {bv av x bv' av' x' : Nat → Nat → γ} {pm : Option PadMode}
    {padlen : Option Int} {u u' : Option Int} (hb : Rows B K b bv) (ha : Rows B P a av) (hx : Sig N B X x)
    (hb' : Rows B' K b' bv') (ha' : Rows B' P a' av') (hx' : Sig N B' X' x') (hK : 0 < K) (hP : 0 < P) (hKP : K ≤ P + 1)
    (hs : ∀ i, 1 + ∑ k ∈ Finset.range P, av i k ≠ 0) (hs' : ∀ i, 1 + ∑ k ∈ Finset.range P, av' i k ≠ 0)
    (he : Lti.edgeLength b a pm padlen < N) (hN : 0 < N) (hu : ∀ i, u = some i → 1 ≤ i) (hu' : ∀ i, u' = some i → 1 ≤ i)
    (hi : i < B) (hi' : i' < B') (eb : bv i = bv' i') (ea : av i = av' i') (ex : x i = x' i') :
    ∃ y y', Lti.filtfilt b a X pm padlen .df2 u = .ok y ∧ Lti.filtfilt b' a' X' pm padlen .df2 u' = .ok y' ∧
      SameItem 1 i i' y y' := by
  have hed := edge_eq (pm := pm) (padlen := padlen) hb ha hb' ha'
  obtain ⟨z, hz, h⟩ := Lti.filtfilt_df2 hb ha hK hP hKP hs he hN
  obtain ⟨z', hz', h'⟩ := Lti.filtfilt_df2 hb' ha' hK hP hKP hs' (hed ▸ he) hN
  obtain ⟨f, eX, hf⟩ : ∃ f, X = packed f B N x ∧ (f = true → B = 1) := by
    cases hx with
    | flat x => exact ⟨true, rfl, fun _ => rfl⟩
    | batched B x => exact ⟨false, rfl, by simp⟩
  obtain ⟨f', eX', hf'⟩ : ∃ f, X' = packed f B' N x' ∧ (f = true → B' = 1) := by
    cases hx' with
    | flat x => exact ⟨true, rfl, fun _ => rfl⟩
    | batched B x => exact ⟨false, rfl, by simp⟩
  subst eX eX'
  refine ⟨_, _, h hf hu, h' hf' hu', sameItem_packed hi hi' (fun q => ?_) (fun q => ?_) fun n hn => ?_⟩
  · have := hf (by simp_all); omega
  · have := hf' (by simp_all); omega
  have hzz : ∀ m, m < P → z i m = z' i' m := fun m hm => by
    refine steady_unique (D := fun m j => comp (av i) m j) (det_comp _ (hs i)) (hz i) ?_ hm
    rw [ea]; exact hz' i'
  rw [← hed, eb, ea, ex]
  congr 1
  funext x t
  refine Finset.sum_congr rfl fun j hj => ?_
  have hj := Finset.mem_range.1 hj
  have key : dfSignal P (zext P (av' i')) (fun m => z i m * x 0) x ((t : Int) - j) =
      dfSignal P (zext P (av' i')) (fun m => z' i' m * x 0) x ((t : Int) - j) := by
    unfold dfSignal withPast
    split
    · beta_reduce; rw [hzz _ (by omega)]
    · exact vecRec_congr (fun m hm => by rw [hzz m hm]) (fun _ _ _ _ _ _ => rfl) (fun _ _ _ _ => rfl) hP
  rw [key]

end

example := C34_filtfilt_df2_partial (B := 3) (B' := 5) (N := 7) (i := 1) (i' := 0) (K := 3) (P := 2) (pm := some .replicate) (padlen := some 2)
  (u := some 2) (u' := some 2) (.batched fun i t => (i : ℚ) + t) (.shared fun k => (k : ℚ) + 1) (.batched 3 fun i t => (i : ℚ) * t)
  (.batched fun i t => ((i + 1 : Nat) : ℚ) + t) (.shared fun k => (k : ℚ) + 1) (.batched 5 fun i t => ((i + 1 : Nat) : ℚ) * t)
  (by decide) (by decide) (by decide) (fun _ => by norm_num [Finset.sum_range_succ])
  (fun _ => by norm_num [Finset.sum_range_succ]) (by decide) (by decide) (by simp) (by simp) (by decide) (by decide) rfl rfl rfl

/-- The hypotheses are satisfiable: row 1 of a batch of three with per-row denominators, against the same row alone without a batch
axis; the other rows differ from it. -/
example : SameItemResult 1 1 0
    (Lti.lfilter (t1 2 fun j => (j + 1 : ℚ)) (t2 3 2 fun i k => (i - k : ℚ)) (t2 3 5 fun i t => i * t) none .df2 (some 2))
    (Lti.lfilter (t1 2 fun j => (j + 1 : ℚ)) (t1 2 fun k => (1 - k : ℚ)) (t1 5 fun t => t) none .df2 none) :=
  C34_lfilter_df2 (K := 2) (P := 2) (.shared _) (.batched _) (.batched 3 _) (.shared _) (.shared _) (.flat _) .zero .zero
    (by decide) (by decide) (by decide) (by simp) (by simp) (by decide) (by decide) rfl (by funext k; simp) rfl (by funext t; simp)

end Props
