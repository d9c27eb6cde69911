import Verif.Proof.Compare
import Verif.Props.C74
import Verif.Props.C05
import Verif.Props.C07
import Mathlib.Analysis.Complex.Norm
import Mathlib.Data.Real.Star

/-!
# C75: comparison of outputs

Two calls with related coefficients and related signals have related outputs (Verif/Spec/Compare.lean).  Three relations are of interest:
the order, for coefficients that do not amplify with a negative sign; bounds by absolute values; bounds of complex filters by real ones.
-/

namespace Props
open Torch Torch.Tensor Spec Phil
open Phil.Lti (Form ok_pair conjA conjB conjIf)
variable {α β : Type} [CommRing α] [StarRing α] [CommRing β] [StarRing β] {Q R : α → β → Prop}

/-- Larger signals give larger outputs if the coefficients are not negative. -/
theorem comparison_le {K : Type} [CommRing K] [LinearOrder K] [IsStrictOrderedRing K] :
    Comparison (fun a b : K => a = b ∧ 0 ≤ a) fun u v => u ≤ v :=
  ⟨le_rfl, add_le_add, fun h hu => by rw [← h.1]; exact mul_le_mul_of_nonneg_left hu h.2⟩

/-- Larger coefficients and signals, all not negative, give larger outputs. -/
theorem comparison_nonneg {K : Type} [CommRing K] [LinearOrder K] [IsStrictOrderedRing K] :
    Comparison (fun a b : K => 0 ≤ a ∧ a ≤ b) fun u v => 0 ≤ u ∧ u ≤ v :=
  ⟨⟨le_rfl, le_rfl⟩, fun h h' => ⟨add_nonneg h.1 h'.1, add_le_add h.2 h'.2⟩,
    fun h hu => ⟨mul_nonneg h.1 hu.1, mul_le_mul h.2 hu.2 hu.1 (h.1.trans h.2)⟩⟩

/-- Bounds by absolute values. -/
theorem comparison_abs {K : Type} [CommRing K] [LinearOrder K] [IsStrictOrderedRing K] :
    Comparison (fun a b : K => |a| ≤ b) fun u v => |u| ≤ v :=
  ⟨by simp, fun h h' => (abs_add_le _ _).trans (add_le_add h h'),
    fun h hu => by rw [abs_mul]; exact mul_le_mul h hu (abs_nonneg _) ((abs_nonneg _).trans h)⟩

/-- Bounds of complex numbers by real ones. -/
theorem comparison_norm : Comparison (fun (a : ℂ) (b : ℝ) => ‖a‖ ≤ b) fun u v => ‖u‖ ≤ v :=
  ⟨by simp, fun h h' => (norm_add_le _ _).trans (add_le_add h h'),
    fun h hu => by rw [Complex.norm_mul]; exact mul_le_mul h hu (norm_nonneg _) ((norm_nonneg _).trans h)⟩

/-- **C75, `lti.linear_recurrence`**. -/
theorem C75_lti_linear_recurrence (h : Comparison Q R) {B N : Nat} {a i : Tensor α} {a' i' : Tensor β} {av iv : Nat → α} {av' iv' : Nat → β}
    {x : Nat → Nat → α} {x' : Nat → Nat → β} {k k' : Int} (ha : BatchVals B a av) (ha' : BatchVals B a' av') (hi : BatchVals B i iv)
    (hi' : BatchVals B i' iv') (hq : ∀ b, b < B → Q (av b) (av' b)) (hr : ∀ b, b < B → R (iv b) (iv' b))
    (hx : ∀ b, b < B → ∀ t, t < N → R (x b t) (x' b t)) (hN : 0 < N) (hk : 1 ≤ k) (hk' : 1 ≤ k') :
    ∃ y y', Lti.linearRecurrence a i (t2 B N x) k = .ok (t2 B N y) ∧ Lti.linearRecurrence a' i' (t2 B N x') k' = .ok (t2 B N y') ∧
      ∀ b, b < B → ∀ t, t < N → R (y b t) (y' b t) :=
  ⟨_, _, C01_linear_recurrence x k ha hi hN hk, C01_linear_recurrence x' k' ha' hi' hN hk', fun b hb t ht =>
    h.scalarRec (fun _ _ => hq b hb) (hr b hb) (hx b hb) (t + 1) ht⟩

example := C75_lti_linear_recurrence comparison_abs (B := 3) (N := 7) (k := 2) (k' := 3) (x := fun i t => (i : ℤ) - t)
  (x' := fun i t => (i : ℤ) + t) (.full fun b => -(b : ℤ)) (.full fun b => (b : ℤ) + 1) (.scalar (-2)) (.scalar 5)
  (fun b _ => by rw [abs_neg, abs_of_nonneg (by positivity)]; omega) (fun _ _ => by decide)
  (fun i _ t _ => abs_sub_le_iff.2 ⟨by omega, by omega⟩) (by decide) (by decide) (by decide)

/-- **C75, `lpv.linear_recurrence`**. -/
theorem C75_lpv_linear_recurrence (h : Comparison Q R) {B N : Nat} {a i : Tensor α} {a' i' : Tensor β} {av : Nat → Nat → α}
    {iv : Nat → α} {av' : Nat → Nat → β} {iv' : Nat → β}
    {x : Nat → Nat → α} {x' : Nat → Nat → β} {k k' : Int} (ha : TimeVals B N a av) (ha' : TimeVals B N a' av') (hi : BatchVals B i iv)
    (hi' : BatchVals B i' iv') (hq : ∀ b, b < B → ∀ t, t < N → Q (av b t) (av' b t)) (hr : ∀ b, b < B → R (iv b) (iv' b))
    (hx : ∀ b, b < B → ∀ t, t < N → R (x b t) (x' b t)) (hN : 0 < N) (hk : 1 ≤ k) (hk' : 1 ≤ k') :
    ∃ y y', Lpv.linearRecurrence a i (t2 B N x) k = .ok (t2 B N y) ∧ Lpv.linearRecurrence a' i' (t2 B N x') k' = .ok (t2 B N y') ∧
      ∀ b, b < B → ∀ t, t < N → R (y b t) (y' b t) :=
  ⟨_, _, C02_linear_recurrence x k ha hi hN hk, C02_linear_recurrence x' k' ha' hi' hN hk', fun b hb t ht =>
    h.scalarRec (hq b hb) (hr b hb) (hx b hb) (t + 1) ht⟩

example := C75_lpv_linear_recurrence comparison_abs (B := 3) (N := 7) (k := 2) (k' := 3) (x := fun i t => (i : ℤ) - t)
  (x' := fun i t => (i : ℤ) + t) (.shared fun t => -(t : ℤ)) (.shared fun t => (t : ℤ) + 1) (.scalar (-2)) (.scalar 5)
  (fun _ _ t _ => by rw [abs_neg, abs_of_nonneg (by positivity)]; omega) (fun _ _ => by decide)
  (fun i _ t _ => abs_sub_le_iff.2 ⟨by omega, by omega⟩) (by decide) (by decide) (by decide)

omit [StarRing α] [StarRing β] in
/-- **C75, `lti.state_space_recursion`**. -/
theorem C75_lti_state_space_recursion (h : Comparison Q R) {B N M : Nat} {A X : Tensor α} {A' X' : Tensor β} {Av x : Nat → Nat → Nat → α}
    {Av' x' : Nat → Nat → Nat → β} {z : Nat → Nat → α} {z' : Nat → Nat → β} {k k' : Int} (hA : MatVals B M M A Av)
    (hA' : MatVals B M M A' Av') (hX : Drive B N M X x) (hX' : Drive B N M X' x')
    (hq : ∀ b, b < B → ∀ i, i < M → ∀ j, j < M → Q (Av b i j) (Av' b i j)) (hr : ∀ b, b < B → ∀ m, m < M → R (z b m) (z' b m))
    (hx : ∀ b, b < B → ∀ t, t < N → ∀ m, m < M → R (x b t m) (x' b t m)) (hM : 0 < M) (hN : 0 < N) (hk : 1 ≤ k) (hk' : 1 ≤ k') :
    ∃ y y', Lti.stateSpaceRecursion A (t2 B M z) X k none = .ok (t3 B N M y) ∧
      Lti.stateSpaceRecursion A' (t2 B M z') X' k' none = .ok (t3 B N M y') ∧
      ∀ b, b < B → ∀ t, t < N → ∀ m, m < M → R (y b t m) (y' b t m) :=
  ⟨_, _, C05_state_space_recursion hA hX z k hM hN hk, C05_state_space_recursion hA' hX' z' k' hM hN hk', fun b hb t ht m hm =>
    h.vecRec (fun _ _ => hq b hb) (hr b hb) (hx b hb) (t + 1) ht m hm⟩

example := C75_lti_state_space_recursion comparison_abs (B := 3) (N := 7) (M := 2) (k := 2) (k' := 3) (z := fun _ _ => (-1 : ℤ))
  (z' := fun _ _ => (1 : ℤ)) (.shared fun _ _ => (-2 : ℤ)) (.shared fun _ _ => (2 : ℤ)) (.full fun b t m => (b : ℤ) * t * m)
  (.full fun b t m => (b : ℤ) * t * m) (fun _ _ _ _ _ _ => by decide) (fun _ _ _ _ => by decide)
  (fun _ _ _ _ _ _ => (abs_of_nonneg (by positivity)).le) (by decide) (by decide) (by decide) (by decide)

omit [StarRing α] [StarRing β] in
/-- **C75, `lpv.state_space_recursion`**. -/
theorem C75_lpv_state_space_recursion (h : Comparison Q R) {B N M : Nat} {A X : Tensor α} {A' X' : Tensor β}
    {Av : Nat → Nat → Nat → Nat → α} {x : Nat → Nat → Nat → α} {Av' : Nat → Nat → Nat → Nat → β} {x' : Nat → Nat → Nat → β}
    {z : Nat → Nat → α} {z' : Nat → Nat → β} {k k' : Int} (hA : MatSeq B N M M A Av)
    (hA' : MatSeq B N M M A' Av') (hX : Drive B N M X x) (hX' : Drive B N M X' x')
    (hq : ∀ b, b < B → ∀ t, t < N → ∀ i, i < M → ∀ j, j < M → Q (Av b t i j) (Av' b t i j))
    (hr : ∀ b, b < B → ∀ m, m < M → R (z b m) (z' b m))
    (hx : ∀ b, b < B → ∀ t, t < N → ∀ m, m < M → R (x b t m) (x' b t m)) (hB : 0 < B) (hM : 0 < M) (hN : 0 < N)
    (hk : 1 ≤ k ∧ (k ≤ 2 ∨ (N : Int) ≤ k ∨ (k.toNat - 1).Prime)) (hk' : 1 ≤ k' ∧ (k' ≤ 2 ∨ (N : Int) ≤ k' ∨ (k'.toNat - 1).Prime)) :
    ∃ y y', Lpv.stateSpaceRecursion A (t2 B M z) X k none = .ok (t3 B N M y) ∧
      Lpv.stateSpaceRecursion A' (t2 B M z') X' k' none = .ok (t3 B N M y') ∧
      ∀ b, b < B → ∀ t, t < N → ∀ m, m < M → R (y b t m) (y' b t m) :=
  ⟨_, _, C07_state_space_recursion_partial hA hX z k hB hM hN hk.1 hk.2, C07_state_space_recursion_partial hA' hX' z' k' hB hM hN hk'.1 hk'.2,
    fun b hb t ht m hm => h.vecRec (hq b hb) (hr b hb) (hx b hb) (t + 1) ht m hm⟩

example := C75_lpv_state_space_recursion comparison_le (B := 3) (N := 7) (M := 2) (k := 2) (k' := 1) (z := fun _ _ => (-1 : ℤ))
  (z' := fun _ _ => (1 : ℤ)) (.shared fun t _ _ => (t : ℤ)) (.shared fun t _ _ => (t : ℤ)) (.full fun b t m => (b : ℤ) * t * m)
  (.full fun b t m => (b : ℤ) * t * m + 1) (fun _ _ _ _ _ _ _ _ => ⟨rfl, by positivity⟩) (fun _ _ _ _ => by decide)
  (fun _ _ _ _ _ _ => by omega) (by decide) (by decide) (by decide) (by decide) (by decide)

/-- **C75, `lti.state_space`**: matrices that keep related states and signals related; final states are related, too. -/
theorem C75_lti_state_space (h : Comparison Q R) {B N M F P : Nat} {A Bm C D : Nat → Nat → Nat → α} {A' Bm' C' D' : Nat → Nat → Nat → β}
    {z : Nat → Nat → α} {z' : Nat → Nat → β} {x : Nat → Nat → Nat → α} {x' : Nat → Nat → Nat → β} {k k' : Option Int}
    (hA : ∀ b, b < B → ∀ i, i < M → ∀ j, j < M → Q (A b i j) (A' b i j)) (hB : ∀ b, b < B → ∀ i, i < M → ∀ j, j < F → Q (Bm b i j) (Bm' b i j))
    (hC : ∀ b, b < B → ∀ i, i < P → ∀ j, j < M → Q (C b i j) (C' b i j)) (hD : ∀ b, b < B → ∀ i, i < P → ∀ j, j < F → Q (D b i j) (D' b i j))
    (hz : ∀ b, b < B → ∀ m, m < M → R (z b m) (z' b m)) (hx : ∀ b, b < B → ∀ t, t < N → ∀ f, f < F → R (x b t f) (x' b t f))
    (hM : 0 < M) (hN : 0 < N) (hk : ∀ i, k = some i → 1 ≤ i) (hk' : ∀ i, k' = some i → 1 ≤ i) :
    ∃ y y' zf zf',
      Lti.stateSpace (t3 B M M A) (t3 B N F x) (some (t3 B M F Bm)) (some (t3 B P M C)) (some (t3 B P F D)) (some (t2 B M z)) k none =
        .ok (t3 B N P y, some (t2 B M zf)) ∧
      Lti.stateSpace (t3 B M M A') (t3 B N F x') (some (t3 B M F Bm')) (some (t3 B P M C')) (some (t3 B P F D')) (some (t2 B M z')) k' none =
        .ok (t3 B N P y', some (t2 B M zf')) ∧
      ∀ b, b < B → (∀ t, t < N → ∀ p, p < P → R (y b t p) (y' b t p)) ∧ ∀ m, m < M → R (zf b m) (zf' b m) := by
  obtain ⟨s, hs, e⟩ := C08_state_space_partial (B := B) (.batched A) (.batchMat F Bm x) (.batchMat P C) (.batchMat P F D x) (.full z) hM hN hk
  obtain ⟨s', hs', e'⟩ := C08_state_space_partial (B := B) (.batched A') (.batchMat F Bm' x') (.batchMat P C') (.batchMat P F D' x')
    (.full z') hM hN hk'
  refine ⟨fun i t q => ∑ m ∈ Finset.range M, C i q m * s i t m + ∑ f ∈ Finset.range F, D i q f * x i t f,
    fun i t q => ∑ m ∈ Finset.range M, C' i q m * s' i t m + ∑ f ∈ Finset.range F, D' i q f * x' i t f,
    fun i => s i N, fun i => s' i N, e, e', fun b hb => ?_⟩
  have st : ∀ t, t ≤ N → ∀ m, m < M → R (s b t m) (s' b t m) := by
    intro t
    induction t with
    | zero => intro _ m hm; rw [(hs b m).1, (hs' b m).1]; exact hz b hb m hm
    | succ t ih =>
      intro ht m hm
      rw [(hs b m).2, (hs' b m).2]
      exact h.add (h.sum fun k hk => h.mul (hA b hb m hm k (Finset.mem_range.1 hk)) (ih (by omega) k (Finset.mem_range.1 hk)))
        (h.sum fun f hf => h.mul (hB b hb m hm f (Finset.mem_range.1 hf)) (hx b hb t (by omega) f (Finset.mem_range.1 hf)))
  exact ⟨fun t ht p hp => h.add (h.sum fun k hk => h.mul (hC b hb p hp k (Finset.mem_range.1 hk)) (st t (by omega) k (Finset.mem_range.1 hk)))
    (h.sum fun f hf => h.mul (hD b hb p hp f (Finset.mem_range.1 hf)) (hx b hb t ht f (Finset.mem_range.1 hf))), st N le_rfl⟩

/-- **C75, `lpv.state_space`**. -/
theorem C75_lpv_state_space (h : Comparison Q R) {B N M F P : Nat} {A Bm C D : Nat → Nat → Nat → Nat → α}
    {A' Bm' C' D' : Nat → Nat → Nat → Nat → β} {z : Nat → Nat → α} {z' : Nat → Nat → β} {x : Nat → Nat → Nat → α} {x' : Nat → Nat → Nat → β}
    {k k' : Option Int} (hA : ∀ b, b < B → ∀ t, t < N → ∀ i, i < M → ∀ j, j < M → Q (A b t i j) (A' b t i j))
    (hB : ∀ b, b < B → ∀ t, t < N → ∀ i, i < M → ∀ j, j < F → Q (Bm b t i j) (Bm' b t i j))
    (hC : ∀ b, b < B → ∀ t, t < N → ∀ i, i < P → ∀ j, j < M → Q (C b t i j) (C' b t i j))
    (hD : ∀ b, b < B → ∀ t, t < N → ∀ i, i < P → ∀ j, j < F → Q (D b t i j) (D' b t i j))
    (hz : ∀ b, b < B → ∀ m, m < M → R (z b m) (z' b m)) (hx : ∀ b, b < B → ∀ t, t < N → ∀ f, f < F → R (x b t f) (x' b t f))
    (hB0 : 0 < B) (hM : 0 < M) (hN : 0 < N) (hk : FilterUnroll M N k) (hk' : FilterUnroll M N k') :
    ∃ y y' zf zf',
      Lpv.stateSpace (t4 B N M M A) (t3 B N F x) (some (t4 B N M F Bm)) (some (t4 B N P M C)) (some (t4 B N P F D)) (some (t2 B M z)) k none =
        .ok (t3 B N P y, some (t2 B M zf)) ∧
      Lpv.stateSpace (t4 B N M M A') (t3 B N F x') (some (t4 B N M F Bm')) (some (t4 B N P M C')) (some (t4 B N P F D')) (some (t2 B M z'))
        k' none = .ok (t3 B N P y', some (t2 B M zf')) ∧
      ∀ b, b < B → (∀ t, t < N → ∀ p, p < P → R (y b t p) (y' b t p)) ∧ ∀ m, m < M → R (zf b m) (zf' b m) := by
  obtain ⟨s, hs, e⟩ := C09_state_space_partial (B := B) (.batched A) (.batchTimeMat F Bm x) (.batchTimeMat P C) (.batchTimeMat P F D x)
    (.full z) hB0 hM hN hk
  obtain ⟨s', hs', e'⟩ := C09_state_space_partial (B := B) (.batched A') (.batchTimeMat F Bm' x') (.batchTimeMat P C')
    (.batchTimeMat P F D' x') (.full z') hB0 hM hN hk'
  refine ⟨fun i t q => ∑ m ∈ Finset.range M, C i t q m * s i t m + ∑ f ∈ Finset.range F, D i t q f * x i t f,
    fun i t q => ∑ m ∈ Finset.range M, C' i t q m * s' i t m + ∑ f ∈ Finset.range F, D' i t q f * x' i t f,
    fun i => s i N, fun i => s' i N, e, e', fun b hb => ?_⟩
  have st : ∀ t, t ≤ N → ∀ m, m < M → R (s b t m) (s' b t m) := by
    intro t
    induction t with
    | zero => intro _ m hm; rw [(hs b m).1, (hs' b m).1]; exact hz b hb m hm
    | succ t ih =>
      intro ht m hm
      rw [(hs b m).2, (hs' b m).2]
      exact h.add (h.sum fun k hk => h.mul (hA b hb t ht m hm k (Finset.mem_range.1 hk)) (ih (by omega) k (Finset.mem_range.1 hk)))
        (h.sum fun f hf => h.mul (hB b hb t ht m hm f (Finset.mem_range.1 hf)) (hx b hb t ht f (Finset.mem_range.1 hf)))
  exact ⟨fun t ht p hp => h.add (h.sum fun k hk => h.mul (hC b hb t ht p hp k (Finset.mem_range.1 hk))
      (st t (by omega) k (Finset.mem_range.1 hk)))
    (h.sum fun f hf => h.mul (hD b hb t ht p hp f (Finset.mem_range.1 hf)) (hx b hb t ht f (Finset.mem_range.1 hf))), st N le_rfl⟩

example := C75_lti_state_space comparison_nonneg (B := 3) (N := 7) (M := 2) (F := 1) (P := 3) (k := some 2) (k' := none)
  (A := fun _ i j => (i : ℤ) * j) (A' := fun _ i j => (i : ℤ) * j + 1) (Bm := fun _ _ _ => 1) (Bm' := fun _ _ _ => 2)
  (C := fun _ _ _ => 1) (C' := fun _ _ _ => 2) (D := fun _ _ _ => 1) (D' := fun _ _ _ => 2) (z := fun _ _ => 1) (z' := fun _ _ => 2)
  (x := fun i t _ => (i : ℤ) * t) (x' := fun i t _ => (i : ℤ) * t + 3) (fun _ _ _ _ _ _ => ⟨by positivity, by omega⟩)
  (fun _ _ _ _ _ _ => by decide) (fun _ _ _ _ _ _ => by decide) (fun _ _ _ _ _ _ => by decide) (fun _ _ _ _ => by decide)
  (fun _ _ _ _ _ _ => ⟨by positivity, by omega⟩) (by decide) (by decide) (by simp) (by simp)

example := C75_lpv_state_space comparison_nonneg (B := 3) (N := 7) (M := 2) (F := 1) (P := 3) (k := some 2) (k' := some 3)
  (A := fun _ t i j => (i : ℤ) * j * t) (A' := fun _ t i j => (i : ℤ) * j * t + 1) (Bm := fun _ _ _ _ => 1) (Bm' := fun _ _ _ _ => 2)
  (C := fun _ _ _ _ => 1) (C' := fun _ _ _ _ => 2) (D := fun _ _ _ _ => 1) (D' := fun _ _ _ _ => 2) (z := fun _ _ => 1)
  (z' := fun _ _ => 2) (x := fun i t _ => (i : ℤ) * t) (x' := fun i t _ => (i : ℤ) * t + 3)
  (fun _ _ _ _ _ _ _ _ => ⟨by positivity, by omega⟩) (fun _ _ _ _ _ _ _ _ => by decide) (fun _ _ _ _ _ _ _ _ => by decide)
  (fun _ _ _ _ _ _ _ _ => by decide) (fun _ _ _ _ => by decide) (fun _ _ _ _ _ _ => ⟨by positivity, by omega⟩) (by decide) (by decide)
  (by decide) (by unfold FilterUnroll GoodUnroll FewPrimes; decide +kernel) (by unfold FilterUnroll GoodUnroll FewPrimes; decide +kernel)

/-- **C75, `lti.fir`**, direct and transposed. -/
theorem C75_lti_fir (h : Comparison Q R) (hs : ∀ a b, Q a b → Q (star a) (star b)) {B M N : Nat} {b x : Nat → Nat → α}
    {b' x' : Nat → Nat → β} (hb : ∀ i, i < B → ∀ k, k ≤ M → Q (b i k) (b' i k)) (hx : ∀ i, i < B → ∀ t, t < N → R (x i t) (x' i t))
    (hB : 0 < B) (hN : 0 < N) (tr : Bool) (hM : tr = true → 0 < M) :
    ComparedCalls R B N (Lti.fir (t2 B (M + 1) b) (t2 B N x) none tr) (Lti.fir (t2 B (M + 1) b') (t2 B N x') none tr) := by
  cases tr with
  | false =>
    exact ⟨_, _, _, _, Lti.fir_direct_none b x hB hN, Lti.fir_direct_none b' x' hB hN, fun i hi n hn =>
      h.taps (fun k hk => hb i hi k (by omega)) fun m hm => h.causal (hx i hi) (by omega)⟩
  | true =>
    exact ⟨_, _, _, _, Lti.fir_transpose_none b x hB hN (hM rfl), Lti.fir_transpose_none b' x' hB hN (hM rfl), fun i hi n hn =>
      h.taps (fun k hk => hs _ _ (hb i hi k (by omega))) fun m hm => h.causal (hx i hi) (by omega)⟩

example (tr : Bool) := C75_lti_fir comparison_le (fun _ _ h => h) (B := 3) (M := 2) (N := 7) (b := fun i k => (i : ℤ) + k)
  (b' := fun i k => (i : ℤ) + k) (x := fun i t => (i : ℤ) - t) (x' := fun i t => (i : ℤ) + t)
  (fun _ _ _ _ => ⟨rfl, by positivity⟩) (fun _ _ _ _ => by omega) (by decide) (by decide) tr (fun _ => by decide)

omit [StarRing α] [StarRing β] in
/-- The transposed time-varying numerator keeps signals related. -/
theorem tvConv_related (h : Comparison Q R) {M N : Nat} {b : Nat → Nat → α} {b' : Nat → Nat → β} {x : Nat → α} {x' : Nat → β}
    (hb : ∀ t, t < N → ∀ k, k ≤ M → Q (b t k) (b' t k)) (hx : ∀ t, t < N → R (x t) (x' t)) {n : Nat} :
    R (tvConv N M b x n) (tvConv N M b' x' n) := by
  refine h.sum fun j hj => ?_
  have := Finset.mem_range.1 hj
  split_ifs with hc
  · exact h.mul (hb _ hc.2 j (by omega)) (hx _ hc.2)
  · exact h.zero

/-- **C75, `lpv.fir`**, direct and transposed. -/
theorem C75_lpv_fir (h : Comparison Q R) (hs : ∀ a b, Q a b → Q (star a) (star b)) {B M N : Nat} {b : Nat → Nat → Nat → α}
    {x : Nat → Nat → α} {b' : Nat → Nat → Nat → β} {x' : Nat → Nat → β}
    (hb : ∀ i, i < B → ∀ t, t < N → ∀ k, k ≤ M → Q (b i t k) (b' i t k)) (hx : ∀ i, i < B → ∀ t, t < N → R (x i t) (x' i t))
    (hN : 0 < N) (tr : Bool) (hM : tr = true → 0 < M) :
    ComparedCalls R B N (Lpv.fir (t3 B N (M + 1) b) (t2 B N x) none tr) (Lpv.fir (t3 B N (M + 1) b') (t2 B N x') none tr) := by
  cases tr with
  | false =>
    exact ⟨_, _, _, _, Lpv.fir_direct_none b x hN, Lpv.fir_direct_none b' x' hN, fun i hi n hn =>
      h.taps (fun k hk => hb i hi n hn k (by omega)) fun m hm => h.causal (hx i hi) (by omega)⟩
  | true =>
    exact ⟨_, _, _, _, Lpv.fir_transposed_none b x (hM rfl) hN, Lpv.fir_transposed_none b' x' (hM rfl) hN, fun i hi n hn =>
      tvConv_related h (fun t ht k hk => hs _ _ (hb i hi t ht k hk)) (hx i hi)⟩

example := C75_lpv_fir comparison_le (fun _ _ h => h) (B := 3) (M := 2) (N := 7) (b := fun i t k => (i : ℤ) + t * k)
  (b' := fun i t k => (i : ℤ) + t * k) (x := fun i t => (i : ℤ) - t) (x' := fun i t => (i : ℤ) + t)
  (fun _ _ _ _ _ _ => ⟨rfl, by positivity⟩) (fun _ _ _ _ => by omega) (by decide) true (fun _ => by decide)

/-- Conjugation keeps coefficients related. -/
theorem conjIf_related (hs : ∀ a b, Q a b → Q (star a) (star b)) (c : Bool) {K : Nat} {b : Nat → α} {b' : Nat → β}
    (hb : ∀ k, k < K → Q (b k) (b' k)) (k : Nat) (hk : k < K) : Q (conjIf c b k) (conjIf c b' k) := by
  unfold conjIf
  split_ifs
  · exact hs _ _ (hb k hk)
  · exact hb k hk

/-- **C75, `lti.lfilter`**, every form, from rest.  The feedback coefficients enter with a minus sign. -/
theorem C75_lti_lfilter (h : Comparison Q R) (hs : ∀ a b, Q a b → Q (star a) (star b)) {B N K P : Nat} {b a : Tensor α} {b' a' : Tensor β}
    {bv av x : Nat → Nat → α} {bv' av' x' : Nat → Nat → β} {form : Form} {k k' : Option Int} (hb : Rows B K b bv) (ha : Rows B P a av)
    (hb' : Rows B K b' bv') (ha' : Rows B P a' av') (hqb : ∀ i, i < B → ∀ k, k < K → Q (bv i k) (bv' i k))
    (hqa : ∀ i, i < B → ∀ k, k < P → Q (-av i k) (-av' i k)) (hx : ∀ i, i < B → ∀ t, t < N → R (x i t) (x' i t))
    (hf : form ≠ .other) (hB : 0 < B) (hK : 0 < K) (hM : 0 < max P (K - 1)) (hN : 0 < N) (hk : ∀ i, k = some i → 1 ≤ i)
    (hk' : ∀ i, k' = some i → 1 ≤ i) :
    ComparedCalls R B N (Lti.lfilter b a (t2 B N x) none form k) (Lti.lfilter b' a' (t2 B N x') none form k') := by
  obtain ⟨y, y0, hy, e⟩ := Lti.lfilter_diff hb ha (.batched B x) hf (Or.inl rfl) hB hK hM hN hk
  obtain ⟨y', y0', hy', e'⟩ := Lti.lfilter_diff hb' ha' (.batched B x') hf (Or.inl rfl) hB hK hM hN hk'
  rw [packed_batch] at e e'
  refine ⟨_, _, _, _, e, e', fun i hi => h.feedback (N := N) (P := P) (a := fun _ => conjIf (conjA form) (av i))
    (a' := fun _ => conjIf (conjA form) (av' i)) (fun t ht k hk => ?_) (fun n hn _ => ?_)
    (fun t ht => h.taps (n := t) (conjIf_related hs (conjB form) (hqb i hi)) fun m hm => h.causal (hx i hi) (by omega))
    (fun n _ => hy i n) fun n _ => hy' i n⟩
  · have := conjIf_related hs (conjA form) (b := fun k => -av i k) (b' := fun k => -av' i k) (hqa i hi) k hk
    unfold conjIf at this ⊢
    split_ifs at this ⊢
    · dsimp only at this ⊢; rwa [star_neg, star_neg] at this
    · exact this
  · rw [y0 i n hn, y0' i n hn]; exact h.zero

example := C75_lti_lfilter comparison_abs (fun _ _ h => h) (B := 3) (N := 7) (K := 3) (P := 2) (form := .tdf2) (k := some 2) (k' := none)
  (x := fun i t => (i : ℤ) - t) (x' := fun i t => (i : ℤ) + t) (.shared fun k => -(k : ℤ)) (.shared fun k => (k : ℤ))
  (.shared fun k => (k : ℤ)) (.shared fun k => -(k : ℤ)) (fun _ _ k _ => by simp) (fun _ _ k _ => by simp)
  (fun i _ t _ => abs_sub_le_iff.2 ⟨by omega, by omega⟩) (by simp) (by decide) (by decide) (by decide) (by decide) (by simp) (by simp)

/-- **C75, a complex filter is bounded by a real one**: replacing the numerator and the signal by their absolute values and the
denominator by minus its absolute values bounds the output of `lti.lfilter`, in every form. -/
theorem C75_magnitude {B N K P : Nat} (b a x : Nat → Nat → ℂ) {form : Form} {k k' : Option Int} (hf : form ≠ .other) (hB : 0 < B)
    (hK : 0 < K) (hM : 0 < max P (K - 1)) (hN : 0 < N) (hk : ∀ i, k = some i → 1 ≤ i) (hk' : ∀ i, k' = some i → 1 ≤ i) :
    ComparedCalls (fun (u : ℂ) (v : ℝ) => ‖u‖ ≤ v) B N (Lti.lfilter (t2 B K b) (t2 B P a) (t2 B N x) none form k)
      (Lti.lfilter (t2 B K fun i k => ‖b i k‖) (t2 B P fun i k => -‖a i k‖) (t2 B N fun i t => ‖x i t‖) none form k') :=
  C75_lti_lfilter comparison_norm (fun _ _ h => (Complex.norm_conj _).trans_le h) (.batched b) (.batched a) (.batched _) (.batched _)
    (fun _ _ _ _ => le_rfl) (fun i _ k _ => by rw [norm_neg, neg_neg]) (fun _ _ _ _ => le_rfl) hf hB hK hM hN hk hk'

example := C75_magnitude (B := 3) (N := 7) (K := 3) (P := 2) (fun i k => (i : ℂ) - k * Complex.I) (fun i k => (i : ℂ) * k)
  (fun i t => (i : ℂ) - t) (form := .df1) (k := some 2) (k' := none) (by simp) (by decide) (by decide) (by decide) (by decide) (by simp) (by simp)

/-- **C75, `lti.lfilter` with a state**, forms df2 and tdf2: related states stay related. -/
theorem C75_lti_lfilter_states (h : Comparison Q R) (hs : ∀ a b, Q a b → Q (star a) (star b)) {B N K P : Nat} {b a zi : Tensor α}
    {b' a' zi' : Tensor β} {bv av x z : Nat → Nat → α} {bv' av' x' z' : Nat → Nat → β} {form : Form} {k k' : Option Int}
    (hb : Rows B K b bv) (ha : Rows B P a av) (hb' : Rows B K b' bv') (ha' : Rows B P a' av')
    (hz : InitState B (max P (K - 1)) (some zi) z) (hz' : InitState B (max P (K - 1)) (some zi') z')
    (hqb : ∀ i, i < B → ∀ k, k < K → Q (bv i k) (bv' i k)) (hqa : ∀ i, i < B → ∀ k, k < P → Q (-av i k) (-av' i k))
    (hr : ∀ i, i < B → ∀ m, m < max P (K - 1) → R (z i m) (z' i m)) (hx : ∀ i, i < B → ∀ t, t < N → R (x i t) (x' i t))
    (hf : form = .df2 ∨ form = .tdf2) (hK : 0 < K) (hM : 0 < max P (K - 1)) (hN : 0 < N) (hk : ∀ i, k = some i → 1 ≤ i)
    (hk' : ∀ i, k' = some i → 1 ≤ i) :
    ComparedStates R B N (max P (K - 1)) (Lti.lfilter b a (t2 B N x) (some zi) form k)
      (Lti.lfilter b' a' (t2 B N x') (some zi') form k') := by
  rcases hf with rfl | rfl
  · have e := Lti.lfilter_df2 hb ha (.batched B x) hz hK hM hN hk
    have e' := Lti.lfilter_df2 hb' ha' (.batched B x') hz' hK hM hN hk'
    rw [packed_batch, packed_batch] at e e'
    have s : ∀ i, i < B → ∀ n : Int, -(max P (K - 1) : Nat) ≤ n → n < N → R (dfSignal (max P (K - 1)) (zext P (av i)) (z i) (x i) n)
        (dfSignal (max P (K - 1)) (zext P (av' i)) (z' i) (x' i) n) := fun i hi n h1 h2 =>
      h.tvSignal (N := N) (P := P) (a := fun _ => av i) (a' := fun _ => av' i) hM (le_max_left _ _) (fun _ _ => hqa i hi) (hr i hi) (hx i hi)
        n h1 h2
    exact ⟨_, _, _, _, e, e', fun i hi => ⟨fun n hn => h.sum fun j hj => h.mul (hqb i hi j (Finset.mem_range.1 hj))
      (s i hi _ (by have := Finset.mem_range.1 hj; omega) (by omega)), fun m hm => s i hi _ (by omega) (by omega)⟩⟩
  · have e := Lti.lfilter_tdf2 hb ha (.batched B x) hz hK hM hN hk
    have e' := Lti.lfilter_tdf2 hb' ha' (.batched B x') hz' hK hM hN hk'
    rw [packed_batch, packed_batch] at e e'
    refine ⟨_, _, _, _, e, e', fun i hi => ?_⟩
    have t := h.transposed (N := N) (K := K) (P := P) hM hK (b := fun _ k => star (zext K (bv i) k)) (a := fun _ k => star (zext P (av i) k))
      (b' := fun _ k => star (zext K (bv' i) k)) (a' := fun _ k => star (zext P (av' i) k)) (z := z i) (z' := z' i) (x := x i) (x' := x' i)
      (fun _ _ k hk => by rw [zext, zext, if_pos hk, if_pos hk]; exact hs _ _ (hqb i hi k hk))
      (fun _ k hk => by rw [zext, zext, if_neg (by omega), if_neg (by omega), star_zero, star_zero]; exact ⟨rfl, rfl⟩)
      (fun _ _ k hk => by rw [zext, zext, if_pos hk, if_pos hk, ← star_neg, ← star_neg]; exact hs _ _ (hqa i hi k hk))
      (fun _ k hk => by rw [zext, zext, if_neg (by omega), if_neg (by omega), star_zero, star_zero]; exact ⟨rfl, rfl⟩) (hr i hi) (hx i hi)
    exact ⟨t.2, t.1 N le_rfl⟩

example := C75_lti_lfilter_states comparison_abs (fun _ _ h => h) (B := 3) (N := 7) (K := 3) (P := 2) (form := .tdf2) (k := some 2)
  (k' := none) (x := fun i t => (i : ℤ) - t) (x' := fun i t => (i : ℤ) + t) (.shared fun k => -(k : ℤ)) (.shared fun k => (k : ℤ))
  (.shared fun k => (k : ℤ)) (.shared fun k => -(k : ℤ)) (.shared fun k => -(k : ℤ)) (.full fun _ k => (k : ℤ))
  (fun _ _ k _ => by simp) (fun _ _ k _ => by simp) (fun _ _ k _ => by simp)
  (fun i _ t _ => abs_sub_le_iff.2 ⟨by omega, by omega⟩) (Or.inr rfl) (by decide) (by decide) (by decide) (by simp) (by simp)

/-- **C75, `comb_filter`**, from rest. -/
theorem C75_comb_filter (h : Comparison Q R) {B N D : Nat} {a : Tensor α} {a' : Tensor β} {av : Nat → α} {av' : Nat → β} {x : Nat → Nat → α}
    {x' : Nat → Nat → β} {k k' : Int} (ha : PerItem B a av) (ha' : PerItem B a' av') (hq : ∀ i, i < B → Q (-av i) (-av' i))
    (hx : ∀ i, i < B → ∀ t, t < N → R (x i t) (x' i t)) (hD : 1 ≤ D) (hN : 0 < N) (hk : 1 ≤ k) (hk' : 1 ≤ k') :
    ComparedCalls R B N (Lti.combFilter true a D (t2 B N x) none k) (Lti.combFilter true a' D (t2 B N x') none k') := by
  obtain ⟨y, y0, hy, e⟩ := C19_without_state_partial x ha hD hN hk
  obtain ⟨y', y0', hy', e'⟩ := C19_without_state_partial x' ha' hD hN hk'
  refine ⟨_, _, _, _, e, e', fun i hi n => ?_⟩
  induction n using Nat.strong_induction_on with
  | _ n ih =>
    intro hn
    rw [hy, hy']
    refine h.sub (hx i hi n hn) (hq i hi) ?_
    by_cases hc : D ≤ n
    · have := ih (n - D) (by omega) (by omega)
      rwa [show ((n - D : Nat) : Int) = (n : Int) - D by omega] at this
    · have e1 := y0 i (D - n - 1)
      have e2 := y0' i (D - n - 1)
      rw [show (-1 - ((D - n - 1 : Nat) : Int)) = (n : Int) - D by omega] at e1 e2
      rw [e1, e2]; exact h.zero

example := C75_comb_filter comparison_le (B := 3) (N := 7) (D := 2) (k := 2) (k' := 3) (x := fun i t => (i : ℤ) - t)
  (x' := fun i t => (i : ℤ) + t) (.full fun i => -(i : ℤ)) (.full fun i => -(i : ℤ)) (fun _ _ => ⟨rfl, by simp⟩) (fun _ _ _ _ => by omega)
  (by decide) (by decide) (by decide) (by decide)

/-- The transposed all-pole filter keeps signals related. -/
theorem allpole_related (h : Comparison Q R) (hs : ∀ a b, Q a b → Q (star a) (star b)) (h1 : Q 1 1) {M N : Nat} (hM : 0 < M)
    {a : Nat → Nat → α} {x : Nat → α} {a' : Nat → Nat → β} {x' : Nat → β} (hq : ∀ t, t < N → ∀ k, k < M → Q (-a t k) (-a' t k))
    (hx : ∀ t, t < N → R (x t) (x' t)) (n : Nat) (hn : n < N) :
    R (tvTdf2Out M unitTaps (fun t k => star (a t k)) (fun _ => 0) x n)
      (tvTdf2Out M unitTaps (fun t k => star (a' t k)) (fun _ => 0) x' n) := by
  have e : ∀ {γ : Type} [CommRing γ] (a : Nat → Nat → γ) (x : Nat → γ), tvTdf2Out M unitTaps a (fun _ => 0) x n =
      tvTdf2Out M unitTaps (fun t => zext M (a t)) (fun _ => 0) x n := by
    intro γ _ a x
    induction n using Nat.strong_induction_on with
    | _ n ih =>
      rw [tvTdf2_rest hM, tvTdf2_rest hM]
      refine congrArg _ (Finset.sum_congr rfl fun m hm => ?_)
      split_ifs with hc
      · rw [ih _ (by omega) (by omega), zext, if_pos (Finset.mem_range.1 hm)]
      · rfl
  rw [e (fun t k => star (a t k)) x, e (fun t k => star (a' t k)) x']
  exact (h.transposed (N := N) (K := 1) (P := M) hM one_pos (fun _ _ k hk => by
      rw [unitTaps, unitTaps, if_pos (by omega), if_pos (by omega)]; exact h1)
    (fun _ k hk => by rw [unitTaps, unitTaps, if_neg (by omega), if_neg (by omega)]; exact ⟨rfl, rfl⟩)
    (fun t ht k hk => by rw [zext, zext, if_pos hk, if_pos hk, ← star_neg, ← star_neg]; exact hs _ _ (hq t ht k hk))
    (fun _ k hk => by rw [zext, zext, if_neg (by omega), if_neg (by omega)]; exact ⟨rfl, rfl⟩) (fun _ _ => h.zero) hx).2 n hn

/-- **C75, `lpv.allpole`**, direct and transposed, from rest. -/
theorem C75_lpv_allpole (h : Comparison Q R) (hs : ∀ a b, Q a b → Q (star a) (star b)) (h1 : Q 1 1) {B M N : Nat} {lpc : Lpv.Lpc α}
    {lpc' : Lpv.Lpc β} (hl : IsLpc lpc) (hl' : IsLpc lpc') {a : Nat → Nat → Nat → α} {x : Nat → Nat → α} {a' : Nat → Nat → Nat → β}
    {x' : Nat → Nat → β} (hq : ∀ i, i < B → ∀ t, t < N → ∀ k, k < M → Q (-a i t k) (-a' i t k))
    (hx : ∀ i, i < B → ∀ t, t < N → R (x i t) (x' i t)) (hM : 0 < M) (hN : 0 < N) (tr : Bool) (hMN : tr = true → M ≤ N) :
    ComparedCalls R B N (Lpv.allpole lpc (t3 B N M a) (t2 B N x) none tr) (Lpv.allpole lpc' (t3 B N M a') (t2 B N x') none tr) := by
  cases tr with
  | false =>
    exact ⟨_, _, _, _, allpole_out hl a x hM hN, allpole_out hl' a' x' hM hN, fun i hi n hn =>
      h.tvSignal hM le_rfl (hq i hi) (fun _ _ => h.zero) (hx i hi) n (by omega) (by omega)⟩
  | true =>
    refine ⟨_, _, _, _, Lpv.allpole_transposed_out hl a x hM (hMN rfl), Lpv.allpole_transposed_out hl' a' x' hM (hMN rfl), fun i hi n hn => ?_⟩
    exact allpole_related h hs h1 hM (hq i hi) (hx i hi) n hn

example := C75_lpv_allpole comparison_le (fun _ _ h => h) ⟨rfl, zero_le_one⟩ (B := 3) (M := 2) (N := 7) Lpv.refLpc_isLpc Lpv.refLpc_isLpc
  (a := fun i t k => -((i : ℤ) + t * k)) (a' := fun i t k => -((i : ℤ) + t * k)) (x := fun i t => (i : ℤ) - t) (x' := fun i t => (i : ℤ) + t)
  (fun _ _ _ _ _ _ => ⟨rfl, by rw [neg_neg]; positivity⟩) (fun _ _ _ _ => by omega) (by decide) (by decide) true (fun _ => by decide)

/-- **C75, `lpv.lfilter`, backend `ssm`**, forms df2 and tdf2, from rest. -/
theorem C75_lpv_lfilter_rest (h : Comparison Q R) (hs : ∀ a b, Q a b → Q (star a) (star b)) {B N K P : Nat} {b a : Tensor α}
    {b' a' : Tensor β} {bv av : Nat → Nat → Nat → α} {x : Nat → Nat → α} {bv' av' : Nat → Nat → Nat → β} {x' : Nat → Nat → β}
    {form : Form} {k k' : Option Int} (lpc : Lpv.Lpc α) (lpc' : Lpv.Lpc β)
    (hb : MatVals B N K b bv) (ha : MatVals B N P a av) (hb' : MatVals B N K b' bv') (ha' : MatVals B N P a' av')
    (hqb : ∀ i, i < B → ∀ t, t < N → ∀ k, k < K → Q (bv i t k) (bv' i t k))
    (hqa : ∀ i, i < B → ∀ t, t < N → ∀ k, k < P → Q (-av i t k) (-av' i t k))
    (hx : ∀ i, i < B → ∀ t, t < N → R (x i t) (x' i t))
    (hf : form = .df2 ∨ form = .tdf2) (hBN : B ≠ N) (hB : 0 < B) (hK : 0 < K) (hM : 0 < max P (K - 1)) (hN : 0 < N)
    (hk : FilterUnroll (max P (K - 1)) N k) (hk' : FilterUnroll (max P (K - 1)) N k') :
    ComparedCalls R B N (Lpv.lfilter lpc b a (t2 B N x) none form .ssm k)
      (Lpv.lfilter lpc' b' a' (t2 B N x') none form .ssm k') := by
  rcases hf with rfl | rfl
  · have e : Lpv.lfilter lpc b a (t2 B N x) none .df2 .ssm k = _ := Lpv.lfilterWith_seq hb ha (.batched B x)
      (Lpv.ssmLfilter_tvdf2_of hb ha x .zero (Or.inr hBN) hK hM hN (Lpv.recOn_filter _ _ hB hM hN hk))
    have e' : Lpv.lfilter lpc' b' a' (t2 B N x') none .df2 .ssm k' = _ := Lpv.lfilterWith_seq hb' ha' (.batched B x')
      (Lpv.ssmLfilter_tvdf2_of hb' ha' x' .zero (Or.inr hBN) hK hM hN (Lpv.recOn_filter _ _ hB hM hN hk'))
    rw [packed_batch_tv] at e e'
    refine ⟨_, _, _, _, e, e', fun i hi => fun n hn => h.sum fun j hj => h.mul (hqb i hi n hn j (Finset.mem_range.1 hj)) ?_⟩
    have := Finset.mem_range.1 hj
    exact h.tvSignal (N := N) hM (le_max_left _ _) (hqa i hi) (fun _ _ => h.zero) (hx i hi) _ (by omega) (by omega)
  · have e : Lpv.lfilter lpc b a (t2 B N x) none .tdf2 .ssm k = _ := Lpv.lfilterWith_seq hb ha (.batched B x)
      (Lpv.ssmLfilter_tvtdf2_of hb ha x .zero (Or.inr hBN) hK hM hN (Lpv.recOn_filter _ _ hB hM hN hk))
    have e' : Lpv.lfilter lpc' b' a' (t2 B N x') none .tdf2 .ssm k' = _ := Lpv.lfilterWith_seq hb' ha' (.batched B x')
      (Lpv.ssmLfilter_tvtdf2_of hb' ha' x' .zero (Or.inr hBN) hK hM hN (Lpv.recOn_filter _ _ hB hM hN hk'))
    rw [packed_batch_tv] at e e'
    refine ⟨_, _, _, _, e, e', fun i hi => ?_⟩
    have t := h.transposed (N := N) (K := K) (P := P) hM hK (b := fun t k => star (zext K (bv i t) k))
      (a := fun t k => star (zext P (av i t) k)) (b' := fun t k => star (zext K (bv' i t) k)) (a' := fun t k => star (zext P (av' i t) k))
      (z := fun _ => 0) (z' := fun _ => 0) (x := x i) (x' := x' i)
      (fun t ht k hk => by rw [zext, zext, if_pos hk, if_pos hk]; exact hs _ _ (hqb i hi t ht k hk))
      (fun _ k hk => by rw [zext, zext, if_neg (by omega), if_neg (by omega), star_zero, star_zero]; exact ⟨rfl, rfl⟩)
      (fun t ht k hk => by rw [zext, zext, if_pos hk, if_pos hk, ← star_neg, ← star_neg]; exact hs _ _ (hqa i hi t ht k hk))
      (fun _ k hk => by rw [zext, zext, if_neg (by omega), if_neg (by omega), star_zero, star_zero]; exact ⟨rfl, rfl⟩) (fun _ _ => h.zero) (hx i hi)
    exact t.2

example := C75_lpv_lfilter_rest comparison_abs (fun _ _ h => h) (B := 3) (N := 7) (K := 3) (P := 2) (form := .tdf2) (k := some 2)
  (k' := some 3) (x := fun i t => (i : ℤ) - t) (x' := fun i t => (i : ℤ) + t) Lpv.refLpc Lpv.refLpc (.shared fun t k => -((t : ℤ) * k))
  (.shared fun t k => ((t : ℤ) * k)) (.shared fun t k => ((t : ℤ) * k)) (.shared fun t k => -((t : ℤ) * k))
  (fun _ _ t _ k _ => by rw [abs_neg, abs_of_nonneg (by positivity)])
  (fun _ _ t _ k _ => by rw [abs_neg, neg_neg, abs_of_nonneg (by positivity)])
  (fun i _ t _ => abs_sub_le_iff.2 ⟨by omega, by omega⟩) (Or.inr rfl) (by decide) (by decide) (by decide) (by decide) (by decide)
  (by unfold FilterUnroll GoodUnroll FewPrimes; decide +kernel) (by unfold FilterUnroll GoodUnroll FewPrimes; decide +kernel)

/-- **C75, `lpv.lfilter`, backend `ssm`**, forms df2 and tdf2, with a state. -/
theorem C75_lpv_lfilter_states (h : Comparison Q R) (hs : ∀ a b, Q a b → Q (star a) (star b)) {B N K P : Nat} {b a zi : Tensor α}
    {b' a' zi' : Tensor β} {bv av : Nat → Nat → Nat → α} {x z : Nat → Nat → α} {bv' av' : Nat → Nat → Nat → β} {x' z' : Nat → Nat → β}
    {form : Form} {k k' : Option Int} (lpc : Lpv.Lpc α) (lpc' : Lpv.Lpc β)
    (hb : MatVals B N K b bv) (ha : MatVals B N P a av) (hb' : MatVals B N K b' bv') (ha' : MatVals B N P a' av')
    (hz : InitState B (max P (K - 1)) (some zi) z) (hz' : InitState B (max P (K - 1)) (some zi') z')
    (hqb : ∀ i, i < B → ∀ t, t < N → ∀ k, k < K → Q (bv i t k) (bv' i t k))
    (hqa : ∀ i, i < B → ∀ t, t < N → ∀ k, k < P → Q (-av i t k) (-av' i t k))
    (hr : ∀ i, i < B → ∀ m, m < max P (K - 1) → R (z i m) (z' i m)) (hx : ∀ i, i < B → ∀ t, t < N → R (x i t) (x' i t))
    (hf : form = .df2 ∨ form = .tdf2) (hBN : B ≠ N) (hB : 0 < B) (hK : 0 < K) (hM : 0 < max P (K - 1)) (hN : 0 < N)
    (hk : FilterUnroll (max P (K - 1)) N k) (hk' : FilterUnroll (max P (K - 1)) N k') :
    ComparedStates R B N (max P (K - 1)) (Lpv.lfilter lpc b a (t2 B N x) (some zi) form .ssm k)
      (Lpv.lfilter lpc' b' a' (t2 B N x') (some zi') form .ssm k') := by
  rcases hf with rfl | rfl
  · have e : Lpv.lfilter lpc b a (t2 B N x) (some zi) .df2 .ssm k = _ := Lpv.lfilterWith_seq hb ha (.batched B x)
      (Lpv.ssmLfilter_tvdf2_of hb ha x hz (Or.inr hBN) hK hM hN (Lpv.recOn_filter _ _ hB hM hN hk))
    have e' : Lpv.lfilter lpc' b' a' (t2 B N x') (some zi') .df2 .ssm k' = _ := Lpv.lfilterWith_seq hb' ha' (.batched B x')
      (Lpv.ssmLfilter_tvdf2_of hb' ha' x' hz' (Or.inr hBN) hK hM hN (Lpv.recOn_filter _ _ hB hM hN hk'))
    rw [packed_batch_tv, packed_batch_tv, Option.isSome_some, if_pos rfl] at e e'
    refine ⟨_, _, _, _, e, e', fun i hi => ⟨fun n hn => h.sum fun j hj => h.mul (hqb i hi n hn j (Finset.mem_range.1 hj)) ?_, fun m hm => ?_⟩⟩
    · have := Finset.mem_range.1 hj
      exact h.tvSignal (N := N) hM (le_max_left _ _) (hqa i hi) (hr i hi) (hx i hi) _ (by omega) (by omega)
    · exact h.tvSignal (N := N) hM (le_max_left _ _) (hqa i hi) (hr i hi) (hx i hi) _ (by omega) (by omega)
  · have e : Lpv.lfilter lpc b a (t2 B N x) (some zi) .tdf2 .ssm k = _ := Lpv.lfilterWith_seq hb ha (.batched B x)
      (Lpv.ssmLfilter_tvtdf2_of hb ha x hz (Or.inr hBN) hK hM hN (Lpv.recOn_filter _ _ hB hM hN hk))
    have e' : Lpv.lfilter lpc' b' a' (t2 B N x') (some zi') .tdf2 .ssm k' = _ := Lpv.lfilterWith_seq hb' ha' (.batched B x')
      (Lpv.ssmLfilter_tvtdf2_of hb' ha' x' hz' (Or.inr hBN) hK hM hN (Lpv.recOn_filter _ _ hB hM hN hk'))
    rw [packed_batch_tv, packed_batch_tv, Option.isSome_some, if_pos rfl] at e e'
    refine ⟨_, _, _, _, e, e', fun i hi => ?_⟩
    have t := h.transposed (N := N) (K := K) (P := P) hM hK (b := fun t k => star (zext K (bv i t) k))
      (a := fun t k => star (zext P (av i t) k)) (b' := fun t k => star (zext K (bv' i t) k)) (a' := fun t k => star (zext P (av' i t) k))
      (z := z i) (z' := z' i) (x := x i) (x' := x' i)
      (fun t ht k hk => by rw [zext, zext, if_pos hk, if_pos hk]; exact hs _ _ (hqb i hi t ht k hk))
      (fun _ k hk => by rw [zext, zext, if_neg (by omega), if_neg (by omega), star_zero, star_zero]; exact ⟨rfl, rfl⟩)
      (fun t ht k hk => by rw [zext, zext, if_pos hk, if_pos hk, ← star_neg, ← star_neg]; exact hs _ _ (hqa i hi t ht k hk))
      (fun _ k hk => by rw [zext, zext, if_neg (by omega), if_neg (by omega), star_zero, star_zero]; exact ⟨rfl, rfl⟩) (hr i hi) (hx i hi)
    exact ⟨t.2, t.1 N le_rfl⟩

example := C75_lpv_lfilter_states comparison_abs (fun _ _ h => h) (B := 3) (N := 7) (K := 3) (P := 2) (form := .tdf2) (k := some 2)
  (k' := some 3) (x := fun i t => (i : ℤ) - t) (x' := fun i t => (i : ℤ) + t) Lpv.refLpc Lpv.refLpc (.shared fun t k => -((t : ℤ) * k))
  (.shared fun t k => ((t : ℤ) * k)) (.shared fun t k => ((t : ℤ) * k)) (.shared fun t k => -((t : ℤ) * k)) (.shared fun k => -(k : ℤ))
  (.full fun _ k => (k : ℤ)) (fun _ _ t _ k _ => by rw [abs_neg, abs_of_nonneg (by positivity)])
  (fun _ _ t _ k _ => by rw [abs_neg, neg_neg, abs_of_nonneg (by positivity)]) (fun _ _ k _ => by simp)
  (fun i _ t _ => abs_sub_le_iff.2 ⟨by omega, by omega⟩) (Or.inr rfl) (by decide) (by decide) (by decide) (by decide) (by decide)
  (by unfold FilterUnroll GoodUnroll FewPrimes; decide +kernel) (by unfold FilterUnroll GoodUnroll FewPrimes; decide +kernel)

/-- **C75, `lpv.lfilter`, backend `ssm`, form df1**. -/
theorem C75_lpv_lfilter_df1 (h : Comparison Q R) {B N K P : Nat} {b a : Tensor α} {b' a' : Tensor β} {bv av : Nat → Nat → Nat → α}
    {x : Nat → Nat → α} {bv' av' : Nat → Nat → Nat → β} {x' : Nat → Nat → β} {k k' : Option Int} (lpc : Lpv.Lpc α) (lpc' : Lpv.Lpc β)
    (hb : MatVals B N K b bv) (ha : MatVals B N P a av) (hb' : MatVals B N K b' bv') (ha' : MatVals B N P a' av')
    (hqb : ∀ i, i < B → ∀ t, t < N → ∀ k, k < K → Q (bv i t k) (bv' i t k))
    (hqa : ∀ i, i < B → ∀ t, t < N → ∀ k, k < P → Q (-av i t k) (-av' i t k)) (hx : ∀ i, i < B → ∀ t, t < N → R (x i t) (x' i t))
    (hB : 0 < B) (hK : 0 < K) (hM : 0 < max P (K - 1)) (hN : 0 < N)
    (hk : FilterUnroll (max P (K - 1)) N (some (k.getD 1))) (hk' : FilterUnroll (max P (K - 1)) N (some (k'.getD 1))) :
    ComparedCalls R B N (Lpv.lfilter lpc b a (t2 B N x) none .df1 .ssm k) (Lpv.lfilter lpc' b' a' (t2 B N x') none .df1 .ssm k') := by
  have e : Lpv.lfilter lpc b a (t2 B N x) none .df1 .ssm k = _ := Lpv.lfilterWith_seq (c := false) (M := 0) (zf := fun _ _ => 0) hb ha
    (.batched B x) (Lpv.ssmLfilter_tvdf1_of hb ha x none hK hM hN (Lpv.recOn_filter _ _ hB hM hN hk))
  have e' : Lpv.lfilter lpc' b' a' (t2 B N x') none .df1 .ssm k' = _ := Lpv.lfilterWith_seq (c := false) (M := 0) (zf := fun _ _ => 0) hb' ha'
    (.batched B x') (Lpv.ssmLfilter_tvdf1_of hb' ha' x' none hK hM hN (Lpv.recOn_filter _ _ hB hM hN hk'))
  rw [packed_batch_tv] at e e'
  exact ⟨_, _, _, _, e, e', fun i hi n hn => h.tvSignal hM (le_max_left _ _) (hqa i hi) (fun _ _ => h.zero)
    (fun t ht => h.taps (hqb i hi t ht) fun m hm => h.causal (hx i hi) (by omega)) n (by omega) (by omega)⟩

/-- **C75, `lpv.lfilter`, backend `torchlpc`**, forms df1, df2 and tdf1. -/
theorem C75_lpv_lfilter_torchlpc (h : Comparison Q R) (hs : ∀ a b, Q a b → Q (star a) (star b)) (h1 : Q 1 1) {B N K P : Nat}
    {b a : Tensor α} {b' a' : Tensor β} {bv av : Nat → Nat → Nat → α} {x : Nat → Nat → α} {bv' av' : Nat → Nat → Nat → β} {x' : Nat → Nat → β}
    {form : Form} {k k' : Option Int} {lpc : Lpv.Lpc α} {lpc' : Lpv.Lpc β} (hl : IsLpc lpc) (hl' : IsLpc lpc')
    (hb : MatVals B N K b bv) (ha : MatVals B N P a av) (hb' : MatVals B N K b' bv') (ha' : MatVals B N P a' av')
    (hqb : ∀ i, i < B → ∀ t, t < N → ∀ k, k < K → Q (bv i t k) (bv' i t k))
    (hqa : ∀ i, i < B → ∀ t, t < N → ∀ k, k < P → Q (-av i t k) (-av' i t k)) (hx : ∀ i, i < B → ∀ t, t < N → R (x i t) (x' i t))
    (hf : form = .df1 ∨ form = .df2 ∨ (form = .tdf1 ∧ 1 < K ∧ P ≤ N)) (hB : 0 < B) (hK : 0 < K) (hP : 0 < P) (hN : 0 < N) :
    ComparedCalls R B N (Lpv.lfilter lpc b a (t2 B N x) none form .torchlpc k)
      (Lpv.lfilter lpc' b' a' (t2 B N x') none form .torchlpc k') := by
  rcases hf with rfl | rfl | ⟨rfl, hK1, hPN⟩
  · have e := torchlpc_df1_out (u := k) hl hb ha (.batched B x) hB hK hP hN
    have e' := torchlpc_df1_out (u := k') hl' hb' ha' (.batched B x') hB hK hP hN
    rw [packed_batch_tv] at e e'
    exact ⟨_, _, _, _, e, e', fun i hi n hn => h.tvSignal hP le_rfl (hqa i hi) (fun _ _ => h.zero)
      (fun t ht => h.taps (hqb i hi t ht) fun m hm => h.causal (hx i hi) (by omega)) n (by omega) (by omega)⟩
  · have e := torchlpc_df2_out (u := k) hl hb ha (.batched B x) hB hK hP hN
    have e' := torchlpc_df2_out (u := k') hl' hb' ha' (.batched B x') hB hK hP hN
    rw [packed_batch_tv] at e e'
    refine ⟨_, _, _, _, e, e', fun i hi n hn => h.sum fun j hj => h.mul (hqb i hi n hn j (Finset.mem_range.1 hj)) ?_⟩
    have := Finset.mem_range.1 hj
    exact h.tvSignal (N := N) (by omega) (le_max_left _ _) (hqa i hi) (fun _ _ => h.zero) (hx i hi) _ (by omega) (by omega)
  · obtain ⟨M, rfl⟩ : ∃ M, K = M + 1 := ⟨K - 1, by omega⟩
    have e := Lpv.torchlpc_tdf1_out (u := k) hl hb ha (.batched B x) hB (by omega) hP hPN
    have e' := Lpv.torchlpc_tdf1_out (u := k') hl' hb' ha' (.batched B x') hB (by omega) hP hPN
    rw [packed_batch_tv] at e e'
    exact ⟨_, _, _, _, e, e', fun i hi n hn => tvConv_related h (fun t ht k hk => hs _ _ (hqb i hi t ht k (by omega))) fun t ht =>
      allpole_related h hs h1 hP (hqa i hi) (hx i hi) t ht⟩

example := C75_lpv_lfilter_torchlpc comparison_le (fun _ _ h => h) ⟨rfl, zero_le_one⟩ (B := 3) (N := 7) (K := 3) (P := 2) (form := .tdf1)
  (k := none) (k' := none) (x := fun i t => (i : ℤ) - t) (x' := fun i t => (i : ℤ) + t) Lpv.refLpc_isLpc Lpv.refLpc_isLpc
  (.shared fun t k => ((t : ℤ) * k)) (.shared fun t k => -((t : ℤ) * k)) (.shared fun t k => ((t : ℤ) * k))
  (.shared fun t k => -((t : ℤ) * k)) (fun _ _ _ _ _ _ => ⟨rfl, by positivity⟩) (fun _ _ _ _ _ _ => ⟨rfl, by rw [neg_neg]; positivity⟩)
  (fun _ _ _ _ => by omega) (Or.inr (Or.inr ⟨rfl, by decide, by decide⟩)) (by decide) (by decide) (by decide) (by decide)

example := C75_lpv_lfilter_df1 comparison_le (B := 3) (N := 7) (K := 3) (P := 2) (k := some 2) (k' := some 3) (x := fun i t => (i : ℤ) - t)
  (x' := fun i t => (i : ℤ) + t) Lpv.refLpc Lpv.refLpc
  (.shared fun t k => ((t : ℤ) * k)) (.shared fun t k => -((t : ℤ) * k)) (.shared fun t k => ((t : ℤ) * k))
  (.shared fun t k => -((t : ℤ) * k)) (fun _ _ _ _ _ _ => ⟨rfl, by positivity⟩) (fun _ _ _ _ _ _ => ⟨rfl, by rw [neg_neg]; positivity⟩)
  (fun _ _ _ _ => by omega) (by decide) (by decide) (by decide) (by decide)
  (by unfold FilterUnroll GoodUnroll FewPrimes; decide +kernel) (by unfold FilterUnroll GoodUnroll FewPrimes; decide +kernel)

/-- **C75, monotone filters**: if the numerator is not negative and the feedback coefficients are not positive, a larger signal gives a
larger output, in every form of `lti.lfilter`. -/
theorem C75_monotone {K₀ : Type} [CommRing K₀] [LinearOrder K₀] [IsStrictOrderedRing K₀] [StarRing K₀] [TrivialStar K₀] {B N K P : Nat}
    {b a : Tensor K₀} {bv av x x' : Nat → Nat → K₀} {form : Form} {k k' : Option Int} (hb : Rows B K b bv) (ha : Rows B P a av)
    (hb0 : ∀ i, i < B → ∀ k, k < K → 0 ≤ bv i k) (ha0 : ∀ i, i < B → ∀ k, k < P → av i k ≤ 0)
    (hx : ∀ i, i < B → ∀ t, t < N → x i t ≤ x' i t) (hf : form ≠ .other) (hB : 0 < B) (hK : 0 < K) (hM : 0 < max P (K - 1)) (hN : 0 < N)
    (hk : ∀ i, k = some i → 1 ≤ i) (hk' : ∀ i, k' = some i → 1 ≤ i) :
    ComparedCalls (fun u v : K₀ => u ≤ v) B N (Lti.lfilter b a (t2 B N x) none form k) (Lti.lfilter b a (t2 B N x') none form k') :=
  C75_lti_lfilter comparison_le (fun a b h => by rw [star_trivial, star_trivial]; exact h) hb ha hb ha
    (fun i hi k hk => ⟨rfl, hb0 i hi k hk⟩) (fun i hi k hk => ⟨rfl, neg_nonneg.2 (ha0 i hi k hk)⟩) hx hf hB hK hM hN hk hk'

example := C75_monotone (B := 3) (N := 7) (K := 3) (P := 2) (form := .tdf1) (k := some 2) (k' := none)
  (x := fun i t => (i : ℤ) - t) (x' := fun i t => (i : ℤ) + t) (.shared fun k => (k : ℤ)) (.shared fun k => -(k : ℤ))
  (fun _ _ _ _ => by positivity) (fun _ _ _ _ => by simp) (fun _ _ _ _ => by omega) (by simp) (by decide) (by decide) (by decide) (by decide)
  (by simp) (by simp)

/-- The sign matters: with a positive feedback coefficient (an alternating response) a larger signal gives a smaller output. -/
theorem C75_not_monotone :
    at? ((Lti.lfilter (t1 1 fun _ => (1 : ℤ)) (t1 1 fun _ => 1) (t2 1 2 fun _ _ => 0) none .df2 none).map Prod.fst) [0, 1] = some 0 ∧
    at? ((Lti.lfilter (t1 1 fun _ => (1 : ℤ)) (t1 1 fun _ => 1) (t2 1 2 fun _ t => if t = 0 then 1 else 0) none .df2 none).map Prod.fst)
      [0, 1] = some (-1) := by decide +kernel

end Props
