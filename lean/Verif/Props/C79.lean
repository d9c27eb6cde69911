import Verif.Props.C74
import Verif.Props.C05
import Verif.Props.C07

/-!
# C79: layouts

Coefficients, matrices and states may be given once for all batch items or once per item.  Two arguments that hold the same values in
different layouts give the same result, whatever the unroll factors.
-/

namespace Props
open Torch Torch.Tensor Spec Phil
open Phil.Lti (Form ok_pair conjA conjB conjIf)
variable {α : Type} [CommRing α] [StarRing α]

/-- **C79, `lti.linear_recurrence`**. -/
theorem C79_lti_linear_recurrence {B N : Nat} {a a' i i' : Tensor α} {av iv : Nat → α} (x : Nat → Nat → α) {k k' : Int}
    (ha : BatchVals B a av) (ha' : BatchVals B a' av) (hi : BatchVals B i iv) (hi' : BatchVals B i' iv) (hN : 0 < N) (hk : 1 ≤ k)
    (hk' : 1 ≤ k') : Lti.linearRecurrence a i (t2 B N x) k = Lti.linearRecurrence a' i' (t2 B N x) k' :=
  (C01_linear_recurrence x k ha hi hN hk).trans (C01_linear_recurrence x k' ha' hi' hN hk').symm

example := C79_lti_linear_recurrence (B := 3) (N := 7) (k := 2) (k' := 3) (fun i t => (i : ℤ) - t) (.scalar (2 : ℤ)) (.full fun _ => 2)
  (.full fun _ => 1) (.scalar 1) (by decide) (by decide) (by decide)

/-- **C79, `lpv.linear_recurrence`**. -/
theorem C79_lpv_linear_recurrence {B N : Nat} {a a' i i' : Tensor α} {av : Nat → Nat → α} {iv : Nat → α} (x : Nat → Nat → α) {k k' : Int}
    (ha : TimeVals B N a av) (ha' : TimeVals B N a' av) (hi : BatchVals B i iv) (hi' : BatchVals B i' iv) (hN : 0 < N) (hk : 1 ≤ k)
    (hk' : 1 ≤ k') : Lpv.linearRecurrence a i (t2 B N x) k = Lpv.linearRecurrence a' i' (t2 B N x) k' :=
  (C02_linear_recurrence x k ha hi hN hk).trans (C02_linear_recurrence x k' ha' hi' hN hk').symm

example := C79_lpv_linear_recurrence (B := 3) (N := 7) (k := 2) (k' := 3) (fun i t => (i : ℤ) - t) (.shared fun t => (t : ℤ))
  (.full fun _ t => (t : ℤ)) (.full fun _ => 1) (.scalar 1) (by decide) (by decide) (by decide)

omit [StarRing α] in
/-- **C79, `lti.state_space_recursion`**. -/
theorem C79_lti_state_space_recursion {B N M : Nat} {A A' X X' : Tensor α} {Av x : Nat → Nat → Nat → α} (z : Nat → Nat → α) {k k' : Int}
    (hA : MatVals B M M A Av) (hA' : MatVals B M M A' Av) (hX : Drive B N M X x) (hX' : Drive B N M X' x) (hM : 0 < M) (hN : 0 < N)
    (hk : 1 ≤ k) (hk' : 1 ≤ k') :
    Lti.stateSpaceRecursion A (t2 B M z) X k none = Lti.stateSpaceRecursion A' (t2 B M z) X' k' none :=
  (C05_state_space_recursion hA hX z k hM hN hk).trans (C05_state_space_recursion hA' hX' z k' hM hN hk').symm

example := C79_lti_state_space_recursion (B := 3) (N := 7) (M := 2) (k := 2) (k' := 3) (fun i m => (i : ℤ) - m)
  (.shared fun i j => (i : ℤ) + j) (.batched fun _ i j => (i : ℤ) + j) (.scalar fun b t => (b : ℤ) * t)
  (.full fun b t m => if m = 0 then (b : ℤ) * t else 0) (by decide) (by decide) (by decide) (by decide)

omit [StarRing α] in
/-- **C79, `lpv.state_space_recursion`**. -/
theorem C79_lpv_state_space_recursion {B N M : Nat} {A A' X X' : Tensor α} {Av : Nat → Nat → Nat → Nat → α} {x : Nat → Nat → Nat → α}
    (z : Nat → Nat → α) {k k' : Int} (hA : MatSeq B N M M A Av) (hA' : MatSeq B N M M A' Av) (hX : Drive B N M X x)
    (hX' : Drive B N M X' x) (hB : 0 < B) (hM : 0 < M) (hN : 0 < N) (hk : 1 ≤ k ∧ (k ≤ 2 ∨ (N : Int) ≤ k ∨ (k.toNat - 1).Prime))
    (hk' : 1 ≤ k' ∧ (k' ≤ 2 ∨ (N : Int) ≤ k' ∨ (k'.toNat - 1).Prime)) :
    Lpv.stateSpaceRecursion A (t2 B M z) X k none = Lpv.stateSpaceRecursion A' (t2 B M z) X' k' none :=
  (C07_state_space_recursion_partial hA hX z k hB hM hN hk.1 hk.2).trans
    (C07_state_space_recursion_partial hA' hX' z k' hB hM hN hk'.1 hk'.2).symm

example := C79_lpv_state_space_recursion (B := 3) (N := 7) (M := 2) (k := 2) (k' := 1) (fun i m => (i : ℤ) - m)
  (.shared fun t i j => (i : ℤ) + j * t) (.batched fun _ t i j => (i : ℤ) + j * t) (.scalar fun b t => (b : ℤ) * t)
  (.full fun b t m => if m = 0 then (b : ℤ) * t else 0) (by decide) (by decide) (by decide) (by decide) (by decide)

omit [StarRing α] in
/-- States are determined by their recursion. -/
theorem states_unique {M : Nat} {A : Nat → Nat → Nat → α} {z : Nat → α} {v s s' : Nat → Nat → α}
    (h : ∀ i, s 0 i = z i ∧ ∀ t, s (t + 1) i = ∑ k ∈ Finset.range M, A t i k * s t k + v t i)
    (h' : ∀ i, s' 0 i = z i ∧ ∀ t, s' (t + 1) i = ∑ k ∈ Finset.range M, A t i k * s' t k + v t i) : s = s' := by
  funext t
  induction t with
  | zero => funext i; rw [(h i).1, (h' i).1]
  | succ t ih => funext i; rw [(h i).2, (h' i).2, ih]

/-- **C79, `lti.state_space`**: layouts of `A`, of the input with its matrix `B`, of `C`, of `D` and of the initial state. -/
theorem C79_lti_state_space {B N M : Nat} {A A' x x' : Tensor α} {Bm Bm' C C' D D' zi zi' : Option (Tensor α)} {q : Option Nat}
    {Av v d : Nat → Nat → Nat → α} {r : Nat → (Nat → α) → Nat → α} {z : Nat → Nat → α} {k k' : Option Int}
    (hA : MatVals B M M A Av) (hA' : MatVals B M M A' Av) (hB : LtiInput B N M Bm x v) (hB' : LtiInput B N M Bm' x' v)
    (hC : LtiReadout B M C q r) (hC' : LtiReadout B M C' q r) (hD : LtiFeed B N D x q d) (hD' : LtiFeed B N D' x' q d)
    (hz : InitState B M zi z) (hz' : InitState B M zi' z) (hs : zi.isSome = zi'.isSome) (hM : 0 < M) (hN : 0 < N)
    (hk : ∀ i, k = some i → 1 ≤ i) (hk' : ∀ i, k' = some i → 1 ≤ i) :
    Lti.stateSpace A x Bm C D zi k none = Lti.stateSpace A' x' Bm' C' D' zi' k' none := by
  obtain ⟨s, h, e⟩ := C08_state_space_partial hA hB hC hD hz hM hN hk
  obtain ⟨s', h', e'⟩ := C08_state_space_partial hA' hB' hC' hD' hz' hM hN hk'
  obtain rfl : s = s' := funext fun b => states_unique (h b) (h' b)
  rw [e, e', hs]

example := C79_lti_state_space (B := 3) (N := 7) (M := 2) (k := some 2) (k' := none) (.shared fun i j => (i : ℤ) + j)
  (.batched fun _ i j => (i : ℤ) + j) (.vec (fun k => (k : ℤ)) fun b t => (b : ℤ) * t) (.batchVec (fun _ k => (k : ℤ)) fun b t => (b : ℤ) * t)
  (.vec fun m => (m : ℤ) + 1) (.batchVec fun _ m => (m : ℤ) + 1) (.scalar 3 _) (.batch (fun _ => 3) _) (.shared fun m => (m : ℤ))
  (.full fun _ m => (m : ℤ)) rfl (by decide) (by decide) (by simp) (by simp)

/-- **C79, `lpv.state_space`**. -/
theorem C79_lpv_state_space {B N M : Nat} {A A' x x' : Tensor α} {Bm Bm' C C' D D' zi zi' : Option (Tensor α)} {q : Option Nat}
    {Av : Nat → Nat → Nat → Nat → α} {v d : Nat → Nat → Nat → α} {r : Nat → Nat → (Nat → α) → Nat → α} {z : Nat → Nat → α} {k k' : Option Int}
    (hA : MatSeq B N M M A Av) (hA' : MatSeq B N M M A' Av) (hB : LpvInput B N M Bm x v) (hB' : LpvInput B N M Bm' x' v)
    (hC : LpvReadout B N M C q r) (hC' : LpvReadout B N M C' q r) (hD : LpvFeed B N D x q d) (hD' : LpvFeed B N D' x' q d)
    (hz : InitState B M zi z) (hz' : InitState B M zi' z) (hs : zi.isSome = zi'.isSome) (hB0 : 0 < B) (hM : 0 < M) (hN : 0 < N)
    (hk : FilterUnroll M N k) (hk' : FilterUnroll M N k') :
    Lpv.stateSpace A x Bm C D zi k none = Lpv.stateSpace A' x' Bm' C' D' zi' k' none := by
  obtain ⟨s, h, e⟩ := C09_state_space_partial hA hB hC hD hz hB0 hM hN hk
  obtain ⟨s', h', e'⟩ := C09_state_space_partial hA' hB' hC' hD' hz' hB0 hM hN hk'
  obtain rfl : s = s' := funext fun b => states_unique (h b) (h' b)
  rw [e, e', hs]

example := C79_lpv_state_space (B := 3) (N := 7) (M := 2) (k := some 2) (k' := some 3) (.shared fun t i j => (i : ℤ) + j * t)
  (.batched fun _ t i j => (i : ℤ) + j * t) (.vec (fun k => (k : ℤ)) fun b t => (b : ℤ) * t)
  (.batchVec (fun _ k => (k : ℤ)) (fun b t => (b : ℤ) * t) (by decide)) (.vec fun m => (m : ℤ) + 1)
  (.batchTimeVec (fun _ _ m => (m : ℤ) + 1) (by decide)) (.scalar 3 _) (.batch (fun _ => 3) _ (by decide)) (.shared fun m => (m : ℤ))
  (.full fun _ m => (m : ℤ)) rfl (by decide) (by decide) (by decide) (by unfold FilterUnroll GoodUnroll FewPrimes; decide +kernel)
  (by unfold FilterUnroll GoodUnroll FewPrimes; decide +kernel)

/-- **C79 fails without `B ≠ N`**: two numbers `B`, one per item, are `1` and `2`.  Repeated over time they give item `1` the state `2` at
time `1`; given once per item, for two samples, they are read as one number per sample, and the state is `1`. -/
theorem C79_not_batch_eq_length :
    at? ((Lpv.stateSpace (t3 2 1 1 fun _ _ _ => (0 : ℤ)) (t2 2 2 fun _ _ => 1) (some (t3 2 2 1 fun b _ _ => (b : ℤ) + 1))
      (some (t1 1 fun _ => 1)) none none (some 1) none).map Prod.fst) [1, 1] = some 2 ∧
    at? ((Lpv.stateSpace (t3 2 1 1 fun _ _ _ => (0 : ℤ)) (t2 2 2 fun _ _ => 1) (some (t2 2 1 fun b _ => (b : ℤ) + 1))
      (some (t1 1 fun _ => 1)) none none (some 1) none).map Prod.fst) [1, 1] = some 1 := by
  constructor <;> decide +kernel

/-- **C79, `lti.lfilter`**, every form, from rest. -/
theorem C79_lti_lfilter {B N K P : Nat} {b a b' a' : Tensor α} {bv av : Nat → Nat → α} (x : Nat → Nat → α) {form : Form} {k k' : Option Int}
    (hb : Rows B K b bv) (ha : Rows B P a av) (hb' : Rows B K b' bv) (ha' : Rows B P a' av) (hf : form ≠ .other) (hB : 0 < B) (hK : 0 < K)
    (hM : 0 < max P (K - 1)) (hN : 0 < N) (hk : ∀ i, k = some i → 1 ≤ i) (hk' : ∀ i, k' = some i → 1 ≤ i) :
    Lti.lfilter b a (t2 B N x) none form k = Lti.lfilter b' a' (t2 B N x) none form k' := by
  obtain ⟨y, y0, hy, e⟩ := Lti.lfilter_diff hb ha (.batched B x) hf (Or.inl rfl) hB hK hM hN hk
  obtain ⟨y', y0', hy', e'⟩ := Lti.lfilter_diff hb' ha' (.batched B x) hf (Or.inl rfl) hB hK hM hN hk'
  obtain rfl : y = y' := funext fun i => diffEq_unique (fun n hn => (y0 i n hn).trans (y0' i n hn).symm) (fun n _ => hy i n) fun n _ => hy' i n
  rw [e, e', packed_batch, packed_batch]

example := C79_lti_lfilter (B := 3) (N := 7) (K := 3) (P := 2) (form := .tdf1) (k := some 2) (k' := none) (fun i t => (i : ℤ) - t)
  (.shared fun k => (k : ℤ)) (.shared fun k => (k : ℤ) + 1) (.batched fun _ k => (k : ℤ)) (.shared fun k => (k : ℤ) + 1) (by simp)
  (by decide) (by decide) (by decide) (by decide) (by simp) (by simp)

/-- **C79, `lti.lfilter` with a state**, forms df2 and tdf2. -/
theorem C79_lti_lfilter_states {B N K P : Nat} {b a b' a' zi zi' : Tensor α} {bv av z : Nat → Nat → α} (x : Nat → Nat → α) {form : Form}
    {k k' : Option Int} (hb : Rows B K b bv) (ha : Rows B P a av) (hb' : Rows B K b' bv) (ha' : Rows B P a' av)
    (hz : InitState B (max P (K - 1)) (some zi) z) (hz' : InitState B (max P (K - 1)) (some zi') z)
    (hf : form = .df2 ∨ form = .tdf2) (hK : 0 < K) (hM : 0 < max P (K - 1)) (hN : 0 < N) (hk : ∀ i, k = some i → 1 ≤ i)
    (hk' : ∀ i, k' = some i → 1 ≤ i) :
    Lti.lfilter b a (t2 B N x) (some zi) form k = Lti.lfilter b' a' (t2 B N x) (some zi') form k' := by
  rcases hf with rfl | rfl
  · rw [Lti.lfilter_df2 hb ha (.batched B x) hz hK hM hN hk, Lti.lfilter_df2 hb' ha' (.batched B x) hz' hK hM hN hk']
    simp only [packed_batch]
  · rw [Lti.lfilter_tdf2 hb ha (.batched B x) hz hK hM hN hk, Lti.lfilter_tdf2 hb' ha' (.batched B x) hz' hK hM hN hk']
    simp only [packed_batch]

example := C79_lti_lfilter_states (B := 3) (N := 7) (K := 3) (P := 2) (form := .tdf2) (k := some 2) (k' := none) (fun i t => (i : ℤ) - t)
  (.shared fun k => (k : ℤ)) (.shared fun k => (k : ℤ) + 1) (.batched fun _ k => (k : ℤ)) (.shared fun k => (k : ℤ) + 1)
  (.shared fun m => (m : ℤ)) (.full fun _ m => (m : ℤ)) (by simp) (by decide) (by decide) (by decide) (by simp) (by simp)

/-- **C79, `lpv.lfilter`, backend `ssm`**, forms df2 and tdf2 with a state. -/
theorem C79_lpv_lfilter_states {B N K P : Nat} {b a b' a' zi zi' : Tensor α} {bv av : Nat → Nat → Nat → α} {z : Nat → Nat → α}
    (x : Nat → Nat → α) {form : Form} {k k' : Option Int} (lpc lpc' : Lpv.Lpc α) (hb : MatVals B N K b bv) (ha : MatVals B N P a av)
    (hb' : MatVals B N K b' bv) (ha' : MatVals B N P a' av)
    (hz : InitState B (max P (K - 1)) (some zi) z) (hz' : InitState B (max P (K - 1)) (some zi') z)
    (hf : form = .df2 ∨ form = .tdf2) (hBN : B ≠ N) (hB : 0 < B) (hK : 0 < K) (hM : 0 < max P (K - 1)) (hN : 0 < N)
    (hk : FilterUnroll (max P (K - 1)) N k) (hk' : FilterUnroll (max P (K - 1)) N k') :
    Lpv.lfilter lpc b a (t2 B N x) (some zi) form .ssm k = Lpv.lfilter lpc' b' a' (t2 B N x) (some zi') form .ssm k' := by
  rcases hf with rfl | rfl
  · have e : Lpv.lfilter lpc b a (t2 B N x) (some zi) .df2 .ssm k = _ := Lpv.lfilterWith_seq hb ha (.batched B x)
      (Lpv.ssmLfilter_tvdf2_of hb ha x hz (Or.inr hBN) hK hM hN (Lpv.recOn_filter _ _ hB hM hN hk))
    have e' : Lpv.lfilter lpc' b' a' (t2 B N x) (some zi') .df2 .ssm k' = _ := Lpv.lfilterWith_seq hb' ha' (.batched B x)
      (Lpv.ssmLfilter_tvdf2_of hb' ha' x hz' (Or.inr hBN) hK hM hN (Lpv.recOn_filter _ _ hB hM hN hk'))
    rw [e, e']
    simp only [packed_batch_tv, Option.isSome_some]
  · have e : Lpv.lfilter lpc b a (t2 B N x) (some zi) .tdf2 .ssm k = _ := Lpv.lfilterWith_seq hb ha (.batched B x)
      (Lpv.ssmLfilter_tvtdf2_of hb ha x hz (Or.inr hBN) hK hM hN (Lpv.recOn_filter _ _ hB hM hN hk))
    have e' : Lpv.lfilter lpc' b' a' (t2 B N x) (some zi') .tdf2 .ssm k' = _ := Lpv.lfilterWith_seq hb' ha' (.batched B x)
      (Lpv.ssmLfilter_tvtdf2_of hb' ha' x hz' (Or.inr hBN) hK hM hN (Lpv.recOn_filter _ _ hB hM hN hk'))
    rw [e, e']
    simp only [packed_batch_tv, Option.isSome_some]

example := C79_lpv_lfilter_states (B := 3) (N := 7) (K := 3) (P := 2) (form := .tdf2) (k := some 2) (k' := some 3) (fun i t => (i : ℤ) - t)
  Lpv.refLpc Lpv.refLpc (.shared fun t k => (t : ℤ) * k) (.shared fun t k => (t : ℤ) * k + 1) (.batched fun _ t k => (t : ℤ) * k)
  (.shared fun t k => (t : ℤ) * k + 1) (.shared fun m => (m : ℤ)) (.full fun _ m => (m : ℤ)) (by simp) (by decide) (by decide) (by decide)
  (by decide) (by decide) (by unfold FilterUnroll GoodUnroll FewPrimes; decide +kernel)
  (by unfold FilterUnroll GoodUnroll FewPrimes; decide +kernel)

/-- **C79, `lpv.lfilter`, backend `torchlpc`**, forms df1, df2 and tdf1, from rest. -/
theorem C79_lpv_lfilter_torchlpc {B N K P : Nat} {b a b' a' : Tensor α} {bv av : Nat → Nat → Nat → α} (x : Nat → Nat → α) {form : Form}
    {k k' : Option Int} {lpc : Lpv.Lpc α} (hl : IsLpc lpc) (hb : MatVals B N K b bv) (ha : MatVals B N P a av)
    (hb' : MatVals B N K b' bv) (ha' : MatVals B N P a' av) (hf : form = .df1 ∨ form = .df2 ∨ (form = .tdf1 ∧ 1 < K ∧ P ≤ N))
    (hB : 0 < B) (hK : 0 < K) (hP : 0 < P) (hN : 0 < N) :
    Lpv.lfilter lpc b a (t2 B N x) none form .torchlpc k = Lpv.lfilter lpc b' a' (t2 B N x) none form .torchlpc k' := by
  rcases hf with rfl | rfl | ⟨rfl, hK1, hPN⟩
  · rw [torchlpc_df1_out hl hb ha (.batched B x) hB hK hP hN, torchlpc_df1_out hl hb' ha' (.batched B x) hB hK hP hN]
    simp only [packed_batch_tv]
  · rw [torchlpc_df2_out hl hb ha (.batched B x) hB hK hP hN, torchlpc_df2_out hl hb' ha' (.batched B x) hB hK hP hN]
    simp only [packed_batch_tv]
  · obtain ⟨M, rfl⟩ : ∃ M, K = M + 1 := ⟨K - 1, by omega⟩
    rw [Lpv.torchlpc_tdf1_out hl hb ha (.batched B x) hB (by omega) hP hPN, Lpv.torchlpc_tdf1_out hl hb' ha' (.batched B x) hB (by omega) hP hPN]
    simp only [packed_batch_tv]

example := C79_lpv_lfilter_torchlpc (B := 3) (N := 7) (K := 3) (P := 2) (form := .tdf1) (k := none) (k' := none) (fun i t => (i : ℤ) - t)
  Lpv.refLpc_isLpc (.shared fun t k => (t : ℤ) * k) (.shared fun t k => (t : ℤ) * k + 1) (.batched fun _ t k => (t : ℤ) * k)
  (.batched fun _ t k => (t : ℤ) * k + 1) (Or.inr (Or.inr ⟨rfl, by decide, by decide⟩)) (by decide) (by decide) (by decide) (by decide)

/-- **C79, `comb_filter`**, from rest. -/
theorem C79_comb_filter {B N D : Nat} {a a' : Tensor α} {av : Nat → α} (x : Nat → Nat → α) {k k' : Int} (ha : PerItem B a av)
    (ha' : PerItem B a' av) (hD : 1 ≤ D) (hN : 0 < N) (hk : 1 ≤ k) (hk' : 1 ≤ k') :
    Lti.combFilter true a D (t2 B N x) none k = Lti.combFilter true a' D (t2 B N x) none k' := by
  obtain ⟨y, y0, hy, e⟩ := C19_without_state_partial x ha hD hN hk
  obtain ⟨y', y0', hy', e'⟩ := C19_without_state_partial x ha' hD hN hk'
  have h : ∀ i (n : Nat), y i n = y' i n := by
    intro i n
    induction n using Nat.strong_induction_on with
    | _ n ih =>
      rw [hy, hy']
      by_cases hc : D ≤ n
      · rw [show (n : Int) - D = ((n - D : Nat) : Int) by omega, ih _ (by omega)]
      · have e1 := y0 i (D - n - 1)
        have e2 := y0' i (D - n - 1)
        rw [show (-1 - ((D - n - 1 : Nat) : Int)) = (n : Int) - D by omega] at e1 e2
        rw [e1, e2]
  rw [e, e', t2_congr rfl rfl fun i n _ _ => h i n]

example := C79_comb_filter (B := 3) (N := 7) (D := 2) (k := 2) (k' := 3) (fun i t => (i : ℤ) - t) (.scalar (2 : ℤ)) (.full fun _ => 2)
  (by decide) (by decide) (by decide) (by decide)

end Props
