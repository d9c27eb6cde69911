import Verif.Proof.Adjoint
import Verif.Props.C01
import Verif.Props.C02
import Verif.Props.C08
import Verif.Props.C09
import Verif.Props.C19

/-!
# C74: transposed filters are transposes

`TransposedCalls` (Verif/Spec/Adjoint.lean): the filter of the second call, run backwards in time, is the conjugate transpose of the
filter of the first.  This is what the name "transposed form" promises, and what the backward pass of a filter computes.  For
time-varying filters the second call gets the coefficients in reversed order of time.
-/

namespace Props
open Torch Torch.Tensor Spec Phil
open Phil.Lti (Form ok_pair conjA conjB conjIf)
variable {α : Type} [CommRing α] [StarRing α]

omit [StarRing α] in
/-- A signal with a batch axis gives one. -/
theorem packed_batch {B N : Nat} (x : Nat → Nat → α) (b a : Tensor α) (zi : Option (Tensor α)) {M : Nat} (y : Nat → Nat → α) :
    packed (allFlat (t2 B N x) b a zi) B M y = t2 B M y := by
  rw [packed, allFlat, if_neg]
  exact fun h => by simpa using (of_decide_eq_true h).1

omit [StarRing α] in
theorem packed_batch_tv {B N : Nat} (x : Nat → Nat → α) (b a : Tensor α) (zi : Option (Tensor α)) {M : Nat} (y : Nat → Nat → α) :
    packed (allFlatTv (t2 B N x) b a zi) B M y = t2 B M y := by
  rw [packed, allFlatTv, if_neg]
  exact fun h => by simpa using (of_decide_eq_true h).1

/-- Flags of conjugation of a form and of its transpose are opposite. -/
theorem form_opposite {form form' : Form} (hf : form = .df1 ∧ form' = .tdf1 ∨ form = .df2 ∧ form' = .tdf2 ∨
    form = .tdf1 ∧ form' = .df1 ∨ form = .tdf2 ∧ form' = .df2) : conjB form' = !conjB form ∧ conjA form' = !conjA form := by
  rcases hf with ⟨rfl, rfl⟩ | ⟨rfl, rfl⟩ | ⟨rfl, rfl⟩ | ⟨rfl, rfl⟩ <;> exact ⟨rfl, rfl⟩

/-- **C74, `lti.fir`**: `transpose=True` gives the transpose of the filter. -/
theorem C74_lti_fir {B M N : Nat} (b x u : Nat → Nat → α) (hB : 0 < B) (hM : 0 < M) (hN : 0 < N) :
    TransposedCalls B N x u (Lti.fir (t2 B (M + 1) b) (t2 B N x) none false) (Lti.fir (t2 B (M + 1) b) (t2 B N u) none true) := by
  refine ⟨_, _, _, _, Lti.fir_direct_none b x hB hN, Lti.fir_transpose_none b u hB hN hM, fun i _ => ?_⟩
  have e : ∀ (c x : Nat → α), (fun t : Nat => taps (M + 1) c (causal x) t) = lagD (M + 1) (fun _ => c) x := fun c x =>
    funext fun t => lagD_causal _ (fun _ => c) _ _
  rw [e, e]
  exact pairing_lag N (M + 1) (fun n _ j => rfl) _ _

example := C74_lti_fir (B := 3) (M := 2) (N := 7) (fun i k => (i : ℤ) + k) (fun i t => (i : ℤ) * t) (fun i t => (i : ℤ) - t)
  (by decide) (by decide) (by decide)

/-- **C74, `lti.lfilter`**: the forms tdf1 and tdf2 are the transposes of df1 and df2 and the other way round, with complex coefficients
as well (C46: the forms differ in what they conjugate). -/
theorem C74_lti_lfilter {B N K P : Nat} {b a : Tensor α} {bv av : Nat → Nat → α} (x u : Nat → Nat → α) {form form' : Form}
    {k k' : Option Int} (hb : Rows B K b bv) (ha : Rows B P a av)
    (hf : form = .df1 ∧ form' = .tdf1 ∨ form = .df2 ∧ form' = .tdf2 ∨ form = .tdf1 ∧ form' = .df1 ∨ form = .tdf2 ∧ form' = .df2)
    (hB : 0 < B) (hK : 0 < K) (hM : 0 < max P (K - 1)) (hN : 0 < N) (hk : ∀ i, k = some i → 1 ≤ i) (hk' : ∀ i, k' = some i → 1 ≤ i) :
    TransposedCalls B N x u (Lti.lfilter b a (t2 B N x) none form k) (Lti.lfilter b a (t2 B N u) none form' k') := by
  have h1 : form ≠ .other := by rcases hf with ⟨rfl, -⟩ | ⟨rfl, -⟩ | ⟨rfl, -⟩ | ⟨rfl, -⟩ <;> exact fun h => by cases h
  have h2 : form' ≠ .other := by rcases hf with ⟨-, rfl⟩ | ⟨-, rfl⟩ | ⟨-, rfl⟩ | ⟨-, rfl⟩ <;> exact fun h => by cases h
  obtain ⟨y, y0, hy, e⟩ := Lti.lfilter_diff hb ha (.batched B x) h1 (Or.inl rfl) hB hK hM hN hk
  obtain ⟨w, w0, hw, e'⟩ := Lti.lfilter_diff hb ha (.batched B u) h2 (Or.inl rfl) hB hK hM hN hk'
  rw [packed_batch] at e e'
  refine ⟨_, _, _, _, e, e', fun i _ => ?_⟩
  obtain ⟨f1, f2⟩ := form_opposite hf
  refine pairing_diff hN (y0 i) (hy i) (w0 i) ?_
  rw [← f1, ← f2]
  exact hw i

example := C74_lti_lfilter (B := 3) (N := 7) (K := 3) (P := 2) (form := .df2) (form' := .tdf2) (k := some 2) (k' := none)
  (fun i t => (i : ℤ) * t) (fun i t => (i : ℤ) - t) (.batched fun i k => (i : ℤ) + k) (.batched fun i k => (k : ℤ) - i)
  (by simp) (by decide) (by decide) (by decide) (by decide) (by simp) (by simp)

/-- **C74, real coefficients**: with constant real coefficients any two forms are transposes of each other. -/
theorem C74_lti_lfilter_real {B N K P : Nat} {b a : Tensor α} {bv av : Nat → Nat → α} (x u : Nat → Nat → α) {form form' : Form}
    {k k' : Option Int} (hs : ∀ c : α, star c = c) (hb : Rows B K b bv) (ha : Rows B P a av)
    (hf : form ≠ .other) (hf' : form' ≠ .other)
    (hB : 0 < B) (hK : 0 < K) (hM : 0 < max P (K - 1)) (hN : 0 < N) (hk : ∀ i, k = some i → 1 ≤ i) (hk' : ∀ i, k' = some i → 1 ≤ i) :
    TransposedCalls B N x u (Lti.lfilter b a (t2 B N x) none form k) (Lti.lfilter b a (t2 B N u) none form' k') := by
  obtain ⟨y, y0, hy, e⟩ := Lti.lfilter_diff hb ha (.batched B x) hf (Or.inl rfl) hB hK hM hN hk
  obtain ⟨w, w0, hw, e'⟩ := Lti.lfilter_diff hb ha (.batched B u) hf' (Or.inl rfl) hB hK hM hN hk'
  rw [packed_batch] at e e'
  refine ⟨_, _, _, _, e, e', fun i _ => ?_⟩
  have h : ∀ (c : Bool) (f : Nat → α), conjIf c f = f := fun c f => by
    unfold conjIf; split_ifs
    · exact funext fun k => hs _
    · rfl
  refine pairing_diff (c := true) (d := true) (b := bv i) (a := av i) (K := K) (P := P) hN (y0 i) ?_ (w0 i) ?_
  · simpa only [h] using hy i
  · simpa only [h] using hw i

example := C74_lti_lfilter_real (α := ℤ) (B := 3) (N := 7) (K := 3) (P := 2) (form := .df2) (form' := .df1) (k := some 2) (k' := none)
  (fun i t => (i : ℤ) * t) (fun i t => (i : ℤ) - t) (fun _ => rfl) (.batched fun i k => (i : ℤ) + k) (.batched fun i k => (k : ℤ) - i)
  (by simp) (by simp) (by decide) (by decide) (by decide) (by decide) (by simp) (by simp)

/-- **C74, `comb_filter`**: the transpose has the conjugate coefficient. -/
theorem C74_comb_filter {B N D : Nat} {a a' : Tensor α} {av : Nat → α} (x u : Nat → Nat → α) {k k' : Int}
    (ha : PerItem B a av) (ha' : PerItem B a' fun i => star (av i)) (hD : 1 ≤ D) (hN : 0 < N) (hk : 1 ≤ k) (hk' : 1 ≤ k') :
    TransposedCalls B N x u (Lti.combFilter true a D (t2 B N x) none k) (Lti.combFilter true a' D (t2 B N u) none k') := by
  obtain ⟨y, y0, hy, e⟩ := C19_without_state_partial x ha hD hN hk
  obtain ⟨w, w0, hw, e'⟩ := C19_without_state_partial u ha' hD hN hk'
  refine ⟨_, _, _, _, e, e', fun i _ => ?_⟩
  have n0 : ∀ {y : Nat → Int → α}, (∀ i m, y i (-1 - (m : Nat)) = 0) → ∀ i n, n < 0 → y i n = 0 := fun h i n hn => by
    have := h i (-1 - n).toNat
    rwa [show (-1 - ((-1 - n).toNat : Nat) : Int) = n by omega] at this
  have s : ∀ (c : α) {y : Int → α} (_ : ∀ n, n < 0 → y n = 0) (n : Nat), c * y ((n : Int) - D) =
      lagD (D + 1) (fun _ j => if j = D then c else 0) (fun t => y t) n := fun c y h n => by
    rw [lagD, Finset.sum_range_succ, Finset.sum_eq_zero fun j hj => by
      rw [if_neg (show j ≠ D by have := Finset.mem_range.1 hj; omega), zero_mul, ite_self], zero_add, if_pos rfl]
    by_cases hn : D ≤ n
    · rw [if_pos hn]; congr 2; omega
    · rw [if_neg hn, h _ (by omega), mul_zero]
  refine pairing_feedback N (D + 1) (g := fun _ j => if j = D then av i else 0) (g' := fun _ j => if j = D then star (av i) else 0)
    (fun n _ j => ?_) (fun n _ => ?_) fun n _ => ?_
  · split_ifs
    · rfl
    · rw [star_zero]
  · rw [← s _ (n0 y0 i)]; exact hy i n
  · exact (hw i n).trans (congrArg _ (s _ (n0 w0 i) n))

example := C74_comb_filter (B := 3) (N := 7) (D := 2) (k := 2) (k' := 3) (fun i t => (i : ℤ) * t) (fun i t => (i : ℤ) - t)
  (.full fun i => (i : ℤ) + 1) (.full fun i => (i : ℤ) + 1) (by decide) (by decide) (by decide) (by decide)

/-- **C74, `lti.linear_recurrence`**, with initial values: the transpose has the conjugate coefficient, and its initial value multiplies
the last output of the recurrence. -/
theorem C74_lti_linear_recurrence {B N : Nat} {a a' init init' : Tensor α} {av iv iv' : Nat → α} (x u : Nat → Nat → α) {k k' : Int}
    (ha : BatchVals B a av) (ha' : BatchVals B a' fun i => star (av i)) (hi : BatchVals B init iv) (hi' : BatchVals B init' iv')
    (hN : 0 < N) (hk : 1 ≤ k) (hk' : 1 ≤ k') :
    ∃ y w : Nat → Nat → α, Lti.linearRecurrence a init (t2 B N x) k = .ok (t2 B N y) ∧
      Lti.linearRecurrence a' init' (t2 B N u) k' = .ok (t2 B N w) ∧
      ∀ i, i < B → pairing N (u i) (y i) + av i * star (iv' i) * y i (N - 1) = pairing N (w i) (x i) + av i * star (w i (N - 1)) * iv i := by
  refine ⟨_, _, C01_linear_recurrence x k ha hi hN hk, C01_linear_recurrence u k' ha' hi' hN hk', fun i _ => ?_⟩
  have h := pairing_rec hN (a := fun _ => av i) (a' := fun _ => star (av i)) (fun _ _ => rfl) (iv i) (iv' i) (x i) (u i)
  rw [star_mul', star_star] at h
  rw [Nat.sub_add_cancel hN]
  linear_combination h

example := C74_lti_linear_recurrence (B := 3) (N := 7) (k := 2) (k' := 3) (fun i t => (i : ℤ) * t) (fun i t => (i : ℤ) - t)
  (.full fun i => (i : ℤ) + 1) (.full fun i => (i : ℤ) + 1) (.scalar 5) (.full fun i => (i : ℤ)) (by decide) (by decide) (by decide)

/-- **C74, `lpv.linear_recurrence`**: the coefficients in reversed order, shifted by one sample because `a t` multiplies the output before
`t`.  The coefficients at time zero meet the initial values only. -/
theorem C74_lpv_linear_recurrence {B N : Nat} {a a' init init' : Tensor α} {av av' : Nat → Nat → α} {iv iv' : Nat → α}
    (x u : Nat → Nat → α) {k k' : Int} (ha : TimeVals B N a av) (ha' : TimeVals B N a' av') (hi : BatchVals B init iv)
    (hi' : BatchVals B init' iv') (haa : ∀ i n, n + 1 < N → av' i (n + 1) = star (av i (N - 1 - n))) (hN : 0 < N) (hk : 1 ≤ k)
    (hk' : 1 ≤ k') :
    ∃ y w : Nat → Nat → α, Lpv.linearRecurrence a init (t2 B N x) k = .ok (t2 B N y) ∧
      Lpv.linearRecurrence a' init' (t2 B N u) k' = .ok (t2 B N w) ∧
      ∀ i, i < B → pairing N (u i) (y i) + star (av' i 0 * iv' i) * y i (N - 1) =
        pairing N (w i) (x i) + star (w i (N - 1)) * (av i 0 * iv i) := by
  refine ⟨_, _, C02_linear_recurrence x k ha hi hN hk, C02_linear_recurrence u k' ha' hi' hN hk', fun i _ => ?_⟩
  have h := pairing_rec hN (haa i) (iv i) (iv' i) (x i) (u i)
  rw [Nat.sub_add_cancel hN]
  exact h

example := C74_lpv_linear_recurrence (α := ℤ) (B := 3) (N := 7) (k := 2) (k' := 3) (fun i t => (i : ℤ) * t) (fun i t => (i : ℤ) - t)
  (.shared fun t => (t : ℤ) + 1) (av' := fun _ t => ((7 - t : Nat) : ℤ) + 1) (.full _) (.scalar 5) (.full fun i => (i : ℤ))
  (fun i n hn => by simp only [star_trivial]; rw [show 7 - (n + 1) = 7 - 1 - n by omega]) (by decide) (by decide) (by decide)

/-- **C74, `lti.state_space`**, with any number of inputs and outputs and initial and final states: the transposed system has the
conjugate transposes of `A`, `D`, and of `C` and `B` in exchanged roles; its initial state pairs with the final state of the system. -/
theorem C74_lti_state_space {B N M F Q : Nat} (A Bm C D : Nat → Nat → Nat → α) (z z' : Nat → Nat → α) (x u : Nat → Nat → Nat → α)
    {k k' : Option Int} (hM : 0 < M) (hN : 0 < N) (hk : ∀ i, k = some i → 1 ≤ i) (hk' : ∀ i, k' = some i → 1 ≤ i) :
    ∃ (y w : Nat → Nat → Nat → α) (zf zf' : Nat → Nat → α),
      Lti.stateSpace (t3 B M M A) (t3 B N F x) (some (t3 B M F Bm)) (some (t3 B Q M C)) (some (t3 B Q F D)) (some (t2 B M z)) k none =
        .ok (t3 B N Q y, some (t2 B M zf)) ∧
      Lti.stateSpace (t3 B M M fun i j l => star (A i l j)) (t3 B N Q u) (some (t3 B M Q fun i m q => star (C i q m)))
        (some (t3 B F M fun i f m => star (Bm i m f))) (some (t3 B F Q fun i f q => star (D i q f))) (some (t2 B M z')) k' none =
        .ok (t3 B N F w, some (t2 B M zf')) ∧
      ∀ i, i < B → ∑ n ∈ Finset.range N, ∑ q ∈ Finset.range Q, star (u i (N - 1 - n) q) * y i n q +
          ∑ m ∈ Finset.range M, star (z' i m) * zf i m =
        ∑ n ∈ Finset.range N, ∑ f ∈ Finset.range F, star (w i (N - 1 - n) f) * x i n f +
          ∑ m ∈ Finset.range M, star (zf' i m) * z i m := by
  obtain ⟨h, hh, e⟩ := C08_state_space_partial (B := B) (.batched A) (.batchMat F Bm x) (.batchMat Q C) (.batchMat Q F D x) (.full z) hM hN hk
  obtain ⟨g, hg, e'⟩ := C08_state_space_partial (B := B) (.batched fun i j l => star (A i l j)) (.batchMat Q (fun i m q => star (C i q m)) u)
    (.batchMat F fun i f m => star (Bm i m f)) (.batchMat F Q (fun i f q => star (D i q f)) u) (.full z') hM hN hk'
  refine ⟨fun i t q => ∑ m ∈ Finset.range M, C i q m * h i t m + ∑ f ∈ Finset.range F, D i q f * x i t f,
    fun i t f => ∑ m ∈ Finset.range M, star (Bm i m f) * g i t m + ∑ q ∈ Finset.range Q, star (D i q f) * u i t q,
    fun i => h i N, fun i => g i N, e, e', fun i _ => ?_⟩
  have r := pairing_states (N := N) (M := M) (F := F) (Q := Q) (A := fun _ => A i) (A' := fun _ j l => star (A i l j))
    (Bm := fun _ => Bm i) (Bm' := fun _ f m => star (Bm i m f)) (C := fun _ => C i) (C' := fun _ m q => star (C i q m))
    (D := fun _ => D i) (D' := fun _ f q => star (D i q f)) (fun _ _ _ _ => rfl) (fun _ _ _ _ => rfl) (fun _ _ _ _ => rfl)
    (fun _ _ _ _ => rfl) (fun m => (hh i m).1) (fun n m => (hh i m).2 n) (fun _ _ => rfl)
    (fun m => (hg i m).1) (fun n m => (hg i m).2 n) fun _ _ => rfl
  exact r

example := C74_lti_state_space (B := 3) (N := 7) (M := 2) (F := 3) (Q := 4) (k := some 2) (k' := none) (fun i m k => (i : ℤ) + m * k)
  (fun i m f => (i : ℤ) - m * f) (fun i q m => (i : ℤ) + q + m) (fun _ q f => (q : ℤ) * f) (fun i m => (i : ℤ) + m) (fun i m => (i : ℤ) * m)
  (fun i t f => (i : ℤ) + t * f) (fun i t q => (i : ℤ) * t - q) (by decide) (by decide) (by simp) (by simp)

/-- **C74, `lpv.state_space`**: the matrices also in reversed order of time. -/
theorem C74_lpv_state_space {B N M F Q : Nat} (A Bm C D : Nat → Nat → Nat → Nat → α) (z z' : Nat → Nat → α) (x u : Nat → Nat → Nat → α)
    {k k' : Option Int} (hB : 0 < B) (hM : 0 < M) (hN : 0 < N) (hk : FilterUnroll M N k) (hk' : FilterUnroll M N k') :
    ∃ (y w : Nat → Nat → Nat → α) (zf zf' : Nat → Nat → α),
      Lpv.stateSpace (t4 B N M M A) (t3 B N F x) (some (t4 B N M F Bm)) (some (t4 B N Q M C)) (some (t4 B N Q F D)) (some (t2 B M z))
        k none = .ok (t3 B N Q y, some (t2 B M zf)) ∧
      Lpv.stateSpace (t4 B N M M fun i t j l => star (A i (N - 1 - t) l j)) (t3 B N Q u)
        (some (t4 B N M Q fun i t m q => star (C i (N - 1 - t) q m))) (some (t4 B N F M fun i t f m => star (Bm i (N - 1 - t) m f)))
        (some (t4 B N F Q fun i t f q => star (D i (N - 1 - t) q f))) (some (t2 B M z')) k' none =
        .ok (t3 B N F w, some (t2 B M zf')) ∧
      ∀ i, i < B → ∑ n ∈ Finset.range N, ∑ q ∈ Finset.range Q, star (u i (N - 1 - n) q) * y i n q +
          ∑ m ∈ Finset.range M, star (z' i m) * zf i m =
        ∑ n ∈ Finset.range N, ∑ f ∈ Finset.range F, star (w i (N - 1 - n) f) * x i n f +
          ∑ m ∈ Finset.range M, star (zf' i m) * z i m := by
  obtain ⟨h, hh, e⟩ := C09_state_space_partial (.batched A) (.batchTimeMat F Bm x) (.batchTimeMat Q C) (.batchTimeMat Q F D x) (.full z)
    hB hM hN hk
  obtain ⟨g, hg, e'⟩ := C09_state_space_partial (.batched fun i t j l => star (A i (N - 1 - t) l j))
    (.batchTimeMat Q (fun i t m q => star (C i (N - 1 - t) q m)) u) (.batchTimeMat F fun i t f m => star (Bm i (N - 1 - t) m f))
    (.batchTimeMat F Q (fun i t f q => star (D i (N - 1 - t) q f)) u) (.full z') hB hM hN hk'
  refine ⟨fun i t q => ∑ m ∈ Finset.range M, C i t q m * h i t m + ∑ f ∈ Finset.range F, D i t q f * x i t f,
    fun i t f => ∑ m ∈ Finset.range M, star (Bm i (N - 1 - t) m f) * g i t m + ∑ q ∈ Finset.range Q, star (D i (N - 1 - t) q f) * u i t q,
    fun i => h i N, fun i => g i N, e, e', fun i _ => ?_⟩
  have r := pairing_states (N := N) (M := M) (F := F) (Q := Q) (A := A i) (A' := fun t j l => star (A i (N - 1 - t) l j))
    (Bm := Bm i) (Bm' := fun t f m => star (Bm i (N - 1 - t) m f)) (C := C i) (C' := fun t m q => star (C i (N - 1 - t) q m))
    (D := D i) (D' := fun t f q => star (D i (N - 1 - t) q f)) (fun _ _ _ _ => rfl) (fun _ _ _ _ => rfl) (fun _ _ _ _ => rfl)
    (fun _ _ _ _ => rfl) (fun m => (hh i m).1) (fun n m => (hh i m).2 n) (fun _ _ => rfl)
    (fun m => (hg i m).1) (fun n m => (hg i m).2 n) fun _ _ => rfl
  exact r

example := C74_lpv_state_space (B := 3) (N := 7) (M := 2) (F := 3) (Q := 4) (k := some 2) (k' := some 3) (fun i t m k => (i : ℤ) + t * m * k)
  (fun i t m f => (i : ℤ) - m * f * t) (fun i t q m => (i : ℤ) + q + m * t) (fun _ t q f => (q : ℤ) * f + t) (fun i m => (i : ℤ) + m)
  (fun i m => (i : ℤ) * m) (fun i t f => (i : ℤ) + t * f) (fun i t q => (i : ℤ) * t - q) (by decide) (by decide) (by decide)
  (by unfold FilterUnroll GoodUnroll FewPrimes; decide +kernel) (by unfold FilterUnroll GoodUnroll FewPrimes; decide +kernel)

/-- **C74, `lpv.fir`**. -/
theorem C74_lpv_fir {B M N : Nat} (b : Nat → Nat → Nat → α) (x u : Nat → Nat → α) (hM : 0 < M) (hN : 0 < N) :
    TransposedCalls B N x u (Lpv.fir (t3 B N (M + 1) b) (t2 B N x) none false)
      (Lpv.fir (t3 B N (M + 1) fun i t => b i (N - 1 - t)) (t2 B N u) none true) := by
  refine ⟨_, _, _, _, Lpv.fir_direct_none b x hN, Lpv.fir_transposed_none _ u hM hN, fun i _ => ?_⟩
  have e : (fun t : Nat => taps (M + 1) (b i t) (causal (x i)) t) = lagD (M + 1) (b i) (x i) := funext fun t => lagD_causal ..
  rw [e, pairing_lag N (M + 1) (g' := fun t k => star (b i (N - 1 - t) k)) fun n hn j => rfl]
  exact pairing_congr (fun n hn => (tvConv_lagT _ _ hn).symm) fun _ _ => rfl

example := C74_lpv_fir (B := 3) (M := 2) (N := 7) (fun i t k => (i : ℤ) + t * k) (fun i t => (i : ℤ) * t) (fun i t => (i : ℤ) - t)
  (by decide) (by decide)

/-- **C74, `lpv.allpole`**. -/
theorem C74_lpv_allpole {B M N : Nat} {lpc : Lpv.Lpc α} (hl : IsLpc lpc) (a : Nat → Nat → Nat → α) (x u : Nat → Nat → α) (hM : 0 < M)
    (hMN : M ≤ N) :
    TransposedCalls B N x u (Lpv.allpole lpc (t3 B N M a) (t2 B N x) none false)
      (Lpv.allpole lpc (t3 B N M fun i t => a i (N - 1 - t)) (t2 B N u) none true) :=
  ⟨_, _, _, _, allpole_out hl a x hM (by omega), Lpv.allpole_transposed_out hl _ u hM hMN, fun i _ => pairing_allpole hM (a i) (x i) (u i)⟩

example := C74_lpv_allpole (B := 3) (M := 2) (N := 7) Lpv.refLpc_isLpc (fun i t k => (i : ℤ) + t * k) (fun i t => (i : ℤ) * t)
  (fun i t => (i : ℤ) - t) (by decide) (by decide)

/-- **C74, `lpv.lfilter`, backend `ssm`**, forms df2 and tdf2. -/
theorem C74_lpv_lfilter_partial {B N K P : Nat} {b b' a a' : Tensor α} {bv av : Nat → Nat → Nat → α} (x u : Nat → Nat → α)
    {k k' : Option Int} (lpc : Lpv.Lpc α) (hb : MatVals B N K b bv) (ha : MatVals B N P a av)
    (hb' : MatVals B N K b' fun i t => bv i (N - 1 - t)) (ha' : MatVals B N P a' fun i t => av i (N - 1 - t))
    (hBN : b.rank = 2 ∧ a.rank = 2 ∧ b'.rank = 2 ∨ B ≠ N) (hB : 0 < B) (hK : 0 < K) (hM : 0 < max P (K - 1)) (hN : 0 < N)
    (hk : FilterUnroll (max P (K - 1)) N k) (hk' : FilterUnroll (max P (K - 1)) N k') :
    TransposedCalls B N x u (Lpv.lfilter lpc b a (t2 B N x) none .df2 .ssm k) (Lpv.lfilter lpc b' a' (t2 B N u) none .tdf2 .ssm k') := by
  have e : Lpv.lfilter lpc b a (t2 B N x) none .df2 .ssm k = _ := Lpv.lfilterWith_seq hb ha (.batched B x)
      (Lpv.ssmLfilter_tvdf2_of hb ha x .zero (hBN.imp (fun h => ⟨h.1, h.2.1⟩) id) hK hM hN (Lpv.recOn_filter _ _ hB hM hN hk))
  have e' : Lpv.lfilter lpc b' a' (t2 B N u) none .tdf2 .ssm k' = _ := Lpv.lfilterWith_seq hb' ha' (.batched B u)
      (Lpv.ssmLfilter_tvtdf2_of hb' ha' u .zero (hBN.imp (fun h => h.2.2) id) hK hM hN (Lpv.recOn_filter _ _ hB hM hN hk'))
  rw [packed_batch_tv] at e e'
  exact ⟨_, _, _, _, e, e', fun i _ => pairing_df2 hM (by omega) (bv i) (av i) (x i) (u i)⟩

example := C74_lpv_lfilter_partial (B := 3) (N := 7) (K := 3) (P := 2) (k := some 2) (k' := some 3) (fun i t => (i : ℤ) * t)
  (fun i t => (i : ℤ) - t) Lpv.refLpc (.batched fun i t k => (i : ℤ) + t * k) (.shared fun t k => (t : ℤ) - k)
  (.batched fun i t k => (i : ℤ) + (7 - 1 - t : Nat) * k) (.shared fun t k => ((7 - 1 - t : Nat) : ℤ) - k)
  (Or.inr (by decide)) (by decide) (by decide) (by decide) (by decide)
  (by unfold FilterUnroll GoodUnroll FewPrimes; decide +kernel) (by unfold FilterUnroll GoodUnroll FewPrimes; decide +kernel)

/-- **C74, `lpv.lfilter`, backend `torchlpc`**, forms df1 and tdf1 (tdf2 is not implemented; tdf1 needs two taps and no more feedback
coefficients than samples, C30). -/
theorem C74_lpv_lfilter_torchlpc {B N M P : Nat} {b b' a a' : Tensor α} {bv av : Nat → Nat → Nat → α} (x u : Nat → Nat → α)
    {k k' : Option Int} {lpc : Lpv.Lpc α} (hl : IsLpc lpc) (hb : MatVals B N (M + 1) b bv) (ha : MatVals B N P a av)
    (hb' : MatVals B N (M + 1) b' fun i t => bv i (N - 1 - t)) (ha' : MatVals B N P a' fun i t => av i (N - 1 - t))
    (hB : 0 < B) (hM : 0 < M) (hP : 0 < P) (hPN : P ≤ N) :
    TransposedCalls B N x u (Lpv.lfilter lpc b a (t2 B N x) none .df1 .torchlpc k)
      (Lpv.lfilter lpc b' a' (t2 B N u) none .tdf1 .torchlpc k') := by
  have e := torchlpc_df1_out (u := k) hl hb ha (.batched B x) hB (Nat.succ_pos M) hP (by omega)
  have e' := Lpv.torchlpc_tdf1_out (u := k') hl hb' ha' (.batched B u) hB hM hP hPN
  rw [packed_batch_tv] at e e'
  exact ⟨_, _, _, _, e, e', fun i _ => pairing_df1 hP (bv i) (av i) (x i) (u i)⟩

example := C74_lpv_lfilter_torchlpc (B := 3) (N := 7) (M := 2) (P := 2) (k := none) (k' := none) (fun i t => (i : ℤ) * t)
  (fun i t => (i : ℤ) - t) Lpv.refLpc_isLpc (.batched fun i t k => (i : ℤ) + t * k) (.shared fun t k => (t : ℤ) - k)
  (.batched fun i t k => (i : ℤ) + (7 - 1 - t : Nat) * k) (.shared fun t k => ((7 - 1 - t : Nat) : ℤ) - k)
  (by decide) (by decide) (by decide) (by decide)

/-- The forms df1 and tdf1 of backend `ssm` are not transposes of each other when the coefficients vary: tdf1 takes the coefficients of
one sample later than its recursion needs them (C30).  With `b = 1` and `a = (0, 1)` over time, df1 maps `(1, 0)` to `(1, -1)`; tdf1 with
`a = (1, 0)` maps `(1, 0)` to `(1, 0)`.  The pairings are `-1` and `0`. -/
theorem C74_lpv_tdf1 :
    at? ((Lpv.lfilter Lpv.refLpc (t2 2 1 fun _ _ => (1 : ℤ)) (t2 2 1 fun t _ => (t : ℤ)) (t2 1 2 fun _ t => if t = 0 then 1 else 0)
      none .df1 .ssm none).map Prod.fst) [0, 1] = some (-1) ∧
    at? ((Lpv.lfilter Lpv.refLpc (t2 2 1 fun _ _ => (1 : ℤ)) (t2 2 1 fun t _ => 1 - (t : ℤ)) (t2 1 2 fun _ t => if t = 0 then 1 else 0)
      none .tdf1 .ssm none).map Prod.fst) [0, 1] = some 0 := by decide +kernel

end Props
