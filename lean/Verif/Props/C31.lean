import Verif.Props.C01
import Verif.Props.C02
import Verif.Props.C05
import Verif.Props.C07
import Verif.Props.C17
import Verif.Props.C27
import Verif.Props.C30
import Verif.Proof.LpvUnroll

/-!
# C31: coefficients that do not change in time

Full claim: the functions of `philtorch.lpv`, given coefficients that are constant in time, return what the functions of
`philtorch.lti` return for the single set of coefficients.  The theorems are equations between the two programs.

Missing or false: the inputs for which the `lpv` function is wrong anyway (unroll factors `2 < u < N` with `u - 1` a product of
three or more primes, which is the exact condition, `C31_exact`; `batch = N`, `C31_square`; `C31_unroll` is a concrete case with constant scalar coefficients); complex numerators in `df1`, which only the `lti`
function conjugates (`C31_df1_complex`).
-/

namespace Props
open Torch Torch.Tensor Spec Phil
open Phil.Lti (ok_pair Form)
variable {α : Type} [CommRing α] [StarRing α]

/-- **C31, `linear_recurrence`**, for any two unroll factors. -/
theorem C31_linear_recurrence {B N : Nat} {a a' init : Tensor α} {av iv : Nat → α} (x : Nat → Nat → α) (u u' : Int)
    (ha : BatchVals B a av) (ha' : TimeVals B N a' fun b _ => av b) (hi : BatchVals B init iv) (hN : 0 < N)
    (hu : 1 ≤ u) (hu' : 1 ≤ u') :
    Lpv.linearRecurrence a' init (t2 B N x) u' = Lti.linearRecurrence a init (t2 B N x) u := by
  rw [C02_linear_recurrence x u' ha' hi hN hu', C01_linear_recurrence x u ha hi hN hu]

example := C31_linear_recurrence (B := 2) (N := 7) (fun i t => (i : ℤ) + t) 2 3 (.full fun i => (i : ℤ) + 2) (.full fun i _ => (i : ℤ) + 2)
  (.full fun i => (i : ℤ) + 2) (by decide) (by decide) (by decide)

omit [StarRing α] in
/-- **C31, `state_space_recursion`**, for the unroll factors of C07 for commuting matrices. -/
theorem C31_state_space_recursion_partial {B N M : Nat} {A A' x : Tensor α} {Av xv : Nat → Nat → Nat → α}
    (hA : MatVals B M M A Av) (hA' : MatSeq B N M M A' fun b _ => Av b) (hx : Drive B N M x xv) (zi : Nat → Nat → α)
    (u u' : Int) (hB : 0 < B) (hM : 0 < M) (hN : 0 < N) (hu : 1 ≤ u) (hu' : FewPrimes N (some u')) :
    Lpv.stateSpaceRecursion A' (t2 B M zi) x u' none = Lti.stateSpaceRecursion A (t2 B M zi) x u none := by
  rw [Lti.stateSpaceRecursion_layout hA hx zi u none trivial hM hN hu,
    Lpv.recOn_const Av zi hB hM hN hu' hA' hx none trivial]

/-- **C31, `state_space`**: input, output and feedthrough matrices may be passed in any layout that stands for the same
constant values, in particular unchanged. -/
theorem C31_state_space_partial {B N M : Nat} {A A' x : Tensor α} {Bm Bm' C C' D D' zi : Option (Tensor α)}
    {k : Option Nat} {Av v d : Nat → Nat → Nat → α} {r : Nat → (Nat → α) → Nat → α} {z : Nat → Nat → α}
    {u u' : Option Int} (hA : MatVals B M M A Av) (hA' : MatSeq B N M M A' fun b _ => Av b)
    (hB : LtiInput B N M Bm x v) (hB' : LpvInput B N M Bm' x v) (hC : LtiReadout B M C k r)
    (hC' : LpvReadout B N M C' k fun b _ => r b) (hD : LtiFeed B N D x k d) (hD' : LpvFeed B N D' x k d)
    (hz : InitState B M zi z) (hB0 : 0 < B) (hM : 0 < M) (hN : 0 < N) (hu : ∀ i, u = some i → 1 ≤ i)
    (hu' : FewPrimes N u') :
    Lpv.stateSpace A' x Bm' C' D' zi u' none = Lti.stateSpace A x Bm C D zi u none := by
  rw [Lti.stateSpace_eq hA hB hC hD hz hM hN hu]
  exact Lpv.stateSpaceWith_eq hA' hB' hC' hD' hz hN _ (fun _ _ => rfl) fun Bx hBx =>
    Lpv.recOn_const Av z hB0 hM hN hu' hA' hBx none trivial

example := C31_state_space_partial (B := 2) (N := 7) (M := 2) (u := none) (u' := some 2) (.batched fun i t k => (i : ℤ) - t * k)
  (.batched fun i _ t k => (i : ℤ) - t * k) (.batchVec (fun i t => (i : ℤ) + t) fun i t => (i : ℤ) * t)
  (.batchVec (fun i t => (i : ℤ) + t) (fun i t => (i : ℤ) * t) (by decide)) .none .none (.none _ _) (.none _ _) (.full fun i t => (i : ℤ) - t)
  (by decide) (by decide) (by decide) (by simp) (by unfold FewPrimes; decide +kernel)

/-- **C31, `fir`**, direct form without state. -/
theorem C31_fir_direct {B M N : Nat} (b x : Nat → Nat → α) (hB : 0 < B) (hN : 0 < N) :
    Lpv.fir (t3 B N (M + 1) fun i _ => b i) (t2 B N x) none false = Lti.fir (t2 B (M + 1) b) (t2 B N x) none false := by
  rw [C27_direct _ x hN, C17_direct b x hB hN]

example := C31_fir_direct (B := 2) (M := 2) (N := 7) (fun i t => (i : ℤ) + t) (fun i t => (i : ℤ) - t) (by decide) (by decide)

/-- **C31, `fir`**, direct form with state (`lti.fir` is wrong for `M = 0`, see C17). -/
theorem C31_fir_direct_state_partial {B M N : Nat} (b x z : Nat → Nat → α) (hB : 0 < B) (hM : 0 < M) (hN : 0 < N) :
    Lpv.fir (t3 B N (M + 1) fun i _ => b i) (t2 B N x) (some (t2 B M z)) false =
      Lti.fir (t2 B (M + 1) b) (t2 B N x) (some (t2 B M z)) false := by
  rw [C27_direct_state _ x z hN, C17_direct_state_partial b x z hB hM hN]

example := C31_fir_direct_state_partial (B := 2) (M := 2) (N := 7) (fun i t => (i : ℤ) + t) (fun i t => (i : ℤ) - t) (fun i t => (i : ℤ) * t)
  (by decide) (by decide) (by decide)

omit [StarRing α] in
theorem tvConv_const {N M : Nat} (b x : Nat → α) {n : Nat} (hn : n < N) :
    tvConv N M (fun _ => b) x n = taps (M + 1) b (causal x) n := by
  refine Finset.sum_congr rfl fun j _ => ?_
  rw [causal_sub]
  by_cases h : j ≤ n
  · rw [if_pos ⟨h, by omega⟩, if_pos h]
  · rw [if_neg (by omega), if_neg h, mul_zero]

/-- **C31, `fir`**, transposed form without state (both functions conjugate the taps and both are wrong for `M = 0`). -/
theorem C31_fir_transposed_partial {B M N : Nat} (b x : Nat → Nat → α) (hB : 0 < B) (hM : 0 < M) (hN : 0 < N) :
    Lpv.fir (t3 B N (M + 1) fun i _ => b i) (t2 B N x) none true = Lti.fir (t2 B (M + 1) b) (t2 B N x) none true := by
  rw [Lpv.fir_transposed_none _ x hM hN, Lti.fir_transpose_none b x hB hN hM]
  exact ok_pair (t2_congr rfl rfl fun i n _ hn => tvConv_const _ _ hn) rfl

example := C31_fir_transposed_partial (B := 2) (M := 2) (N := 7) (fun i t => (i : ℤ) + t) (fun i t => (i : ℤ) - t) (by decide) (by decide)
  (by decide)

/-- **C31, `fir`**, transposed form with delay line. -/
theorem C31_fir_transposed_state_partial {B M N : Nat} (b x z : Nat → Nat → α) (hB : 0 < B) (hM : 0 < M) (hMN : M ≤ N) :
    Lpv.fir (t3 B N (M + 1) fun i _ => b i) (t2 B N x) (some (t2 B M z)) true =
      Lti.fir (t2 B (M + 1) b) (t2 B N x) (some (t2 B M z)) true := by
  rw [Lpv.fir_transposed_some _ x z (by omega) hMN, Lti.fir_transpose_some b x z hB hM hMN]
  exact ok_pair (t2_congr rfl rfl fun i n _ hn => by rw [tvConv_const _ _ hn]) rfl

example := C31_fir_transposed_state_partial (B := 2) (M := 2) (N := 7) (fun i t => (i : ℤ) + t) (fun i t => (i : ℤ) - t) (fun i t => (i : ℤ) * t)
  (by decide) (by decide) (by decide)

omit [CommRing α] [StarRing α] in
theorem allFlat_const [Zero α] {X b a b' a' : Tensor α} {zi : Option (Tensor α)} (hb : b'.rank = b.rank + 1)
    (ha : a'.rank = a.rank + 1) : allFlatTv X b' a' zi = allFlat X b a zi := by
  unfold allFlatTv allFlat
  rw [hb, ha]
  simp only [Nat.reduceEqDiff]

/-- **C31, `lfilter`, direct form II** with backend `ssm`, with or without state, real or complex. -/
theorem C31_lfilter_df2_partial {B N K P : Nat} {b a b' a' X : Tensor α} {bv av x z : Nat → Nat → α}
    {zi : Option (Tensor α)} {u u' : Option Int} (lpc : Lpv.Lpc α) (hb : Rows B K b bv) (ha : Rows B P a av)
    (hb' : MatVals B N K b' fun i _ => bv i) (ha' : MatVals B N P a' fun i _ => av i) (rb : b'.rank = b.rank + 1)
    (ra : a'.rank = a.rank + 1) (hx : Sig N B X x) (hz : InitState B (max P (K - 1)) zi z)
    (hBN : b.rank = 1 ∧ a.rank = 1 ∨ B ≠ N) (hB : 0 < B) (hK : 0 < K) (hM : 0 < max P (K - 1)) (hN : 0 < N)
    (hu : ∀ i, u = some i → 1 ≤ i) (hu' : FewPrimes N u') :
    Lpv.lfilter lpc b' a' X zi .df2 .ssm u' = Lti.lfilter b a X zi .df2 u := by
  unfold Lti.lfilter
  rw [Lti.lfilterWith_eq hb ha hx (Lti.ssmLfilter_df2 hb ha x hz hK hM hN hu), ← allFlat_const rb ra]
  exact Lpv.lfilterWith_seq hb' ha' hx
    (Lpv.ssmLfilter_tvdf2_of hb' ha' x hz (hBN.imp (fun h => by omega) id) hK hM hN
      (Lpv.recOn_const (fun i => comp (zext P (av i))) _ hB hM hN hu'))

/-- **C31, `lfilter`, transposed direct form II** with backend `ssm`, with or without state, real or complex. -/
theorem C31_lfilter_tdf2_partial {B N K P : Nat} {b a b' a' X : Tensor α} {bv av x z : Nat → Nat → α}
    {zi : Option (Tensor α)} {u u' : Option Int} (lpc : Lpv.Lpc α) (hb : Rows B K b bv) (ha : Rows B P a av)
    (hb' : MatVals B N K b' fun i _ => bv i) (ha' : MatVals B N P a' fun i _ => av i) (rb : b'.rank = b.rank + 1)
    (ra : a'.rank = a.rank + 1) (hx : Sig N B X x) (hz : InitState B (max P (K - 1)) zi z)
    (hBN : b.rank = 1 ∨ B ≠ N) (hB : 0 < B) (hK : 0 < K) (hM : 0 < max P (K - 1)) (hN : 0 < N)
    (hu : ∀ i, u = some i → 1 ≤ i) (hu' : FewPrimes N u') :
    Lpv.lfilter lpc b' a' X zi .tdf2 .ssm u' = Lti.lfilter b a X zi .tdf2 u := by
  unfold Lti.lfilter
  rw [Lti.lfilterWith_eq hb ha hx (Lti.ssmLfilter_tdf2 hb ha x hz hK hM hN hu), ← allFlat_const rb ra]
  exact Lpv.lfilterWith_seq hb' ha' hx
    (Lpv.ssmLfilter_tvtdf2_of hb' ha' x hz (hBN.imp (fun h => by omega) id) hK hM hN
      (Lpv.recOn_const (fun i k j => comp (fun m => star (zext P (av i) m)) j k) _ hB hM hN hu'))

example := C31_lfilter_tdf2_partial (B := 2) (N := 7) (K := 3) (P := 2) (u := none) (u' := some 2) Lpv.refLpc (.batched fun i k => (i : ℤ) + k)
  (.shared fun k => (k : ℤ) + 1) (.batched fun i _ k => (i : ℤ) + k) (.shared fun _ k => (k : ℤ) + 1) rfl rfl
  (.batched 2 fun i t => (i : ℤ) * t) (.full fun i t => (i : ℤ) - t) (Or.inr (by decide)) (by decide) (by decide) (by decide) (by decide) (by simp)
  (by unfold FewPrimes; decide +kernel)

/-- **C31, `lfilter`, direct form I** with backend `ssm`, real numbers. -/
theorem C31_lfilter_df1_partial [TrivialStar α] {B N K P : Nat} {b a b' a' X : Tensor α} {bv av x : Nat → Nat → α}
    {zi : Option (Tensor α)} {u u' : Option Int} (lpc : Lpv.Lpc α) (hb : Rows B K b bv) (ha : Rows B P a av)
    (hb' : MatVals B N K b' fun i _ => bv i) (ha' : MatVals B N P a' fun i _ => av i) (rb : b'.rank = b.rank + 1)
    (ra : a'.rank = a.rank + 1) (hx : Sig N B X x) (hB : 0 < B) (hK : 0 < K) (hM : 0 < max P (K - 1)) (hN : 0 < N)
    (hu : ∀ i, u = some i → 1 ≤ i) (hu' : FewPrimes N (some (u'.getD 1))) :
    Lpv.lfilter lpc b' a' X zi .df1 .ssm u' = Lti.lfilter b a X zi .df1 u := by
  unfold Lti.lfilter
  have h := Lti.ssmLfilter_df1 hb ha x zi hB hK hM hN hu
  simp only [star_trivial] at h
  rw [Lti.lfilterWith_eq (c := false) (M := 0) (zf := fun _ _ => 0) hb ha hx h, ← allFlat_const rb ra]
  exact Lpv.lfilterWith_seq (c := false) (M := 0) (zf := fun _ _ => 0) hb' ha' hx
    (Lpv.ssmLfilter_tvdf1_of hb' ha' x zi hK hM hN (Lpv.recOn_const (fun i => comp (zext P (av i))) _ hB hM hN hu'))

example := C31_lfilter_df1_partial (B := 2) (N := 7) (K := 3) (P := 2) (zi := none) (u := none) (u' := some 2) Lpv.refLpc
  (.batched fun i k => (i : ℤ) + k) (.shared fun k => (k : ℤ) + 1) (.batched fun i _ k => (i : ℤ) + k) (.shared fun _ k => (k : ℤ) + 1) rfl rfl
  (.batched 2 fun i t => (i : ℤ) * t) (by decide) (by decide) (by decide) (by decide) (by simp) (by unfold FewPrimes; decide +kernel)

/-- **C31, `lfilter`, transposed direct form I** with backend `ssm`, real or complex. -/
theorem C31_lfilter_tdf1_partial {B N K P : Nat} {b a b' a' X : Tensor α} {bv av x : Nat → Nat → α}
    {zi : Option (Tensor α)} {u u' : Option Int} (lpc : Lpv.Lpc α) (hb : Rows B K b bv) (ha : Rows B P a av)
    (hb' : MatVals B N K b' fun i _ => bv i) (ha' : MatVals B N P a' fun i _ => av i) (rb : b'.rank = b.rank + 1)
    (ra : a'.rank = a.rank + 1) (hx : Sig N B X x) (hB : 0 < B) (hK : 0 < K) (hM : 0 < max P (K - 1)) (hN : 0 < N)
    (hu : ∀ i, u = some i → 1 ≤ i) (hu' : FewPrimes N (some (u'.getD 1))) :
    Lpv.lfilter lpc b' a' X zi .tdf1 .ssm u' = Lti.lfilter b a X zi .tdf1 u := by
  unfold Lti.lfilter
  rw [Lti.lfilterWith_eq (c := false) (M := 0) (zf := fun _ _ => 0) hb ha hx
    (Lti.ssmLfilter_tdf1 hb ha x zi hB hK hM hN hu), ← allFlat_const rb ra]
  refine Lpv.lfilterWith_seq (c := false) (M := 0) (zf := fun _ _ => 0) hb' ha' hx
    ((Lpv.ssmLfilter_tvtdf1_of hb' ha' x zi hK hM hN
      (Lpv.recOn_const (fun i k j => comp (fun m => star (zext P (av i) m)) j k) _ hB hM hN hu')).trans (ok_pair (t2_congr rfl rfl fun i n _ hn => ?_) rfl))
  rw [tvConv_const _ _ hn, taps_zext (by omega)]

example := C31_lfilter_tdf1_partial (B := 2) (N := 7) (K := 3) (P := 2) (zi := none) (u := none) (u' := some 2) Lpv.refLpc
  (.batched fun i k => (i : ℤ) + k) (.shared fun k => (k : ℤ) + 1) (.batched fun i _ k => (i : ℤ) + k) (.shared fun _ k => (k : ℤ) + 1) rfl rfl
  (.batched 2 fun i t => (i : ℤ) * t) (by decide) (by decide) (by decide) (by decide) (by simp) (by unfold FewPrimes; decide +kernel)

/-- **C31, `lfilter`, direct form II** with backend `torchlpc`: no restriction on the unroll factor or the batch size. -/
theorem C31_lfilter_torchlpc {B N K P : Nat} {b a b' a' X : Tensor α} {bv av x z : Nat → Nat → α}
    {zi : Option (Tensor α)} {u u' : Option Int} {lpc : Lpv.Lpc α} (hl : IsLpc lpc) (hb : Rows B K b bv)
    (ha : Rows B P a av) (hb' : MatVals B N K b' fun i _ => bv i) (ha' : MatVals B N P a' fun i _ => av i)
    (rb : b'.rank = b.rank + 1) (ra : a'.rank = a.rank + 1) (hx : Sig N B X x) (hz : InitState B (max P (K - 1)) zi z)
    (hB : 0 < B) (hK : 0 < K) (hP : 0 < P) (hN : 0 < N) (hf : zi = none ∨ P ≤ N) (hu : ∀ i, u = some i → 1 ≤ i) :
    Lpv.lfilter lpc b' a' X zi .df2 .torchlpc u' = Lti.lfilter b a X zi .df2 u := by
  have hM : 0 < max P (K - 1) := by omega
  obtain ⟨w, hw, e⟩ := C30_torchlpc_df2_partial (u := u') hl hb' ha' hx hz hB hK hP hN hf
  unfold Lti.lfilter
  rw [e, Lti.lfilterWith_eq hb ha hx (Lti.ssmLfilter_df2 hb ha x hz hK hM hN hu), ← allFlat_const rb ra]
  have h : ∀ i (n : Int), n < N → withPast (z i) (w i) n = dfSignal (max P (K - 1)) (zext P (av i)) (z i) (x i) n := by
    intro i n hn
    have e : dfSignal (max P (K - 1)) (zext P (av i)) (z i) (x i) =
        tvSignal (max P (K - 1)) (fun _ => zext P (av i)) (z i) (x i) := rfl
    rw [e]
    by_cases h0 : n < 0
    · rw [tvSignal, withPast, withPast, if_pos h0, if_pos h0]
    · lift n to ℕ using by omega
      rw [withPast_nat]
      refine allPole_unique (fun n hn => hw i n hn) (fun n _ => ?_) (fun _ _ _ _ => rfl) (z' := z i) (fun _ _ => rfl)
        (y' := fun n : Nat => tvSignal (max P (K - 1)) (fun _ => zext P (av i)) (z i) (x i) n)
        (fun _ _ => rfl) (show n < N by omega)
      beta_reduce
      rw [tv_signal hM, ← tvSignal_eq]
      exact congrArg₂ (· - ·) rfl (taps_zext (K := P) (by omega) (av i) _ _)
  refine ok_pair (packed_congr fun i n hn => Finset.sum_congr rfl fun j _ => by rw [h i _ (by omega)]) ?_
  cases zi.isSome with
  | false => rfl
  | true => exact congrArg some (packed_congr fun i m _ => h i _ (by omega))

example := C31_lfilter_torchlpc (B := 2) (N := 7) (K := 3) (P := 2) (u := none) (u' := some 2) Lpv.refLpc_isLpc (.batched fun i k => (i : ℤ) + k)
  (.shared fun k => (k : ℤ) + 1) (.batched fun i _ k => (i : ℤ) + k) (.shared fun _ k => (k : ℤ) + 1) rfl rfl
  (.batched 2 fun i t => (i : ℤ) * t) (.full fun i t => (i : ℤ) - t) (by decide) (by decide) (by decide) (by decide) (Or.inr (by decide)) (by simp)

omit [StarRing α] in
/-- **The exact condition**: over any nontrivial ring, the time-varying recursion with constant matrices of a size of at least
two equals the time-invariant one for all matrices, initial states and signals if and only if the unroll factor is at most 2,
at least `N`, or one more than a product of at most two primes. -/
theorem C31_exact [Nontrivial α] {B N M : Nat} (u : Int) (hB : 0 < B) (hM : 2 ≤ M) (hN : 0 < N) (hu : 1 ≤ u) :
    (∀ (A : Nat → Nat → α) (zi x : Nat → Nat → α),
        Lpv.stateSpaceRecursion (t3 N M M fun _ => A) (t2 B M zi) (t2 B N x) u none =
          Lti.stateSpaceRecursion (t2 M M A) (t2 B M zi) (t2 B N x) u none) ↔
      u ≤ 2 ∨ (N : Int) ≤ u ∨ (u.toNat - 1).primeFactorsList.length ≤ 2 := by
  refine ⟨fun h => ?_, fun hP A zi x => C31_state_space_recursion_partial (.shared A) (.shared _) (.scalar x) zi u u hB (by omega)
    hN hu ⟨hu, hP⟩⟩
  by_contra hc
  push Not at hc
  lift u to ℕ using by omega
  have h3 := hc.2.2
  rw [Int.toNat_natCast] at h3
  obtain ⟨w, hw⟩ := Lpv.const_wrong (α := α) (u := u) (by omega) (N := N) (M := M) hM (by omega)
  have e := h (fun i j => if i = 1 ∧ j = 0 then 1 else 0) (fun _ _ => 0) fun _ => Lpv.impulse w
  rw [Lpv.stateSpaceRecursion_any (.shared _) (.scalar _) _ _ none trivial hB (by omega) hN hu,
    Lti.stateSpaceRecursion_layout (.shared _) (.scalar _) _ _ none trivial (by omega) hN hu] at e
  have e' := congrArg (fun T => Tensor.get T [0, u - 1, 1]) (Except.ok.inj e)
  simp only [Lti.OT] at e'
  rw [get_t3 hB (by omega) (by omega), get_t3 hB (by omega) (by omega), Nat.sub_add_cancel (by omega)] at e'
  exact hw e'

example := C31_exact (α := ℤ) (B := 2) (N := 20) (M := 2) 9 (by decide) (by decide) (by decide) (by decide)

/-- **C31 is false for `state_space_recursion` with unroll factor 9**: constant `A = 2`, ten samples. -/
theorem C31_unroll :
    Lpv.stateSpaceRecursion (t3 10 1 1 fun _ _ _ => (2 : ℤ)) (t2 1 1 fun _ _ => 1) (t2 1 10 fun _ _ => 1) 9 none ≠
      Lti.stateSpaceRecursion (t2 1 1 fun _ _ => (2 : ℤ)) (t2 1 1 fun _ _ => 1) (t2 1 10 fun _ _ => 1) 9 none := by
  intro h
  have h' := congrArg (fun r => at? r [0, 9, 0]) h
  revert h'
  decide +kernel

/-- **C31 is false for per-item coefficients when the batch size equals the length**: `lpv.lfilter` (`df2` with per-item `b` or `a`,
`tdf2` with per-item `b`) and `lpv.state_space` (per-item `C` for every time step) return `(2, 2, 2)` tensors, the functions of
`lti` return `(2, 2)`; all coefficients are constant in time. -/
theorem C31_square :
    (∀ form ∈ [Form.df2, .tdf2],
      shape? ((Lpv.lfilter Lpv.refLpc (t3 2 2 2 fun i _ j => (i + j : ℤ)) (t2 2 1 fun _ _ => (3 : ℤ)) (t2 2 2 fun i t => (i + t : ℤ))
        none form .ssm none).map Prod.fst) = some [2, 2, 2] ∧
      shape? ((Lti.lfilter (t2 2 2 fun i j => (i + j : ℤ)) (t1 1 fun _ => (3 : ℤ)) (t2 2 2 fun i t => (i + t : ℤ))
        none form none).map Prod.fst) = some [2, 2]) ∧
    shape? ((Lpv.lfilter Lpv.refLpc (t2 2 2 fun _ j => (j : ℤ)) (t3 2 2 1 fun i _ _ => (i : ℤ)) (t2 2 2 fun i t => (i + t : ℤ))
      none .df2 .ssm none).map Prod.fst) = some [2, 2, 2] ∧
    shape? ((Lti.lfilter (t1 2 fun j => (j : ℤ)) (t2 2 1 fun i _ => (i : ℤ)) (t2 2 2 fun i t => (i + t : ℤ))
      none .df2 none).map Prod.fst) = some [2, 2] ∧
    shape? ((Lpv.stateSpace (t3 2 1 1 fun _ _ _ => (1 : ℤ)) (t2 2 2 fun _ _ => 1) none (some (t3 2 2 1 fun b _ _ => (b : ℤ)))
      none none none none).map Prod.fst) = some [2, 2, 2] ∧
    shape? ((Lti.stateSpace (t2 1 1 fun _ _ => (1 : ℤ)) (t2 2 2 fun _ _ => 1) none (some (t2 2 1 fun b _ => (b : ℤ)))
      none none none none).map Prod.fst) = some [2, 2] := by decide +kernel

/-- **C31 is false for `df1` with complex numerator**: `b = (i, 0)`, `a = 0`, `x = 1` gives `i` and `-i`. -/
theorem C31_df1_complex :
    at? ((Lpv.lfilter Lpv.refLpc (t2 1 2 fun _ j => if j = 0 then (⟨0, 1⟩ : GaussianInt) else 0) (t2 1 1 fun _ _ => 0)
      (t1 1 fun _ => 1) none .df1 .ssm none).map Prod.fst) [0] = some ⟨0, 1⟩ ∧
    at? ((Lti.lfilter (t1 2 fun j => if j = 0 then (⟨0, 1⟩ : GaussianInt) else 0) (t1 1 fun _ => 0)
      (t1 1 fun _ => 1) none .df1 none).map Prod.fst) [0] = some ⟨0, -1⟩ := by decide +kernel

/-- Non-vacuity: second-order filter with state, four samples, two batch items. -/
example : Lpv.lfilter Lpv.refLpc (t2 4 3 fun _ j => (j : ℤ) + 1) (t2 4 2 fun _ k => 3 - (k : ℤ))
      (t2 2 4 fun i t => (i + t : ℤ)) (some (t1 2 fun m => (m : ℤ))) .df2 .ssm none =
    Lti.lfilter (t1 3 fun j => (j : ℤ) + 1) (t1 2 fun k => 3 - (k : ℤ)) (t2 2 4 fun i t => (i + t : ℤ))
      (some (t1 2 fun m => (m : ℤ))) .df2 (some 3) :=
  C31_lfilter_df2_partial Lpv.refLpc (.shared _) (.shared _) (.shared _) (.shared _) (by simp) (by simp) (.batched 2 _)
    (.shared _) (Or.inr (by decide)) (by decide) (by decide) (by decide) (by decide) (by simp)
    (by unfold FewPrimes; decide +kernel)

/-- Non-vacuity: unroll factor 7 (`6 = 2 · 3`), for which `lpv.state_space` with varying matrices is wrong. -/
example : Lpv.stateSpaceRecursion (t3 20 2 2 fun _ i j => (i : ℤ) - 2 * j) (t2 1 2 fun _ m => (m : ℤ)) (t2 1 20 fun _ t => (t : ℤ)) 7 none =
    Lti.stateSpaceRecursion (t2 2 2 fun i j => (i : ℤ) - 2 * j) (t2 1 2 fun _ m => (m : ℤ)) (t2 1 20 fun _ t => (t : ℤ)) 3 none :=
  C31_state_space_recursion_partial (.shared _) (.shared _) (.scalar _) _ 3 7 (by decide) (by decide) (by decide) (by decide)
    ⟨by decide, Or.inr (Or.inr (by
      rw [show ((some (7 : Int)).getD (roundSqrt 20)).toNat - 1 = 6 from rfl, ← Phil.Mat.factorint_eq]; decide))⟩

end Props
