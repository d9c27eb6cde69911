import Verif.Props.C22
import Verif.Props.C25
import Verif.Props.C21
import Verif.Proof.LtiDiagFilter

/-!
# C23: `lfilter(backend="diag_ssm")`

`ListsEigenvalues ev B P Av` (Spec/Eigen.lean): the eigenvalue routine answers the matrices `Av b` with exactly their eigenvalues.
`DistinctPoles P a p`: the roots of the denominator are the distinct numbers `p m`.  `re` is the real part, applied in form df2 when
the coefficients have a real dtype (`realC`); then the theorems ask for real data.
-/

namespace Props
open Torch Torch.Tensor Spec Phil Phil.Lti Phil.Mat Finset

variable {β : Type} [RCLike β]

/-- The numerator after padding, in both backends. -/
theorem diagPad_eq {B K P : Nat} {b a : Tensor β} {bv av : Nat → Nat → β} (hb : Rows B K b bv) (ha : Rows B P a av) (hK : 0 < K)
    (hKP : K ≤ P + 1) : ∃ b', padOrders b a = .ok (b', a) ∧ Rows B (P + 1) b' (fun i => zext K (bv i)) ∧
      (if b.size (-1) < a.size (-1) + 1 then padDim b (-1) 0 ((a.size (-1) + 1 - b.size (-1) : Nat) : Int) 0 else pure b) = Except.ok b' := by
  unfold padOrders
  rw [size_rows hb, size_rows ha]
  by_cases h1 : K < P + 1
  · obtain ⟨b', e, hb'⟩ := pad_rows hb (P + 1 - K)
    rw [if_pos h1, if_pos h1, e]
    rw [show K + (P + 1 - K) = P + 1 by omega] at hb'
    exact ⟨b', rfl, hb', rfl⟩
  · obtain rfl : K = P + 1 := by omega
    rw [if_neg h1, if_neg h1, if_neg (by omega)]
    exact ⟨b, rfl, zext_rows hb, rfl⟩

/-- Numerators of at most `P + 1` taps: the eigenbasis gives what the companion matrix gives. -/
theorem diagFilterCore_eq {B N K P : Nat} {b a : Tensor β} {bv av p z : Nat → Nat → β} {zi : Option (Tensor β)} {form : Form}
    {u u' : Option Int} {ev : Tensor β → Res (Tensor β)} {re : β → β} {realC : Bool}
    (hb : Rows B K b bv) (ha : Rows B P a av) (x : Nat → Nat → β) (hz : InitState B P zi z) (hP : 0 < P) (hK : 0 < K) (hKP : K ≤ P + 1)
    (hN : 0 < N) (hu : ∀ i, u = some i → 1 ≤ i) (hu' : ∀ i, u' = some i → 1 ≤ i) (hp : ∀ i, DistinctPoles P (av i) (p i))
    (hform : form = .df2 ∧ (∀ i m, m < P → p i m ≠ 0) ∧ ListsEigenvalues ev B P (fun i => comp (av i)) ∧
        (realC = true → (∀ c, star c = c → re c = c) ∧ (∀ i k, star (av i k) = av i k) ∧ (∀ i m, star (z i m) = z i m) ∧
          ∀ i t, star (x i t) = x i t) ∨
      form = .tdf2 ∧ ListsEigenvalues ev B P (fun i j k => comp (fun k => star (av i k)) k j)) :
    diagFilterCore ev findEigenvectors re realC b a (t2 B N x) zi form u = ssmLfilter b a (t2 B N x) zi form u' := by
  obtain ⟨b', e1, hb', e2⟩ := diagPad_eq hb ha hK hKP
  obtain ⟨A, eA, hA⟩ := companion_rows ha hP
  obtain ⟨C, D, eC, hC, hD⟩ := outputCoefs_eq hb' ha
  unfold diagFilterCore diagFilterCoreWith ssmLfilter
  rw [e1, e2]
  refine bind_step rfl (bind_step eA (Eq.symm (bind_step rfl (bind_step eA ?_))))
  rcases hform with ⟨rfl, hp0, hev, hreal⟩ | ⟨rfl, hev⟩
  · refine bind_step eC (Eq.symm (bind_step eC ?_))
    obtain ⟨L, l, eL, hL, hl⟩ := hev A hA
    refine C22_from_matrix_partial eL hL (fun i m hm => (hl i _).1 ⟨m, hm, rfl⟩) (fun i m v hm hv => comp_eigenvector_first ?_ hv)
      (fun i m n hm hn e => list_distinct (hp i).2 (fun m hm => (hl i _).2 ⟨_, comp_eigenvector hP ((hp i).1 m hm)⟩) m n hm hn e)
      (.none (.scalar x)) (readout_rows hC) (feed_gain hD x) hz hP hN hu hu' fun _ hr => ?_
    · intro h0
      have : ∃ m, m < P ∧ p i m = 0 := by
        by_contra hno
        choose! g hg1 hg2 using fun m hm => (hl i _).2 ⟨_, comp_eigenvector hP ((hp i).1 m hm)⟩
        have hg3 : Set.InjOn g (range P) := fun c hc d hd e => (hp i).2 c d (by simpa using hc) (by simpa using hd)
          (by rw [← hg2 c (by simpa using hc), ← hg2 d (by simpa using hd), e])
        have hg4 : (range P).image g = range P :=
          eq_of_subset_of_card_le (fun c hc => by
            obtain ⟨d, hd, rfl⟩ := mem_image.1 hc
            exact mem_range.2 (hg1 d (mem_range.1 hd))) (by rw [card_image_of_injOn hg3])
        obtain ⟨d, hd, hd'⟩ := mem_image.1 (hg4.symm ▸ mem_range.2 hm : m ∈ (range P).image g)
        exact hno ⟨d, mem_range.1 hd, by rw [← hg2 d (mem_range.1 hd), hd', h0]⟩
      obtain ⟨m', hm', h2⟩ := this
      exact hp0 i m' hm' h2
    · obtain ⟨r1, r2, r3, r4⟩ := hreal hr
      refine ⟨r1, fun i j k => ?_, r3, fun i t k => ?_⟩
      · rw [star_comp]; simp only [r2]
      · split
        · exact r4 i t
        · exact star_zero _
  · obtain ⟨A', eA', hA'⟩ := mT_conj hA
    refine bind_step eC (bind_step eA' (Eq.symm (bind_step eC (bind_step eA' ?_))))
    simp only [star_comp] at hA'
    obtain ⟨L, l, eL, hL, hl⟩ := hev _ hA'
    have hroot : ∀ i m, m < P → star (p i m) ^ P + ∑ k ∈ range P, star (av i k) * star (p i m) ^ (P - 1 - k) = 0 := by
      intro i m hm
      have := congrArg star ((hp i).1 m hm)
      simpa only [star_add, star_pow, star_sum, star_mul', star_zero] using this
    refine C22_from_matrix_out_idx_partial eL hL (fun i m hm => (hl i _).1 ⟨m, hm, rfl⟩) (fun i m v hm hv => compT_eigenvector_first hv)
      (fun i m n hm hn e => list_distinct (p := fun m => star (p i m)) (fun m n hm hn e => (hp i).2 m n hm hn (star_injective e))
        (fun m hm => (hl i _).2 ⟨_, compT_eigenvector hP (hroot i m hm)⟩) m n hm hn e)
      (input_rows (conj_rows hC) x) (feed_gain (conj_gain hD) x) hz (by omega) hN hu hu'

/-- `lfilter` only calls its backend at the batched signal. -/
theorem lfilterWith_congr {f g : Tensor β → Tensor β → Tensor β → Option (Tensor β) → Res (Tensor β × Option (Tensor β))}
    {B N : Nat} {b a X : Tensor β} {x : Nat → Nat → β} {zi : Option (Tensor β)} (hx : Sig N B X x)
    (h : f b a (t2 B N x) zi = g b a (t2 B N x) zi) : lfilterWith f b a X zi = lfilterWith g b a X zi := by
  unfold lfilterWith
  cases hx with
  | flat x =>
    have e : (if (t1 N x).rank = 1 then unsqueeze (t1 N x) 0 else if 2 < (t1 N x).rank then
        .error "ValueError: Input signal x must be 1D or 2D." else pure (t1 N x)) = Except.ok (t2 1 N fun _ => x) := by
      rw [if_pos (rank_t1 _ _)]; exact unsqueeze_t1_0 _ _
    rw [e]
    exact (bind_step rfl (by rw [h]; rfl))
  | batched B x =>
    have e : (if (t2 B N x).rank = 1 then unsqueeze (t2 B N x) 0 else if 2 < (t2 B N x).rank then
        .error "ValueError: Input signal x must be 1D or 2D." else pure (t2 B N x)) = Except.ok (t2 B N x) := by
      rw [if_neg (by simp), if_neg (by simp)]; rfl
    rw [e]
    exact (bind_step rfl (by rw [h]; rfl))

/-- What the theorems ask of the form: the eigenvalue routine is right at the matrix used; in form df2 no pole is zero, and
the data are real if the coefficients have a real dtype. -/
def DiagForm (ev : Tensor β → Res (Tensor β)) (re : β → β) (realC : Bool) (B P : Nat) (av p z x : Nat → Nat → β) : Form → Prop
  | .df2 => (∀ i m, m < P → p i m ≠ 0) ∧ ListsEigenvalues ev B P (fun i => comp (av i)) ∧
      (realC = true → (∀ c, star c = c → re c = c) ∧ (∀ i k, star (av i k) = av i k) ∧ (∀ i m, star (z i m) = z i m) ∧
        ∀ i t, star (x i t) = x i t)
  | .tdf2 => ListsEigenvalues ev B P (fun i j k => comp (fun k => star (av i k)) k j)
  | _ => False

theorem DiagForm.cases {ev : Tensor β → Res (Tensor β)} {re : β → β} {realC : Bool} {B P : Nat} {av p z x : Nat → Nat → β} {form : Form}
    (h : DiagForm ev re realC B P av p z x form) :
    form = .df2 ∧ (∀ i m, m < P → p i m ≠ 0) ∧ ListsEigenvalues ev B P (fun i => comp (av i)) ∧
        (realC = true → (∀ c, star c = c → re c = c) ∧ (∀ i k, star (av i k) = av i k) ∧ (∀ i m, star (z i m) = z i m) ∧
          ∀ i t, star (x i t) = x i t) ∨
      form = .tdf2 ∧ ListsEigenvalues ev B P (fun i j k => comp (fun k => star (av i k)) k j) := by
  cases form with
  | df2 => exact Or.inl ⟨rfl, h⟩
  | tdf2 => exact Or.inr ⟨rfl, h⟩
  | df1 => exact h.elim
  | tdf1 => exact h.elim
  | other => exact h.elim

/-- **C23 (partial), short numerator.**  With at most `P + 1` numerator taps and distinct poles, the `diag_ssm` backend returns what the
`ssm` backend returns (output, and final state if `zi` is given), for every layout and any two unroll factors.
Missing: repeated poles (an error, `C23_repeated_pole`); a zero pole in form df2 (an error, `C23_zero_pole`). -/
theorem C23_short_partial {B N K P : Nat} {b a X : Tensor β} {bv av p z x : Nat → Nat → β} {zi : Option (Tensor β)} {form : Form}
    {u u' : Option Int} {ev : Tensor β → Res (Tensor β)} {re : β → β} {realC delayed : Bool}
    (hb : Rows B K b bv) (ha : Rows B P a av) (hx : Sig N B X x) (hz : InitState B P zi z) (hP : 0 < P) (hK : 0 < K) (hKP : K ≤ P + 1)
    (hN : 0 < N) (hu : ∀ i, u = some i → 1 ≤ i) (hu' : ∀ i, u' = some i → 1 ≤ i) (hp : ∀ i, DistinctPoles P (av i) (p i))
    (hform : DiagForm ev re realC B P av p z x form) :
    lfilterDiag ev findEigenvectors re realC b a X zi form delayed u = lfilter b a X zi form u' := by
  refine lfilterWith_congr hx ?_
  have hs : diagSplit b a delayed = .ok (b, none, 0) := by
    unfold diagSplit
    rw [size_rows hb, size_rows ha, if_neg (by omega)]; rfl
  unfold diagSsmLfilter
  refine bind_step hs ?_
  rw [size_rows hb, size_rows ha, if_neg (by omega), diagFilterCore_eq hb ha x hz hP hK hKP hN hu hu' hp hform.cases]
  cases ssmLfilter b a (t2 B N x) zi form u' with
  | error e => rfl
  | ok r =>
    obtain ⟨y, zf⟩ := r
    cases zf <;> rfl

/-- `(b₀ + b₁ z⁻¹) / (1 + z⁻²)` with initial state. -/
example (b x : Nat → Nat → ℂ) (z : Nat → ℂ) := C23_short_partial (B := 3) (N := 7) (K := 2) (P := 2) (form := .df2) (u := none) (u' := some 3)
  (ev := Witness.answer 3 2 Witness.rotEig) (re := id) (realC := false) (delayed := true) (.batched b) (.shared fun k => if k = 0 then (0 : ℂ) else 1)
  (.batched 3 x) (.shared z) (by decide) (by decide) (by decide) (by decide) (by simp) (by simp) (fun _ => Witness.rot_poles)
  ⟨fun _ m _ => Witness.rotEig_ne m, Witness.rot_lists 3, by simp⟩

/-- A long numerator: the remainder filtered by the `ssm` backend and delayed, plus the direct part with conjugated taps.  `hcore`: the core
agrees with the `ssm` backend on the remainder. -/
theorem diagLongWith_eq {L V W : Option (Tensor β)} {fe : Tensor β → Tensor β → Res (Tensor β)} {B N K P : Nat} {a X : Tensor β}
    {bv av x q r : Nat → Nat → β} {y1 : Nat → Int → β} {zi : Option (Tensor β)}
    {form : Form} {u u' : Option Int} {ev : Tensor β → Res (Tensor β)} {re : β → β} {realC delayed : Bool}
    (ha : Rows B P a av) (hx : Sig N B X x) (hB : 0 < B) (hKP : P + 1 < K) (hN : 0 < N)
    (hcore : diagFilterCoreWith L V W ev fe re realC (t2 B P r) a (t2 B N x) none form u = ssmLfilter (t2 B P r) a (t2 B N x) none form u')
    (hsplit : delayed = true → K - P ≤ N)
    (hs : diagSplit (t2 B K bv) a delayed = .ok (t2 B P r, some (t2 B (K - P) q), if delayed then K - P else 0))
    (h10 : ∀ i n, n < 0 → y1 i n = 0)
    (e1 : ssmLfilter (t2 B P r) a (t2 B N x) none form u' = .ok (t2 B N fun i t => y1 i t, none)) :
    lfilterDiagWith L V W ev fe re realC (t2 B K bv) a X zi form delayed u =
      .ok (t2 B N fun i t => y1 i (t - (if delayed then K - P else 0 : Nat)) + taps (K - P) (fun k => star (q i k)) (causal (x i)) t, none) := by
  have main : diagSsmLfilterWith L V W ev fe re realC (t2 B K bv) a (t2 B N x) zi form delayed u =
      .ok (t2 B N fun i t => y1 i (t - (if delayed then K - P else 0 : Nat)) +
        taps (K - P) (fun k => star (q i k)) (causal (x i)) t, none) := by
    unfold diagSsmLfilterWith
    refine bind_step hs ?_
    rw [size_t2_n1, size_rows ha, if_pos hKP, hcore]
    refine bind_step e1 ?_
    unfold addDirect
    rw [if_neg (by simp)]
    refine bind_step (delaySignal_eq _ (by cases delayed with
      | true => simpa using hsplit
      | false => simp)) ?_
    obtain ⟨m, hm⟩ : ∃ m, K - P = m + 1 := ⟨K - P - 1, by omega⟩
    have ed : fir (t2 B (K - P) q) (t2 B N x) none true =
        .ok (t2 B N fun i t => taps (K - P) (fun k => star (q i k)) (causal (x i)) t, none) := by
      rw [hm]; exact fir_transpose_none q x hB hN (by omega)
    refine bind_step ed (bind_step (add_eq.trans (zipWith_nm_nm _ _ _ _ _)) (ok_pair (t2_congr rfl rfl fun i t _ _ => ?_) rfl))
    refine congrArg (· + _) ?_
    simp only
    generalize (if delayed = true then K - P else 0) = d
    by_cases ht : t < d
    · rw [if_pos ht, h10 i _ (by omega)]
    · rw [if_neg ht]; congr 1; omega
  have l1 := lfilterWith_eq (backend := fun b a x zi => diagSsmLfilterWith L V W ev fe re realC b a x zi form delayed u) (c := false)
    (M := 0) (zf := fun _ _ => 0) (.batched bv) ha hx main
  have hflat : ∀ zi, allFlat X (t2 B K bv) a zi = false := fun zi => decide_eq_false fun h => by simp at h
  rw [hflat] at l1
  exact l1

theorem diagLong_eq {B N K P : Nat} {a X : Tensor β} {bv av p x q r : Nat → Nat → β} {y1 : Nat → Int → β} {zi : Option (Tensor β)}
    {form : Form} {u u' : Option Int} {ev : Tensor β → Res (Tensor β)} {re : β → β} {realC delayed : Bool}
    (ha : Rows B P a av) (hx : Sig N B X x) (hB : 0 < B) (hP : 0 < P) (hKP : P + 1 < K)
    (hN : 0 < N) (hu : ∀ i, u = some i → 1 ≤ i) (hu' : ∀ i, u' = some i → 1 ≤ i) (hp : ∀ i, DistinctPoles P (av i) (p i))
    (hform : DiagForm ev re realC B P av p (fun _ _ => 0) x form) (hsplit : if delayed then K - P ≤ N else ∀ i, av i (P - 1) ≠ 0)
    (hs : diagSplit (t2 B K bv) a delayed = .ok (t2 B P r, some (t2 B (K - P) q), if delayed then K - P else 0))
    (h10 : ∀ i n, n < 0 → y1 i n = 0)
    (e1 : ssmLfilter (t2 B P r) a (t2 B N x) none form u' = .ok (t2 B N fun i t => y1 i t, none)) :
    lfilterDiag ev findEigenvectors re realC (t2 B K bv) a X zi form delayed u =
      .ok (t2 B N fun i t => y1 i (t - (if delayed then K - P else 0 : Nat)) + taps (K - P) (fun k => star (q i k)) (causal (x i)) t, none) :=
  diagLongWith_eq (L := none) (V := none) (W := none) ha hx hB hKP hN
    (diagFilterCore_eq (.batched r) ha x .zero hP hP (by omega) hN hu hu' hp hform.cases) (fun h => by subst h; simpa using hsplit) hs h10 e1

/-- A long numerator, given that the core agrees with the `ssm` backend. -/
theorem diagLongWith_ssm {L V W : Option (Tensor β)} {fe : Tensor β → Tensor β → Res (Tensor β)} {B N K P : Nat} {a X : Tensor β}
    {bv av x : Nat → Nat → β} {zi : Option (Tensor β)} {form : Form} {u u' : Option Int} {ev : Tensor β → Res (Tensor β)} {re : β → β}
    {realC delayed : Bool} (ha : Rows B P a av) (hx : Sig N B X x) (hB : 0 < B) (hP : 0 < P) (hKP : P + 1 < K) (hN : 0 < N)
    (hu' : ∀ i, u' = some i → 1 ≤ i)
    (hcore : ∀ r : Nat → Nat → β, diagFilterCoreWith L V W ev fe re realC (t2 B P r) a (t2 B N x) none form u =
      ssmLfilter (t2 B P r) a (t2 B N x) none form u')
    (hsplit : if delayed then K - P ≤ N else ∀ i, av i (P - 1) ≠ 0) (hff : form = .df2 ∨ form = .tdf2)
    (hconj : form = .df2 → (∀ i k, star (bv i k) = bv i k) ∧ ∀ i k, star (av i k) = av i k) :
    lfilterDiagWith L V W ev fe re realC (t2 B K bv) a X zi form delayed u = lfilter (t2 B K bv) a X none form u' := by
  obtain ⟨q, r, hs, hdiv, hr⟩ := diagSplit_eq ha bv hKP hP delayed (fun h => by subst h; simpa using hsplit)
  have hf : form ≠ .other := by rcases hff with rfl | rfl <;> simp
  obtain ⟨y1, h10, h1, e1⟩ := ssmLfilter_diff (K := P) (zi := none) (form := form) (.batched r) ha x hf (Or.inl rfl) hB hP (by omega) hN hu'
  obtain ⟨y2, h20, h2, e2⟩ := ssmLfilter_diff (K := K) (zi := none) (form := form) (.batched bv) ha x hf (Or.inl rfl) hB (by omega) (by omega) hN hu'
  have key : ∀ i, y2 i = fun n => y1 i (n - (if delayed then K - P else 0 : Nat)) +
      taps (K - P) (fun k => star (q i k)) (causal (x i)) n := by
    intro i
    rcases hff with rfl | rfl
    · obtain ⟨c1, c2⟩ := hconj rfl
      rw [show (fun k => star (q i k)) = q i from funext fun k => hr c1 c2 i k]
      refine diffEq_unique (P := P) (a := av i) (v := taps K (bv i) (causal (x i))) (fun n hn => ?_) (fun n _ => h2 i n) fun n _ =>
        split_diff (hdiv i) (h1 i) n
      rw [h20 i n hn, h10 i _ (by omega), taps_neg (fun m hm => causal_neg hm) hn, add_zero]
    · refine diffEq_unique (P := P) (a := fun k => star (av i k)) (v := taps K (fun k => star (bv i k)) (causal (x i))) (fun n hn => ?_)
        (fun n _ => h2 i n) fun n _ => split_diff (split_conj (hdiv i)) (h1 i) n
      rw [h20 i n hn, h10 i _ (by omega), taps_neg (fun m hm => causal_neg hm) hn, add_zero]
  have l2 := lfilterWith_eq (backend := fun b a x zi => ssmLfilter b a x zi form u') (c := false)
    (M := 0) (zf := fun _ _ => 0) (.batched bv) ha hx e2
  have hflat : ∀ zi, allFlat X (t2 B K bv) a zi = false := fun zi => decide_eq_false fun h => by simp at h
  rw [hflat] at l2
  refine (diagLongWith_eq ha hx hB hKP hN (hcore r) (fun h => by subst h; simpa using hsplit) hs h10 e1).trans (Eq.trans ?_ l2.symm)
  exact ok_pair (t2_congr rfl rfl fun i t _ _ => (congrFun (key i) (t : Int)).symm) rfl

/-- **C23 (partial), long numerator.**  With more than `P + 1` taps (given with a batch axis) the backend splits off a direct part, in either of
two ways; the result is that of the `ssm` backend **without** initial state: `zi` is ignored.  In form df2 the coefficients are
real: the direct part is filtered with conjugated taps (`C23_complex_taps`). -/
theorem C23_long_partial {B N K P : Nat} {a X : Tensor β} {bv av p x : Nat → Nat → β} {zi : Option (Tensor β)} {form : Form}
    {u u' : Option Int} {ev : Tensor β → Res (Tensor β)} {re : β → β} {realC delayed : Bool}
    (ha : Rows B P a av) (hx : Sig N B X x) (hB : 0 < B) (hP : 0 < P) (hKP : P + 1 < K)
    (hN : 0 < N) (hu : ∀ i, u = some i → 1 ≤ i) (hu' : ∀ i, u' = some i → 1 ≤ i) (hp : ∀ i, DistinctPoles P (av i) (p i))
    (hform : DiagForm ev re realC B P av p (fun _ _ => 0) x form)
    (hsplit : if delayed then K - P ≤ N else ∀ i, av i (P - 1) ≠ 0)
    (hconj : form = .df2 → (∀ i k, star (bv i k) = bv i k) ∧ ∀ i k, star (av i k) = av i k) :
    lfilterDiag ev findEigenvectors re realC (t2 B K bv) a X zi form delayed u = lfilter (t2 B K bv) a X none form u' := by
  have hff : form = .df2 ∨ form = .tdf2 := by
    rcases hform.cases with h | h
    · exact Or.inl h.1
    · exact Or.inr h.1
  exact diagLongWith_ssm (L := none) (V := none) (W := none) ha hx hB hP hKP hN hu'
    (fun r => diagFilterCore_eq (.batched r) ha x .zero hP hP (by omega) hN hu hu' hp hform.cases) hsplit hff hconj

/-- **C23 is false for complex coefficients in form df2** when the numerator is long: the direct part is run by `fir` in its default
transposed form, which conjugates the taps, while the rest is not conjugated.  With the delayed split and a first tap that is not
real, the two backends already differ in the first sample. -/
theorem C23_complex_taps {B N K P : Nat} {a : Tensor β} {bv av p x : Nat → Nat → β} {zi : Option (Tensor β)}
    {u u' : Option Int} {ev : Tensor β → Res (Tensor β)} {re : β → β} {i : Nat}
    (ha : Rows B P a av) (hP : 0 < P) (hKP : P + 1 < K) (hNK : K - P ≤ N)
    (hu : ∀ i, u = some i → 1 ≤ i) (hu' : ∀ i, u' = some i → 1 ≤ i) (hp : ∀ i, DistinctPoles P (av i) (p i))
    (hp0 : ∀ i m, m < P → p i m ≠ 0) (hev : ListsEigenvalues ev B P (fun i => comp (av i)))
    (hi : i < B) (hb : star (bv i 0) ≠ bv i 0) (hx0 : x i 0 ≠ 0) :
    ∃ y y' : Nat → Nat → β, lfilter (t2 B K bv) a (t2 B N x) none .df2 u' = .ok (t2 B N y, none) ∧
      lfilterDiag ev findEigenvectors re false (t2 B K bv) a (t2 B N x) zi .df2 true u = .ok (t2 B N y', none) ∧
      y i 0 = bv i 0 * x i 0 ∧ y' i 0 = star (bv i 0) * x i 0 ∧ y' i 0 ≠ y i 0 := by
  have hB : 0 < B := by omega
  have hN : 0 < N := by omega
  obtain ⟨q, r, hs, hdiv, -⟩ := diagSplit_eq ha bv hKP hP true (by simp)
  obtain ⟨y1, h10, -, e1⟩ := ssmLfilter_diff (K := P) (zi := none) (form := .df2) (.batched r) ha x (by simp) (Or.inl rfl) hB hP (by omega) hN hu'
  obtain ⟨y2, h20, h2, e2⟩ := ssmLfilter_diff (K := K) (zi := none) (form := .df2) (.batched bv) ha x (by simp) (Or.inl rfl) hB (by omega) (by omega) hN hu'
  have l2 := lfilterWith_eq (backend := fun b a x zi => ssmLfilter b a x zi .df2 u') (c := false)
    (M := 0) (zf := fun _ _ => 0) (.batched bv) ha (.batched B x) e2
  have hflat : ∀ zi, allFlat (t2 B N x) (t2 B K bv) a zi = false := fun zi => decide_eq_false fun h => by simp at h
  rw [hflat] at l2
  have t0 : ∀ (M : Nat) (c : Nat → β) (w : Int → β), 0 < M → (∀ n, n < 0 → w n = 0) → taps M c w 0 = c 0 * w 0 := by
    intro M c w hM hw
    unfold taps
    rw [Finset.sum_eq_single (0 : Nat) (fun k _ hk => by rw [hw (0 - (k : Int)) (by omega), mul_zero]) (fun h => absurd (Finset.mem_range.2 hM) h)]
    simp
  have hq : q i 0 = bv i 0 := by
    have hw : ∀ n : Int, n < 0 → (if n = 0 then (1 : β) else 0) = 0 := fun n hn => if_neg (by omega)
    have := hdiv i (fun n => if n = 0 then 1 else 0) 0
    rw [t0 _ _ _ (by omega) hw, t0 _ _ _ (by omega) fun n hn => by rw [hw n hn, taps_neg hw (by omega), add_zero], if_pos rfl, if_pos rfl,
      taps_neg hw (by omega), taps_neg hw (by omega)] at this
    simpa using this.symm
  have c0 : causal (x i) 0 = x i 0 := by simp [causal]
  have e3 := diagLong_eq (X := t2 B N x) (u := u) (zi := zi) ha (.batched B x) hB hP hKP hN hu hu' hp (form := .df2) (realC := false)
    (delayed := true) ⟨hp0, hev, by simp⟩ (by simpa using hNK) hs h10 e1 (re := re)
  have v1 : y2 i 0 = bv i 0 * x i 0 := by
    rw [h2 i 0, t0 _ _ _ (by omega) (fun n hn => causal_neg hn), taps_neg (h20 i) (by omega), sub_zero, c0]; rfl
  have v2 : y1 i (0 - (K - P : Nat)) + taps (K - P) (fun k => star (q i k)) (causal (x i)) 0 = star (bv i 0) * x i 0 := by
    rw [h10 i _ (by omega), zero_add, t0 _ _ _ (by omega) (fun n hn => causal_neg hn), c0, hq]
  refine ⟨fun i t => y2 i t, _, l2, e3, v1, ?_, ?_⟩
  · exact v2
  · intro h
    have h : star (bv i 0) * x i 0 = bv i 0 * x i 0 := by rw [← v2, ← v1]; exact h
    exact hb (mul_right_cancel₀ hx0 h)

/-- A zero pole (last denominator coefficient zero, `P ≥ 2`) makes form df2 raise, whatever the numerator. -/
theorem C23_zero_pole {B P : Nat} {b a X : Tensor β} {av : Nat → Nat → β} {zi : Option (Tensor β)}
    {u : Option Int} {ev : Tensor β → Res (Tensor β)} {re : β → β} {realC delayed : Bool} {i : Nat}
    (ha : Rows B P a av) (hP : 2 ≤ P)
    (hev : ListsEigenvalues ev B P (fun i => comp (av i))) (hi : i < B) (h0 : av i (P - 1) = 0) :
    Fails (lfilterDiag ev findEigenvectors re realC b a X zi .df2 delayed u) := by
  obtain ⟨A, eA, hA⟩ := companion_rows ha (by omega)
  obtain ⟨L, l, eL, hL, hl⟩ := hev A hA
  obtain ⟨m, hm, hlm⟩ := (hl i 0).2 ⟨_, comp_eigenvector_zero hP h0⟩
  have hfe : Fails (findEigenvectors A L) := by
    generalize hAv : (fun i => comp (av i)) = Av at hL
    have hv : Eigenvector P (Av i) (l i m) fun i => if i = P - 1 then 1 else 0 := by
      rw [← hAv, hlm]; exact comp_eigenvector_zero hP h0
    cases hL with
    | shared A' l' => exact C25_zero_first_component A' l' hm hv (if_neg (by omega))
    | batched => exact C25_zero_first_component_batch _ _ hi hm hv (if_neg (by omega))
  unfold lfilterDiag lfilterWith
  refine fails_bind fun x2 _ => fails_check fun _ => fails_check fun _ => fails_left ?_
  unfold diagSsmLfilter
  refine fails_bind fun s _ => fails_left ?_
  unfold diagFilterCore diagFilterCoreWith
  refine fails_bind fun b' _ => fails_bind fun A' hA' => ?_
  rw [eA] at hA'
  cases hA'
  refine fails_bind fun cd _ => ?_
  unfold diagStateSpace diagStateSpaceWith
  refine fails_check fun _ => fails_check fun _ => ?_
  refine fails_check fun _ => fails_check fun _ => fails_check fun _ => fails_bind fun L' hL' => fails_left ?_
  rw [eL] at hL'
  cases hL'
  exact fails_left hfe

example (b X : Tensor ℂ) := C23_zero_pole (B := 3) (P := 2) (b := b) (X := X) (zi := none) (u := none) (re := id) (realC := false) (delayed := true)
  (i := 1) (.shared fun k => if k = 0 then (-1 : ℂ) else 0) (by decide) (Witness.zero_pole_lists 3) (by decide) rfl

/-- A list of `P` roots without repetition, or a repetition in the list. -/
theorem roots_repeat {P : Nat} {a l : Nat → β} (hroot : ∀ m, m < P → l m ^ P + ∑ k ∈ range P, a k * l m ^ (P - 1 - k) = 0)
    (hrep : ∀ p, ¬ DistinctPoles P a p) : ∃ m n, m < P ∧ n < P ∧ m ≠ n ∧ l m = l n := by
  by_contra hno
  push Not at hno
  exact hrep l ⟨hroot, fun m n hm hn e => by_contra fun hne => hno m n hm hn hne e⟩

/-- **Repeated poles.**  If the denominator of some batch item does not have `P` distinct roots, both forms raise, whatever the numerator,
the signal and the initial state (the `ssm` backend does not need distinct poles, C11). -/
theorem C23_repeated_pole {B P : Nat} {b a X : Tensor β} {av : Nat → Nat → β} {zi : Option (Tensor β)} {form : Form}
    {u : Option Int} {ev : Tensor β → Res (Tensor β)} {re : β → β} {realC delayed : Bool} {i : Nat}
    (ha : Rows B P a av) (hP : 0 < P)
    (hev : form = .df2 ∧ ListsEigenvalues ev B P (fun i => comp (av i)) ∨
      form = .tdf2 ∧ ListsEigenvalues ev B P (fun i j k => comp (fun k => star (av i k)) k j))
    (hi : i < B) (hrep : ∀ p, ¬ DistinctPoles P (av i) p) :
    Fails (lfilterDiag ev findEigenvectors re realC b a X zi form delayed u) := by
  obtain ⟨A, eA, hA⟩ := companion_rows ha hP
  unfold lfilterDiag lfilterWith
  refine fails_bind fun x2 _ => fails_check fun _ => fails_check fun _ => fails_left ?_
  unfold diagSsmLfilter
  refine fails_bind fun s _ => fails_left ?_
  unfold diagFilterCore diagFilterCoreWith
  refine fails_bind fun b' _ => fails_bind fun A' hA' => ?_
  rw [eA] at hA'
  cases hA'
  rcases hev with ⟨rfl, hev⟩ | ⟨rfl, hev⟩
  · refine fails_bind fun cd _ => ?_
    obtain ⟨L, l, eL, hL, hl⟩ := hev A hA
    obtain ⟨m, n, hm, hn, hne, e⟩ := roots_repeat (l := l i) (fun m hm => by
      obtain ⟨v, hv⟩ := (hl i _).1 ⟨m, hm, rfl⟩
      exact comp_eigen_root hv) hrep
    exact C22_repeated_eigenvalue eL hL hi hm hn hne e
  · refine fails_bind fun cd _ => fails_bind fun A' hA' => ?_
    obtain ⟨A2, eA2, hA2⟩ := mT_conj hA
    rw [eA2] at hA'
    cases hA'
    simp only [star_comp] at hA2
    obtain ⟨L, l, eL, hL, hl⟩ := hev _ hA2
    obtain ⟨m, n, hm, hn, hne, e⟩ := roots_repeat (a := fun k => star (av i k)) (l := l i) (fun m hm => by
      obtain ⟨v, hv⟩ := (hl i _).1 ⟨m, hm, rfl⟩
      exact compT_eigen_root hv) fun p hp => hrep (fun m => star (p m)) ⟨fun m hm => by
        have := congrArg star (hp.1 m hm)
        simpa only [star_add, star_pow, star_sum, star_mul', star_zero, star_star] using this,
        fun m n hm hn e => hp.2 m n hm hn (star_injective e)⟩
    exact C22_repeated_eigenvalue eL hL hi hm hn hne e

/-- The delayed split of a signal shorter than the delay raises. -/
theorem C23_short_signal {B N K P : Nat} {a X : Tensor β} {bv av p x : Nat → Nat → β} {zi : Option (Tensor β)} {form : Form}
    {u : Option Int} {ev : Tensor β → Res (Tensor β)} {re : β → β} {realC : Bool}
    (ha : Rows B P a av) (hx : Sig N B X x) (hB : 0 < B) (hP : 0 < P) (hKP : P + 1 < K)
    (hN : 1 < N) (hNK : N < K - P) (hu : ∀ i, u = some i → 1 ≤ i) (hp : ∀ i, DistinctPoles P (av i) (p i))
    (hform : DiagForm ev re realC B P av p (fun _ _ => 0) x form) :
    Fails (lfilterDiag ev findEigenvectors re realC (t2 B K bv) a X zi form true u) := by
  obtain ⟨q, r, hs, -, -⟩ := diagSplit_eq ha bv hKP hP true (by simp)
  have hf : form ≠ .other := by rcases hform.cases with h | h <;> simp [h.1]
  obtain ⟨y1, -, -, e1⟩ := ssmLfilter_diff (K := P) (zi := none) (form := form) (.batched r) ha x hf (Or.inl rfl) hB hP (by omega)
    (show 0 < N by omega) hu
  obtain ⟨g, hg⟩ := size_pos_delay (B := B) (fun i t => y1 i (t : Nat)) hNK
  have hX : ∀ x2, (if X.rank = 1 then unsqueeze X 0
      else if 2 < X.rank then .error "ValueError: Input signal x must be 1D or 2D." else pure X) = Except.ok x2 → x2 = t2 B N x := by
    intro x2 h
    cases hx with
    | flat x => rw [if_pos (rank_t1 _ _), unsqueeze_t1_0] at h; exact (Except.ok.inj h).symm
    | batched B x => rw [if_neg (by simp), if_neg (by simp)] at h; exact (Except.ok.inj h).symm
  unfold lfilterDiag lfilterWith
  refine fails_bind fun x2 hx2 => fails_check fun _ => fails_check fun _ => fails_left ?_
  obtain rfl := hX x2 hx2
  unfold diagSsmLfilter
  refine fails_bind fun s hs' => ?_
  rw [hs] at hs'
  cases hs'
  rw [size_t2_n1, size_rows ha, if_pos hKP, diagFilterCore_eq (.batched r) ha x .zero hP hP (by omega) (by omega) hu hu hp hform.cases, e1]
  refine fails_bind fun y hy => ?_
  cases hy
  unfold addDirect
  rw [if_neg (by simp)]
  refine fails_bind fun y hy => ?_
  simp only [if_true] at hy
  rw [hg] at hy
  cases hy
  obtain ⟨m, hm⟩ : ∃ m, K - P = m + 1 := ⟨K - P - 1, by omega⟩
  have ed : fir (t2 B (K - P) q) (t2 B N x) none true =
      .ok (t2 B N fun i t => taps (K - P) (fun k => star (q i k)) (causal (x i)) t, none) := by
    rw [hm]; exact fir_transpose_none q x hB (by omega) (by omega)
  refine fails_bind fun d hd => fails_left ?_
  rw [ed] at hd
  cases hd
  exact add_nm_np_fails _ _ (by omega) (by omega) (by omega)

/-- Five taps over `1 + z⁻²`, two samples. -/
example (b x : Nat → Nat → ℂ) := C23_short_signal (B := 3) (N := 2) (K := 5) (P := 2) (zi := none) (form := .df2) (u := none)
  (ev := Witness.answer 3 2 Witness.rotEig) (re := id) (realC := false) (bv := b) (.shared fun k => if k = 0 then (0 : ℂ) else 1)
  (.batched 3 x) (by decide) (by decide) (by decide) (by decide) (by decide) (by simp) (fun _ => Witness.rot_poles)
  ⟨fun _ m _ => Witness.rotEig_ne m, Witness.rot_lists 3, by simp⟩

/-- A successful sequence of two steps. -/
theorem ok_of_bind {γ δ : Type} {m : Res γ} {f : γ → Res δ} {r : δ} (h : (m >>= f) = .ok r) : ∃ v, m = .ok v ∧ f v = .ok r := by
  cases m with
  | error e => cases h
  | ok v => exact ⟨v, rfl, h⟩

theorem ok_of_check {δ : Type} {c : Prop} [Decidable c] {e : String} {f : Res δ} {r : δ} (h : (check c e >>= fun _ => f) = .ok r) :
    f = .ok r := by
  obtain ⟨v, _, h⟩ := ok_of_bind h
  exact h

/-- Without initial state there is no final state. -/
theorem diagStateSpace_none {α : Type} [Field α] [StarRing α] {ev : Tensor α → Res (Tensor α)} {fe : Tensor α → Tensor α → Res (Tensor α)} {re : α → α} {realC : Bool}
    {x A : Tensor α} {Bm C D : Option (Tensor α)} {out u : Option Int} {r : Tensor α × Option (Tensor α)}
    (h : diagStateSpace ev fe re realC x none none none (some A) Bm C D none out u = .ok r) : r.2 = none := by
  unfold diagStateSpace diagStateSpaceWith at h
  have h := ok_of_check (ok_of_check h)
  simp only at h
  have h := ok_of_check (ok_of_check (ok_of_check h))
  obtain ⟨L, _, h⟩ := ok_of_bind h
  obtain ⟨V, _, h⟩ := ok_of_bind h
  unfold diagRun at h
  obtain ⟨z, _, h⟩ := ok_of_bind h
  obtain ⟨Wz, _, h⟩ := ok_of_bind h
  obtain ⟨Wx, _, h⟩ := ok_of_bind h
  obtain ⟨Wh, _, h⟩ := ok_of_bind h
  obtain ⟨s, hs, h⟩ := ok_of_bind h
  obtain ⟨y, _, h⟩ := ok_of_bind h
  have hs2 : s.2 = none := by
    unfold diagStates at hs
    cases out with
    | none =>
      obtain ⟨_, _, hs⟩ := ok_of_bind hs
      obtain ⟨_, _, hs⟩ := ok_of_bind hs
      obtain ⟨zf, hzf, hs⟩ := ok_of_bind hs
      obtain ⟨_, _, hs⟩ := ok_of_bind hs
      obtain ⟨_, _, hs⟩ := ok_of_bind hs
      obtain ⟨_, _, hs⟩ := ok_of_bind hs
      cases hs
      cases hzf
      rfl
    | some i =>
      simp only [Option.isSome_none, Bool.false_eq_true, if_false] at hs
      obtain ⟨_, _, hs⟩ := ok_of_bind hs
      obtain ⟨_, _, hs⟩ := ok_of_bind hs
      obtain ⟨_, _, hs⟩ := ok_of_bind hs
      obtain ⟨_, _, hs⟩ := ok_of_bind hs
      obtain ⟨_, _, hs⟩ := ok_of_bind hs
      obtain ⟨_, _, hs⟩ := ok_of_bind hs
      obtain ⟨_, _, hs⟩ := ok_of_bind hs
      obtain ⟨_, _, hs⟩ := ok_of_bind hs
      cases hs
      rfl
  cases h
  unfold dropImag
  split
  · simp [hs2]
  · exact hs2

/-- A long numerator without a batch axis always raises, though `lfilter` accepts it with the other backend. -/
theorem C23_flat_numerator {α : Type} [Field α] [StarRing α] {B K P : Nat} {a X : Tensor α} {av : Nat → Nat → α} {zi : Option (Tensor α)} {form : Form} {u : Option Int}
    {ev : Tensor α → Res (Tensor α)} {fe : Tensor α → Tensor α → Res (Tensor α)} {re : α → α} {realC delayed : Bool} (f : Nat → α)
    (ha : Rows B P a av) (hKP : P + 1 < K) : Fails (lfilterDiag ev fe re realC (t1 K f) a X zi form delayed u) := by
  obtain ⟨m, rfl⟩ : ∃ m, K = m + 1 := ⟨K - 1, by omega⟩
  unfold lfilterDiag lfilterWith
  refine fails_bind fun x2 hx2 => fails_check fun _ => fails_check fun _ => fails_left ?_
  have hs : ∀ s, diagSplit (t1 (m + 1) f) a delayed = .ok s → ∃ q, s.2.1 = some q ∧ q.rank = 1 := by
    intro s hs
    unfold diagSplit at hs
    rw [size_rows ha, size_t1_n1, if_pos hKP] at hs
    cases delayed with
    | true =>
      rw [if_pos rfl] at hs
      obtain ⟨v, hv, hs⟩ := ok_of_bind hs
      obtain ⟨qr, hq, hs⟩ := ok_of_bind hs
      cases ha with
      | shared g =>
        have hv := (padDim_t1_n1_left P 1 g 1).symm.trans hv
        cases hv
        have := Poly.polydiv_eq (m := m) (.flat (B := 1) (K := P + 1) fun i => if i < 1 then (1 : α) else g (i - 1)) (fun _ => f) (by omega)
        rw [packed, if_pos rfl] at this
        rw [this] at hq
        cases hq
        cases hs
        exact ⟨_, rfl, by simp [packed]⟩
      | batched =>
        have hv := (padDim_t2_n1_left B P 1 av 1).symm.trans hv
        cases hv
        obtain ⟨e, he⟩ := C21_flat_dividend B P m f fun i j => if j < 1 then (1 : α) else av i (j - 1)
        rw [he] at hq
        cases hq
    | false =>
      rw [if_neg (by simp)] at hs
      obtain ⟨bf, hbf, hs⟩ := ok_of_bind hs
      obtain ⟨af, haf, hs⟩ := ok_of_bind hs
      obtain ⟨v, hv, hs⟩ := ok_of_bind hs
      obtain ⟨qr, hq, hs⟩ := ok_of_bind hs
      rw [flip_t1_n1] at hbf
      cases hbf
      cases ha with
      | shared g =>
        rw [flip_t1_n1] at haf
        cases haf
        have hv := (padDim_t1_n1_right P 1 _ 1).symm.trans hv
        cases hv
        have := Poly.polydiv_eq (m := m) (.flat (B := 1) (K := P + 1) fun i => if i < P then g (P - 1 - i) else (1 : α))
          (fun _ j => f (m + 1 - 1 - j)) (by omega)
        rw [packed, if_pos rfl] at this
        rw [this] at hq
        cases hq
        simp only [packed, if_true] at hs
        obtain ⟨q, hq, hs⟩ := ok_of_bind hs
        rw [flip_t1_n1] at hq
        cases hq
        obtain ⟨r, hr, hs⟩ := ok_of_bind hs
        cases hs
        exact ⟨_, rfl, rfl⟩
      | batched =>
        rw [flip_t2_n1] at haf
        cases haf
        have hv := (padDim_t2_n1_right B P 1 _ 1).symm.trans hv
        cases hv
        obtain ⟨e, he⟩ := C21_flat_dividend B P m (fun j => f (m + 1 - 1 - j)) fun i j => if j < P then av i (P - 1 - j) else (1 : α)
        rw [he] at hq
        cases hq
  unfold diagSsmLfilter
  refine fails_bind fun s hs' => fails_bind fun r hr => ?_
  obtain ⟨q, hq, hrank⟩ := hs s hs'
  rw [size_rows ha, size_t1_n1, if_pos hKP] at hr
  have hr2 : r.2 = none := by
    unfold diagFilterCore diagFilterCoreWith at hr
    obtain ⟨_, _, hr⟩ := ok_of_bind hr
    obtain ⟨_, _, hr⟩ := ok_of_bind hr
    cases form with
    | df2 =>
      obtain ⟨_, _, hr⟩ := ok_of_bind hr
      exact diagStateSpace_none hr
    | tdf2 =>
      obtain ⟨_, _, hr⟩ := ok_of_bind hr
      obtain ⟨_, _, hr⟩ := ok_of_bind hr
      exact diagStateSpace_none hr
    | df1 => cases hr
    | tdf1 => cases hr
    | other => cases hr
  unfold addDirect
  rw [hr2, if_neg (by simp)]
  refine fails_bind fun y hy => ?_
  rw [hq]
  refine fails_left ?_
  unfold fir
  exact fails_check fun h => by omega

example (X : Tensor ℚ) (ev : Tensor ℚ → Res (Tensor ℚ)) (fe : Tensor ℚ → Tensor ℚ → Res (Tensor ℚ)) :=
  C23_flat_numerator (B := 3) (K := 4) (P := 2) (X := X) (zi := none) (form := .tdf2) (u := none) (ev := ev) (fe := fe) (re := id) (realC := true)
    (delayed := true) (fun j => (j : ℚ)) (.batched fun i k => (i : ℚ) + k) (by decide)

/-- Non-vacuity: poles `i`, `-i`. -/
theorem two_poles_lists (B : Nat) : ListsEigenvalues (fun A : Tensor ℂ => .ok (if A.rank = 2 then
      t1 2 (fun m => if m = 0 then Complex.I else -Complex.I) else t2 B 2 fun _ m => if m = 0 then Complex.I else -Complex.I)) B 2
    (fun _ => comp fun k => if k = 0 then 0 else 1) := by
  have key : ∀ c : ℂ, (∃ m, m < 2 ∧ (if m = 0 then Complex.I else -Complex.I) = c) ↔
      ∃ v, Eigenvector 2 (comp fun k => if k = 0 then (0 : ℂ) else 1) c v := by
    intro c
    constructor
    · rintro ⟨m, hm, rfl⟩
      refine ⟨_, comp_eigenvector (by decide) ?_⟩
      split <;> simp [Finset.sum_range_succ]
    · rintro ⟨v, ⟨i, hi, hv⟩, he⟩
      have h0 := he 0 (by decide)
      have h1 := he 1 (by decide)
      simp [comp, Finset.sum_range_succ] at h0 h1
      have h3 : v 1 ≠ 0 := by
        intro h3
        have : i = 0 ∨ i = 1 := by omega
        rcases this with rfl | rfl
        · rw [h3, mul_zero] at h1; exact hv h1
        · exact hv h3
      have h4 : c ^ 2 = Complex.I ^ 2 := by
        rw [Complex.I_sq]
        have : (c ^ 2 + 1) * v 1 = 0 := by rw [h1] at h0; linear_combination -h0
        have := (mul_eq_zero.1 this).resolve_right h3
        linear_combination this
      rcases sq_eq_sq_iff_eq_or_eq_neg.1 h4 with rfl | rfl
      · exact ⟨0, by decide, rfl⟩
      · exact ⟨1, by decide, rfl⟩
  intro A hA
  generalize hAv : (fun _ : Nat => comp fun k => if k = 0 then (0 : ℂ) else 1) = Av at hA
  cases hA with
  | shared g =>
    refine ⟨_, _, congrArg Except.ok (if_pos (rank_t2 _ _ _)), .shared _ _, fun b c => ?_⟩
    rw [← congrFun hAv 0]; exact key c
  | batched g =>
    refine ⟨_, _, congrArg Except.ok (if_neg (by simp)), .batched _ _, fun b c => ?_⟩
    rw [← congrFun hAv b]; exact key c

/-- Five real taps over the denominator `1 + z⁻²`, delayed split; an initial state is given and has no effect. -/
example (b : Nat → Nat → ℝ) (x : Nat → Nat → ℂ) (z : Nat → ℂ) :
    lfilterDiag (fun A : Tensor ℂ => .ok (if A.rank = 2 then
      t1 2 (fun m => if m = 0 then Complex.I else -Complex.I) else t2 3 2 fun _ m => if m = 0 then Complex.I else -Complex.I))
        findEigenvectors id false (t2 3 5 fun i k => (b i k : ℂ)) (t1 2 fun k => if k = 0 then 0 else 1) (t2 3 7 x) (some (t1 2 z)) .df2 true none =
      lfilter (t2 3 5 fun i k => (b i k : ℂ)) (t1 2 fun k => if k = 0 then 0 else 1) (t2 3 7 x) none .df2 (some 2) := by
  refine C23_long_partial (p := fun _ m => if m = 0 then Complex.I else -Complex.I) (.shared fun k => if k = 0 then (0 : ℂ) else 1) (.batched 3 x)
    (by decide) (by decide) (by decide) (by decide) (by simp) (by simp) (fun _ => ⟨fun m hm => ?_, fun m n hm hn e => ?_⟩)
    ⟨fun i m hm => ?_, two_poles_lists 3, by simp⟩ (by simp) (fun _ => ⟨by simp, fun i k => by split <;> simp⟩)
  · beta_reduce; split <;> simp [Finset.sum_range_succ]
  · have h1 : m = 0 ∨ m = 1 := by omega
    have h2 : n = 0 ∨ n = 1 := by omega
    rcases h1 with rfl | rfl <;> rcases h2 with rfl | rfl <;> first | rfl | (exfalso; have := congrArg Complex.im e; norm_num at this)
  · beta_reduce; split <;> simp

/-- The taps `i, 0, 0, 0, 0` over `1 + z⁻²` applied to an impulse: the default backend starts with `i`, `diag_ssm` with `-i`. -/
example : ∃ y y' : Nat → Nat → ℂ,
    lfilter (t2 3 5 fun _ k => if k = 0 then Complex.I else 0) (t1 2 fun k => if k = 0 then 0 else 1)
      (t2 3 7 fun _ t => if t = 0 then (1 : ℂ) else 0) none .df2 none = .ok (t2 3 7 y, none) ∧
    lfilterDiag (fun A : Tensor ℂ => .ok (if A.rank = 2 then t1 2 (fun m => if m = 0 then Complex.I else -Complex.I)
        else t2 3 2 fun _ m => if m = 0 then Complex.I else -Complex.I)) findEigenvectors id false
      (t2 3 5 fun _ k => if k = 0 then Complex.I else 0) (t1 2 fun k => if k = 0 then 0 else 1)
      (t2 3 7 fun _ t => if t = 0 then (1 : ℂ) else 0) none .df2 true none = .ok (t2 3 7 y', none) ∧
    y 1 0 = Complex.I * 1 ∧ y' 1 0 = star Complex.I * 1 ∧ y' 1 0 ≠ y 1 0 := by
  refine C23_complex_taps (i := 1) (bv := fun _ k => if k = 0 then Complex.I else 0) (x := fun _ t => if t = 0 then (1 : ℂ) else 0)
    (p := fun _ m => if m = 0 then Complex.I else -Complex.I) (.shared fun k => if k = 0 then (0 : ℂ) else 1)
    (by decide) (by decide) (by decide) (by simp) (by simp) (fun _ => ⟨fun m hm => ?_, fun m n hm hn e => ?_⟩) (fun i m hm => ?_)
    (two_poles_lists 3) (by decide) (fun h => ?_) (by simp)
  · beta_reduce; split <;> simp [Finset.sum_range_succ]
  · have h1 : m = 0 ∨ m = 1 := by omega
    have h2 : n = 0 ∨ n = 1 := by omega
    rcases h1 with rfl | rfl <;> rcases h2 with rfl | rfl <;> first | rfl | (exfalso; have := congrArg Complex.im e; norm_num at this)
  · split <;> simp
  · have := congrArg Complex.im h
    norm_num at this

/-- Non-vacuity: the double pole `1`. -/
theorem double_pole_lists (B : Nat) : ListsEigenvalues (fun A : Tensor ℂ => .ok (if A.rank = 2 then t1 2 (fun _ => 1) else t2 B 2 fun _ _ => 1)) B 2
    (fun _ => comp fun k => if k = 0 then -2 else 1) := by
  have key : ∀ c : ℂ, (∃ m, m < 2 ∧ (1 : ℂ) = c) ↔ ∃ v, Eigenvector 2 (comp fun k => if k = 0 then (-2 : ℂ) else 1) c v := by
    intro c
    constructor
    · rintro ⟨m, hm, rfl⟩
      refine ⟨_, comp_eigenvector (by decide) ?_⟩
      norm_num [Finset.sum_range_succ]
    · rintro ⟨v, hv⟩
      have h := comp_eigen_root hv
      norm_num [Finset.sum_range_succ] at h
      refine ⟨0, by decide, ?_⟩
      have : (c - 1) ^ 2 = 0 := by linear_combination h
      exact (sub_eq_zero.1 (pow_eq_zero_iff (by decide)|>.1 this)).symm
  intro A hA
  generalize hAv : (fun _ : Nat => comp fun k => if k = 0 then (-2 : ℂ) else 1) = Av at hA
  cases hA with
  | shared g =>
    refine ⟨_, _, congrArg Except.ok (if_pos (rank_t2 _ _ _)), .shared _ _, fun b c => ?_⟩
    rw [← congrFun hAv 0]; exact key c
  | batched g =>
    refine ⟨_, _, congrArg Except.ok (if_neg (by simp)), .batched _ _, fun b c => ?_⟩
    rw [← congrFun hAv b]; exact key c

/-- The denominator `(1 - z⁻¹)²`: every call of `diag_ssm` in form df2 raises. -/
example (b X : Tensor ℂ) (zi : Option (Tensor ℂ)) :
    Fails (lfilterDiag (fun A : Tensor ℂ => .ok (if A.rank = 2 then t1 2 (fun _ => 1) else t2 3 2 fun _ _ => 1))
      findEigenvectors id false b (t1 2 fun k => if k = 0 then -2 else 1) X zi .df2 true none) := by
  refine C23_repeated_pole (i := 0) (.shared _) (by decide) (.inl ⟨rfl, double_pole_lists 3⟩) (by decide) fun p hp => ?_
  have h1 : ∀ m, m < 2 → p m = 1 := fun m hm => by
    have h := hp.1 m hm
    norm_num [Finset.sum_range_succ] at h
    have : (p m - 1) ^ 2 = 0 := by linear_combination h
    exact sub_eq_zero.1 (pow_eq_zero_iff (by decide)|>.1 this)
  exact absurd (hp.2 0 1 (by decide) (by decide) ((h1 0 (by decide)).trans (h1 1 (by decide)).symm)) (by decide)

end Props
