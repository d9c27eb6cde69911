import Verif.Proof.Witness
import Verif.Proof.LtiDiagBasis

/-!
# C62: `lfilter(backend="diag_ssm")` with given poles and eigenvectors

The keyword arguments `L` (poles), `V` and `Vinv` (eigenvectors and their inverse) are handed on to `diag_state_space`, as in
tests/test_lti_lfilter.py.  They are not compared with the denominator `a`, which still decides the numerator and the shapes.
-/

namespace Props
open Torch Torch.Tensor Spec Phil Phil.Lti Phil.Mat Finset

variable {β : Type} [RCLike β]

/-- What a real numerator (`realC`: real parts are taken) asks for: real denominator, initial state and signal. -/
def RealData (re : β → β) (realC : Bool) (av z x : Nat → Nat → β) : Prop :=
  realC = true → (∀ c, star c = c → re c = c) ∧ (∀ i k, star (av i k) = av i k) ∧ (∀ i m, star (z i m) = z i m) ∧ ∀ i t, star (x i t) = x i t

/-- **C62 (partial), any right basis.**  If `V diag(L) Vinv` is the state matrix of the form (the companion matrix, conjugated and
transposed in form tdf2) and `L` has a batch axis exactly if `a` has one, the call with `L` and `V`, `Vinv` or both returns what the
`ssm` backend returns.  Such a basis exists exactly for distinct poles (`C62_basis_exists`); a zero pole is allowed. -/
theorem C62_given_basis_partial {B N K P : Nat} {b a L V W X : Tensor β} {V' W' : Option (Tensor β)} {bv av l z x : Nat → Nat → β}
    {v w : Nat → Nat → Nat → β} {zi : Option (Tensor β)} {form : Form}
    {u u' : Option Int} {ev : Tensor β → Res (Tensor β)} {fe : Tensor β → Tensor β → Res (Tensor β)} {re : β → β} {realC delayed : Bool}
    (hb : Rows B K b bv) (ha : Rows B P a av) (hx : Sig N B X x) (hz : InitState B P zi z) (hP : 0 < P) (hK : 0 < K) (hKP : K ≤ P + 1)
    (hN : 0 < N) (hu : ∀ i, u = some i → 1 ≤ i) (hu' : ∀ i, u' = some i → 1 ≤ i)
    (hE : Eigen B P L V W l v w) (hlay : L.rank = a.rank)
    (hV' : V' = none ∨ V' = some V) (hW' : W' = none ∨ W' = some W) (hone : V'.isSome ∨ W'.isSome)
    (hform : form = .df2 ∧ (∀ i, Diagonalises P (comp (av i)) (l i) (v i) (w i)) ∧ RealData re realC av z x ∨
      form = .tdf2 ∧ ∀ i, Diagonalises P (fun j k => comp (fun k => star (av i k)) k j) (l i) (v i) (w i)) :
    lfilterDiagWith (some L) V' W' ev fe re realC b a X zi form delayed u = lfilter b a X zi form u' := by
  refine lfilterWith_congr hx ?_
  rw [diagSsm_short (by rw [size_rows hb, size_rows ha]; exact hKP)]
  rcases hform with ⟨rfl, hd, hr⟩ | ⟨rfl, hd⟩
  · exact diagFilterCoreWith_basis hb ha x hz hP hK hKP hN hu hu' hE hlay hd hV' hW' hone (Or.inl rfl) fun _ => hr
  · exact diagFilterCoreWith_basis hb ha x hz hP hK hKP hN hu hu' hE hlay hd hV' hW' hone (Or.inr rfl) (by simp)

example (b x : Nat → Nat → ℂ) (z : Nat → ℂ) (ev : Tensor ℂ → Res (Tensor ℂ)) (w : Nat → Nat → ℂ)
    (hw : Diagonalises 2 (comp fun k => if k = 0 then 0 else 1) Witness.rotEig (fun i j => Witness.rotEig j ^ (2 - 1 - i)) w) :=
  C62_given_basis_partial (B := 3) (N := 7) (K := 2) (P := 2) (form := .df2) (u := none) (u' := some 2) (ev := ev) (fe := findEigenvectors)
    (re := id) (realC := false) (delayed := true) (.batched b) (.shared fun k => if k = 0 then (0 : ℂ) else 1) (.batched 3 x) (.shared z)
    (by decide) (by decide) (by decide) (by decide) (by simp) (by simp) (.shared _ _ w) (by simp) (Or.inr rfl) (Or.inl rfl) (by simp)
    (Or.inl ⟨rfl, fun _ => hw, by simp [RealData]⟩)

/-- **C62 (partial), more than `P + 1` taps** (given with a batch axis): again the `ssm` backend, but without the initial state. -/
theorem C62_long_partial {B N K P : Nat} {a L V W X : Tensor β} {V' W' : Option (Tensor β)} {bv av l x : Nat → Nat → β}
    {v w : Nat → Nat → Nat → β} {zi : Option (Tensor β)} {form : Form}
    {u u' : Option Int} {ev : Tensor β → Res (Tensor β)} {fe : Tensor β → Tensor β → Res (Tensor β)} {re : β → β} {realC delayed : Bool}
    (ha : Rows B P a av) (hx : Sig N B X x) (hB : 0 < B) (hP : 0 < P) (hKP : P + 1 < K)
    (hN : 0 < N) (hu : ∀ i, u = some i → 1 ≤ i) (hu' : ∀ i, u' = some i → 1 ≤ i)
    (hE : Eigen B P L V W l v w) (hlay : L.rank = a.rank)
    (hV' : V' = none ∨ V' = some V) (hW' : W' = none ∨ W' = some W) (hone : V'.isSome ∨ W'.isSome)
    (hform : form = .df2 ∧ (∀ i, Diagonalises P (comp (av i)) (l i) (v i) (w i)) ∧ RealData re realC av (fun _ _ => 0) x ∨
      form = .tdf2 ∧ ∀ i, Diagonalises P (fun j k => comp (fun k => star (av i k)) k j) (l i) (v i) (w i))
    (hsplit : if delayed then K - P ≤ N else ∀ i, av i (P - 1) ≠ 0)
    (hconj : form = .df2 → (∀ i k, star (bv i k) = bv i k) ∧ ∀ i k, star (av i k) = av i k) :
    lfilterDiagWith (some L) V' W' ev fe re realC (t2 B K bv) a X zi form delayed u = lfilter (t2 B K bv) a X none form u' := by
  have hff : form = .df2 ∨ form = .tdf2 := by rcases hform with h | h <;> simp [h.1]
  refine diagLongWith_ssm ha hx hB hP hKP hN hu' (fun r => ?_) hsplit hff hconj
  rcases hform with ⟨rfl, hd, hr⟩ | ⟨rfl, hd⟩
  · exact diagFilterCoreWith_basis (.batched r) ha x .zero hP hP (by omega) hN hu hu' hE hlay hd hV' hW' hone (Or.inl rfl) fun _ => hr
  · exact diagFilterCoreWith_basis (.batched r) ha x .zero hP hP (by omega) hN hu hu' hE hlay hd hV' hW' hone (Or.inr rfl) (by simp)

example (x : Nat → Nat → ℂ) (zi : Option (Tensor ℂ)) (ev : Tensor ℂ → Res (Tensor ℂ)) (w : Nat → Nat → ℂ)
    (hw : Diagonalises 2 (comp fun k => if k = 0 then 0 else 1) Witness.rotEig (fun i j => Witness.rotEig j ^ (2 - 1 - i)) w) :=
  C62_long_partial (B := 3) (N := 7) (K := 5) (P := 2) (bv := fun i k => (i : ℂ) + k) (form := .df2) (u := none) (u' := some 2) (ev := ev)
    (fe := findEigenvectors) (re := id) (realC := false) (delayed := true) (zi := zi) (.shared fun k => if k = 0 then (0 : ℂ) else 1)
    (.batched 3 x) (by decide) (by decide) (by decide) (by decide) (by simp) (by simp) (.shared _ _ w) (by simp) (Or.inr rfl) (Or.inl rfl)
    (by simp) (Or.inl ⟨rfl, fun _ => hw, by simp [RealData]⟩) (by simp) (fun _ => ⟨by simp, fun i k => by split <;> simp⟩)

/-- The columns `(p^(P-1), …, p, 1)` of `vandermonde` for distinct poles, and the inverse. -/
theorem vandermonde_diagonalises {P : Nat} {a p : Nat → β} (hP : 0 < P) (hp : DistinctPoles P a p) :
    ∃ w, Diagonalises P (comp a) p (fun i j => p j ^ (P - 1 - i)) w :=
  ⟨_, eigenbasis_diagonalises (fun m hm => comp_eigenvector hP (hp.1 m hm)) hp.2⟩

/-- The columns of a diagonalising basis are eigenvectors. -/
theorem diagonalises_column {M : Nat} {A : Nat → Nat → β} {l : Nat → β} {v w : Nat → Nat → β} (h : Diagonalises M A l v w) {m : Nat} (hm : m < M) :
    (∀ i j, i < M → j < M → ∑ k ∈ range M, w i k * v k j = if i = j then 1 else 0) ∧
      ∀ i, i < M → ∑ j ∈ range M, A i j * v j m = l m * v i m := by
  have h1 : mat M M v * mat M M w = 1 := by
    rw [← mat_mul]
    ext ⟨i, hi⟩ ⟨j, hj⟩
    simp only [mat, Matrix.of_apply, h.2 i j hi hj, Matrix.one_apply, Fin.mk.injEq]
  have h2 := mul_eq_one_comm.1 h1
  rw [← mat_mul] at h2
  have h3 : ∀ i j, i < M → j < M → ∑ k ∈ range M, w i k * v k j = if i = j then 1 else 0 := by
    intro i j hi hj
    have := congrFun (congrFun h2 ⟨i, hi⟩) ⟨j, hj⟩
    simpa only [mat, Matrix.of_apply, Matrix.one_apply, Fin.mk.injEq] using this
  refine ⟨h3, fun i hi => ?_⟩
  calc ∑ j ∈ range M, A i j * v j m = ∑ j ∈ range M, ∑ k ∈ range M, v i k * l k * (w k j * v j m) :=
        sum_congr rfl fun j hj => by
          rw [h.1 i j hi (mem_range.1 hj), sum_mul]
          exact sum_congr rfl fun k _ => by ring
    _ = ∑ k ∈ range M, v i k * l k * if k = m then 1 else 0 := by
        rw [sum_comm]
        exact sum_congr rfl fun k hk => by rw [← mul_sum, h3 k m (mem_range.1 hk) hm]
    _ = l m * v i m := by
        rw [Finset.sum_eq_single m (fun k _ hk => by rw [if_neg hk, mul_zero]) fun hn => absurd (mem_range.2 hm) hn, if_pos rfl]
        ring

/-- **When a basis exists.**  A companion matrix can be diagonalised exactly if its polynomial has `P` distinct roots; the eigenvalues are then
such roots. -/
theorem C62_basis_exists {P : Nat} {a l : Nat → β} (hP : 0 < P) :
    (∃ v w, Diagonalises P (comp a) l v w) ↔ DistinctPoles P a l := by
  refine ⟨fun ⟨v, w, h⟩ => ?_, fun h => ⟨_, vandermonde_diagonalises hP h⟩⟩
  have hcol : ∀ m, m < P → ∀ d, d < P → v (P - 1 - d) m = l m ^ d * v (P - 1) m := by
    intro m hm d
    induction d with
    | zero => intro _; simp
    | succ d ih =>
      intro hd
      have e := (diagonalises_column h hm).2 (P - 1 - d) (by omega)
      rw [comp_mv _ _ (by omega), if_neg (by omega), ih (by omega)] at e
      rw [show P - 1 - (d + 1) = P - 1 - d - 1 by omega, e]
      ring
  have hne : ∀ m, m < P → v (P - 1) m ≠ 0 := by
    intro m hm h0
    have := (diagonalises_column h hm).1 m m hm hm
    rw [if_pos rfl, Finset.sum_eq_zero fun k hk => ?_] at this
    · exact zero_ne_one this
    · have hk := mem_range.1 hk
      have := hcol m hm (P - 1 - k) (by omega)
      rw [show P - 1 - (P - 1 - k) = k by omega, h0, mul_zero] at this
      rw [this, mul_zero]
  refine ⟨fun m hm => comp_eigen_root (v := fun i => v i m) ⟨⟨P - 1, by omega, hne m hm⟩, (diagonalises_column h hm).2⟩, fun m n hm hn e => ?_⟩
  by_contra hmn
  have h1 := (diagonalises_column h hm).1 m n hm hn
  have h2 := (diagonalises_column h hm).1 m m hm hm
  rw [if_neg hmn] at h1
  rw [if_pos rfl] at h2
  refine hne n hn ?_
  calc v (P - 1) n = v (P - 1) n * ∑ k ∈ range P, w m k * v k m := by rw [h2, mul_one]
    _ = v (P - 1) m * ∑ k ∈ range P, w m k * v k n := by
      rw [mul_sum, mul_sum]
      refine sum_congr rfl fun k hk => ?_
      have hk := mem_range.1 hk
      have e1 := hcol m hm (P - 1 - k) (by omega)
      have e2 := hcol n hn (P - 1 - k) (by omega)
      rw [show P - 1 - (P - 1 - k) = k by omega] at e1 e2
      rw [e1, e2, e]; ring
    _ = 0 := by rw [h1, mul_zero]

example : ∃ v w, Diagonalises 2 (comp fun k => if k = 0 then 0 else 1) Witness.rotEig v w :=
  (C62_basis_exists (by decide)).2 Witness.rot_poles

/-- Transposing a decomposition. -/
theorem diagonalises_transpose {M : Nat} {A : Nat → Nat → β} {l : Nat → β} {v w : Nat → Nat → β} (h : Diagonalises M A l v w) :
    Diagonalises M (fun i j => A j i) l (fun i j => w j i) (fun i j => v j i) := by
  refine ⟨fun i j hi hj => ?_, fun i j hi hj => ?_⟩
  · beta_reduce
    rw [h.1 j i hj hi]
    exact sum_congr rfl fun m _ => by ring
  · beta_reduce
    have := h.2 j i hj hi
    rw [← sum_congr rfl fun m (_ : m ∈ range M) => mul_comm (v j m) (w m i), this]
    exact if_congr eq_comm rfl rfl

/-- **C62, the call of the tests in form df2**: `L = p`, `V = vandermonde(p)` for the distinct roots `p` of a denominator without batch
axis gives what the `ssm` backend gives.  A zero pole is allowed (without `V` it makes the call raise, `C23_zero_pole`). -/
theorem C62_vandermonde_df2 {B N K P : Nat} {b X : Tensor β} {bv z x : Nat → Nat → β} {av p : Nat → β} {zi : Option (Tensor β)}
    {u u' : Option Int} {ev : Tensor β → Res (Tensor β)} {fe : Tensor β → Tensor β → Res (Tensor β)} {re : β → β} {realC delayed : Bool}
    (hb : Rows B K b bv) (hx : Sig N B X x) (hz : InitState B P zi z) (hP : 0 < P) (hK : 0 < K) (hKP : K ≤ P + 1)
    (hN : 0 < N) (hu : ∀ i, u = some i → 1 ≤ i) (hu' : ∀ i, u' = some i → 1 ≤ i) (hp : DistinctPoles P av p)
    (hreal : RealData re realC (fun _ => av) z x) :
    (do let V ← vandermonde (t1 P p)
        lfilterDiagWith (some (t1 P p)) (some V) none ev fe re realC b (t1 P av) X zi .df2 delayed u) =
      lfilter b (t1 P av) X zi .df2 u' := by
  obtain ⟨w, hd⟩ := vandermonde_diagonalises hP hp
  refine bind_step (vandermonde_t1 p) ?_
  exact C62_given_basis_partial hb (.shared av) hx hz hP hK hKP hN hu hu' (.shared p _ w) (by simp) (Or.inr rfl) (Or.inl rfl) (Or.inl rfl)
    (Or.inl ⟨rfl, fun _ => hd, hreal⟩)

/-- **C62, the call of the tests in form tdf2**: `L = p`, `Vinv = vandermonde(p).T` for the distinct roots `p` of a real denominator. -/
theorem C62_vandermonde_tdf2 {B N K P : Nat} {b X : Tensor β} {bv z x : Nat → Nat → β} {av p : Nat → β} {zi : Option (Tensor β)}
    {u u' : Option Int} {ev : Tensor β → Res (Tensor β)} {fe : Tensor β → Tensor β → Res (Tensor β)} {re : β → β} {realC delayed : Bool}
    (hb : Rows B K b bv) (hx : Sig N B X x) (hz : InitState B P zi z) (hP : 0 < P) (hK : 0 < K) (hKP : K ≤ P + 1)
    (hN : 0 < N) (hu : ∀ i, u = some i → 1 ≤ i) (hu' : ∀ i, u' = some i → 1 ≤ i) (hp : DistinctPoles P av p)
    (hav : ∀ k, star (av k) = av k) :
    (do let V ← vandermonde (t1 P p)
        let W ← mT V
        lfilterDiagWith (some (t1 P p)) none (some W) ev fe re realC b (t1 P av) X zi .tdf2 delayed u) =
      lfilter b (t1 P av) X zi .tdf2 u' := by
  obtain ⟨w, hd⟩ := vandermonde_diagonalises hP hp
  refine bind_step (vandermonde_t1 p) (bind_step (transpose_t2_n2_n1 _ _ _) ?_)
  refine C62_given_basis_partial hb (.shared av) hx hz hP hK hKP hN hu hu' (.shared p (fun i j => w j i) _) (by simp) (Or.inl rfl) (Or.inr rfl)
    (Or.inr rfl) (Or.inr ⟨rfl, fun _ => ?_⟩)
  have := diagonalises_transpose hd
  simpa only [hav] using this

/-- **C62, the poles override the denominator** (form df2).  Given the distinct roots `p` of *another* denominator `c`, the call
filters with denominator `c`; its numerator is `b_0`, `b_k + b_0 (c_k - a_k)`: neither `b / a` nor `b / c`.  Nothing is raised. -/
theorem C62_override_df2 {B N K P : Nat} {b b' X : Tensor β} {bv z x : Nat → Nat → β} {av c p : Nat → β} {zi : Option (Tensor β)}
    {u u' : Option Int} {ev : Tensor β → Res (Tensor β)} {fe : Tensor β → Tensor β → Res (Tensor β)} {re : β → β} {realC delayed : Bool}
    (hb : Rows B K b bv) (hx : Sig N B X x) (hz : InitState B P zi z) (hP : 0 < P) (hKP : K ≤ P + 1)
    (hN : 0 < N) (hu : ∀ i, u = some i → 1 ≤ i) (hu' : ∀ i, u' = some i → 1 ≤ i) (hp : DistinctPoles P c p)
    (hb' : Rows B (P + 1) b' fun i => overrideNum (zext K (bv i)) av c) (hbr : b.rank = b'.rank)
    (hreal : RealData re realC (fun _ => c) z x) :
    (do let V ← vandermonde (t1 P p)
        lfilterDiagWith (some (t1 P p)) (some V) none ev fe re realC b (t1 P av) X zi .df2 delayed u) =
      lfilter b' (t1 P c) X zi .df2 u' := by
  obtain ⟨w, hd⟩ := vandermonde_diagonalises hP hp
  obtain ⟨b₁, e1, e2⟩ := override_coefs hb hKP hb' hbr
  have e3' : padOrders b' (t1 P c) = .ok (b', t1 P c) := by
    unfold padOrders
    rw [size_rows hb', size_t1_n1, if_neg (by omega), if_neg (by omega)]; rfl
  obtain ⟨C, D, eC, hC, hD⟩ := outputCoefs_eq hb' (.shared c)
  refine bind_step (vandermonde_t1 p) (lfilterWith_congr_coefs hx hbr (by simp) ?_)
  rw [diagSsm_short (by rw [size_rows hb, size_t1_n1]; exact hKP)]
  unfold diagFilterCoreWith ssmLfilter
  rw [e1, e3']
  refine bind_step rfl (bind_step (companion_t1 av hP) (Eq.symm (bind_step rfl (bind_step (companion_t1 c hP) ?_))))
  simp only
  refine bind_step eC (Eq.symm ?_)
  rw [e2]
  refine bind_step eC ?_
  refine C22_given_basis_partial (A := t2 P P (comp c)) (Av := fun _ => comp c) (.shared p _ w) (.shared _) (fun _ => hd) (Or.inr rfl) (Or.inl rfl) (Or.inl rfl) (fun A₁ h => ?_)
    (.none (.scalar x)) (readout_rows hC) (feed_gain hD x) hz hP hN hu hu' fun _ hr => ?_
  · cases h; rfl
  · obtain ⟨r1, r2, r3, r4⟩ := hreal hr
    refine ⟨r1, fun i j k => ?_, r3, fun i t k => ?_⟩
    · rw [star_comp]; simp only [r2 0]
    · split
      · exact r4 i t
      · exact star_zero _

/-- The same in form tdf2 with `Vinv = vandermonde(p).T`: the denominator becomes the *conjugate* of `c` (form tdf2 conjugates its
coefficients, the given matrices are not conjugated). -/
theorem C62_override_tdf2 {B N K P : Nat} {b b' X : Tensor β} {bv z x : Nat → Nat → β} {av c p : Nat → β} {zi : Option (Tensor β)}
    {u u' : Option Int} {ev : Tensor β → Res (Tensor β)} {fe : Tensor β → Tensor β → Res (Tensor β)} {re : β → β} {realC delayed : Bool}
    (hb : Rows B K b bv) (hx : Sig N B X x) (hz : InitState B P zi z) (hP : 0 < P) (hKP : K ≤ P + 1)
    (hN : 0 < N) (hu : ∀ i, u = some i → 1 ≤ i) (hu' : ∀ i, u' = some i → 1 ≤ i) (hp : DistinctPoles P c p)
    (hb' : Rows B (P + 1) b' fun i => overrideNum (zext K (bv i)) av fun k => star (c k)) (hbr : b.rank = b'.rank) :
    (do let V ← vandermonde (t1 P p)
        let W ← mT V
        lfilterDiagWith (some (t1 P p)) none (some W) ev fe re realC b (t1 P av) X zi .tdf2 delayed u) =
      lfilter b' (t1 P fun k => star (c k)) X zi .tdf2 u' := by
  obtain ⟨w, hd⟩ := vandermonde_diagonalises hP hp
  obtain ⟨b₁, e1, e2⟩ := override_coefs hb hKP hb' hbr
  have e3' : padOrders b' (t1 P fun k => star (c k)) = .ok (b', t1 P fun k => star (c k)) := by
    unfold padOrders
    rw [size_rows hb', size_t1_n1, if_neg (by omega), if_neg (by omega)]; rfl
  obtain ⟨C, D, eC, hC, hD⟩ := outputCoefs_eq hb' (.shared fun k => star (c k))
  refine bind_step (vandermonde_t1 p) (bind_step (transpose_t2_n2_n1 _ _ _) (lfilterWith_congr_coefs hx hbr (by simp) ?_))
  rw [diagSsm_short (by rw [size_rows hb, size_t1_n1]; exact hKP)]
  unfold diagFilterCoreWith ssmLfilter
  rw [e1, e3']
  refine bind_step rfl (bind_step (companion_t1 av hP) (Eq.symm (bind_step rfl (bind_step (companion_t1 _ hP) ?_))))
  simp only
  refine bind_step eC (bind_step (transpose_t2_n2_n1 _ _ _) (Eq.symm ?_))
  rw [e2]
  refine bind_step eC (bind_step (transpose_t2_n2_n1 _ _ _) ?_)
  rw [conj_t2, conj_t2]
  simp only [star_comp, star_star]
  refine C22_out_idx (Av := fun _ i j => comp c j i) (.shared p (fun i j => w j i) _) (.shared _) (fun _ => diagonalises_transpose hd) (Or.inl rfl) (Or.inr rfl) (Or.inr rfl) (fun A₁ h => ?_)
    (input_rows (conj_rows hC) x) (feed_gain (conj_gain hD) x) hz (by omega) hN hu hu'
  cases h; rfl

example (b x : Nat → Nat → ℂ) (z av : Nat → ℂ) (ev : Tensor ℂ → Res (Tensor ℂ)) :=
  C62_override_tdf2 (B := 3) (N := 7) (K := 2) (P := 2) (av := av) (u := none) (u' := some 2) (ev := ev) (fe := findEigenvectors) (re := id)
    (realC := true) (delayed := true) (.batched b) (.batched 3 x) (.shared z) (by decide) (by decide) (by decide) (by simp) (by simp)
    Witness.rot_poles (.batched _) (by simp)

/-- Keyword arguments `V` and `Vinv` without `L` are silently ignored. -/
theorem C62_basis_without_poles (V W : Option (Tensor β)) (ev : Tensor β → Res (Tensor β)) (fe : Tensor β → Tensor β → Res (Tensor β))
    (re : β → β) (realC : Bool) (b a X : Tensor β) (zi : Option (Tensor β)) (form : Form) (delayed : Bool) (u : Option Int) :
    lfilterDiagWith none V W ev fe re realC b a X zi form delayed u = lfilterDiag ev fe re realC b a X zi form delayed u := by
  unfold lfilterDiagWith lfilterDiag diagSsmLfilterWith diagSsmLfilter diagFilterCore diagFilterCoreWith diagStateSpace diagStateSpaceWith
  rfl

/-- The third sample of the impulse response of a first-order filter. -/
theorem impulse_third {α : Type} [CommRing α] (b a : Nat → α) :
    tdf2Out 1 b a (fun _ => 0) (fun t => if t = 0 then 1 else 0) 2 = -a 0 * (b 1 - b 0 * a 0) := by
  simp [tdf2Out, tdf2State, vecRec, comp]

/-- Complex coefficients in form tdf2 with the tests' `Vinv = vandermonde(p).T`: the `ssm` backend runs the conjugate denominator, the
`diag_ssm` backend the given poles.  For `1 / (1 + c z⁻¹)` with `c` not real and an impulse, the third samples are `conj(c)²` and `c conj(c)`. -/
theorem C62_tdf2_complex {c : ℂ} {u u' : Option Int} {ev : Tensor ℂ → Res (Tensor ℂ)} {fe : Tensor ℂ → Tensor ℂ → Res (Tensor ℂ)} {re : ℂ → ℂ}
    {realC delayed : Bool} (hc : star c ≠ c) (hu : ∀ i, u = some i → 1 ≤ i) (hu' : ∀ i, u' = some i → 1 ≤ i) :
    ∃ y y' : Nat → ℂ,
      lfilter (t1 1 fun _ => 1) (t1 1 fun _ => c) (t1 3 fun t => if t = 0 then 1 else 0) none .tdf2 u' = .ok (t1 3 y, none) ∧
      (do let V ← vandermonde (t1 1 fun _ => -c)
          let W ← mT V
          lfilterDiagWith (some (t1 1 fun _ => -c)) none (some W) ev fe re realC (t1 1 fun _ => 1) (t1 1 fun _ => c)
            (t1 3 fun t => if t = 0 then 1 else 0) none .tdf2 delayed u) = .ok (t1 3 y', none) ∧
      y 2 = star c ^ 2 ∧ y' 2 = c * star c ∧ y 2 ≠ y' 2 := by
  have hc0 : star c ≠ 0 := by
    intro h
    have : c = 0 := star_eq_zero.1 h
    exact hc (by rw [this, star_zero])
  have e := C62_override_tdf2 (B := 1) (N := 3) (K := 1) (P := 1) (b := t1 1 fun _ => (1 : ℂ)) (b' := t1 2 _)
    (X := t1 3 fun t => if t = 0 then 1 else 0) (zi := none) (av := fun _ => c) (c := fun _ => c) (p := fun _ => -c)
    (u := u) (u' := u') (ev := ev) (fe := fe) (re := re) (realC := realC) (delayed := delayed)
    (.shared fun _ => 1) (.flat _) .zero one_pos (by decide) (by decide) hu hu' ⟨fun m _ => by simp, fun m n hm hn _ => by omega⟩
    (.shared _) (by simp)
  have l1 := lfilterWith_eq (backend := fun b a x zi => ssmLfilter b a x zi .tdf2 u') (c := false) (.shared fun _ => 1) (.shared fun _ => c)
    (.flat fun t => if t = 0 then 1 else 0)
    (ssmLfilter_tdf2 (N := 3) (K := 1) (P := 1) (B := 1) (zi := none) (.shared fun _ => (1 : ℂ)) (.shared fun _ => c)
      (fun _ t => if t = 0 then 1 else 0) .zero (by decide) (by decide) (by decide) hu')
  have l2 := lfilterWith_eq (backend := fun b a x zi => ssmLfilter b a x zi .tdf2 u') (c := false)
    (.shared (overrideNum (zext 1 fun _ => 1) (fun _ => c) fun _ => star c)) (.shared fun _ => star c)
    (.flat fun t => if t = 0 then 1 else 0)
    (ssmLfilter_tdf2 (N := 3) (K := 2) (P := 1) (B := 1) (zi := none) (.shared _) (.shared fun _ => star c)
      (fun _ t => if t = 0 then 1 else 0) .zero (by decide) (by decide) (by decide) hu')
  have v1 : tdf2Out 1 (fun k => star (zext 1 (fun _ => (1 : ℂ)) k)) (fun k => star (zext 1 (fun _ => c) k)) (fun _ => 0)
      (fun t => if t = 0 then 1 else 0) 2 = star c ^ 2 := by
    rw [impulse_third]; simp [zext]; ring
  have v2 : tdf2Out 1 (fun k => star (zext 2 (overrideNum (zext 1 fun _ => 1) (fun _ => c) fun _ => star c) k))
      (fun k => star (zext 1 (fun _ => star c) k)) (fun _ => 0) (fun t => if t = 0 then 1 else 0) 2 = c * star c := by
    rw [impulse_third]; simp [zext, overrideNum]
  refine ⟨_, _, l1, e.trans l2, v1, v2, fun h => ?_⟩
  have h : star c ^ 2 = c * star c := v1.symm.trans (Eq.trans h v2)
  rw [sq] at h
  exact hc (mul_right_cancel₀ hc0 h)

/-- Repeated poles make the call with `V = vandermonde(p)` raise: the matrix has two equal columns. -/
theorem C62_repeated_pole {P m n : Nat} {b a X : Tensor β} {p : Nat → β} {zi : Option (Tensor β)} {form : Form}
    {u : Option Int} {ev : Tensor β → Res (Tensor β)} {fe : Tensor β → Tensor β → Res (Tensor β)} {re : β → β} {realC delayed : Bool}
    (hm : m < P) (hn : n < P) (hmn : m ≠ n) (he : p m = p n) :
    Fails (do let V ← vandermonde (t1 P p)
              lfilterDiagWith (some (t1 P p)) (some V) none ev fe re realC b a X zi form delayed u) := by
  rw [vandermonde_t1, ok_bind]
  have key : ∀ A Bm C D out x, Fails (diagStateSpace ev fe re realC x (some (t1 P p)) (some (t2 P P fun i j => p j ^ (P - 1 - i))) none A Bm C D
      (if a.size (-1) + 1 < b.size (-1) then none else zi) out u) := by
    intro A Bm C D out x
    unfold diagStateSpace diagStateSpaceWith
    refine fails_check fun _ => fails_check fun _ => fails_bind fun M _ => fails_left ?_
    simp only [completeBasis]
    rw [t2_eq_fm]
    exact fails_left (linalgInv_t2_singular _ (Matrix.det_zero_of_column_eq (i := ⟨m, hm⟩) (j := ⟨n, hn⟩) (by simpa [Fin.ext_iff] using hmn)
      fun i => by simp only [mat, Matrix.of_apply, he]))
  unfold lfilterDiagWith lfilterWith
  refine fails_bind fun x2 _ => fails_check fun _ => fails_check fun _ => fails_left ?_
  unfold diagSsmLfilterWith
  refine fails_bind fun s _ => fails_left ?_
  unfold diagFilterCoreWith
  refine fails_bind fun b' _ => fails_bind fun A _ => ?_
  cases form with
  | df2 => exact fails_bind fun cd _ => key _ _ _ _ _ _
  | tdf2 => exact fails_bind fun cd _ => fails_bind fun A' _ => key _ _ _ _ _ _
  | df1 => exact ⟨_, rfl⟩
  | tdf1 => exact ⟨_, rfl⟩
  | other => exact ⟨_, rfl⟩

example (b a x : Nat → ℂ) (ev : Tensor ℂ → Res (Tensor ℂ)) :=
  C62_repeated_pole (P := 2) (m := 0) (n := 1) (b := t1 3 b) (a := t1 2 a) (X := t1 7 x) (p := fun _ => 2) (zi := none) (form := .df2) (u := none)
    (ev := ev) (fe := findEigenvectors) (re := id) (realC := true) (delayed := true) (by decide) (by decide) (by decide) rfl

/-- Poles and denominator must both have, or both lack, a batch axis: one list of poles for a batch of denominators raises, and so do
batched poles for a single denominator, whatever the basis. -/
theorem C62_layout {B B' P : Nat} {b a L X : Tensor β} {V' W' : Option (Tensor β)} {av l : Nat → Nat → β} {zi : Option (Tensor β)} {form : Form}
    {u : Option Int} {ev : Tensor β → Res (Tensor β)} {fe : Tensor β → Tensor β → Res (Tensor β)} {re : β → β} {realC delayed : Bool}
    (ha : Rows B P a av) (hL : Rows B' P L l) (hP : 0 < P) (hr : L.rank ≠ a.rank) :
    Fails (lfilterDiagWith (some L) V' W' ev fe re realC b a X zi form delayed u) := by
  obtain ⟨A, eA, hA⟩ := companion_rows ha hP
  have hAr := companion_rank ha hP eA
  have key : ∀ A₁ f, MatVals B P P A₁ f → A₁.rank = a.rank + 1 → ∀ z Bm C D out x,
      Fails (diagStateSpace ev fe re realC x (some L) V' W' (some A₁) Bm C D z out u) := by
    intro A₁ f hA₁ hrk z Bm C D out x
    unfold diagStateSpace diagStateSpaceWith
    refine fails_check fun _ => fails_check fun _ => fails_left ?_
    unfold checkEigen
    cases hL with
    | shared l =>
      simp only [shape_t1]
      refine fails_check fun _ => fails_check fun _ => fails_check fun h => ?_
      cases hA₁ with
      | shared => simp at hrk hr; omega
      | batched => simp [absentOrShape] at h
    | batched l =>
      simp only [shape_t2]
      split
      · refine fails_check fun _ => fails_check fun _ => fails_check fun _ => fails_check fun h => ?_
        cases hA₁ with
        | batched => simp at hrk hr; omega
        | shared => simp [absentOrShape] at h
      · exact ⟨_, rfl⟩
  unfold lfilterDiagWith lfilterWith
  refine fails_bind fun x2 _ => fails_check fun _ => fails_check fun _ => fails_left ?_
  unfold diagSsmLfilterWith
  refine fails_bind fun s _ => fails_left ?_
  unfold diagFilterCoreWith
  refine fails_bind fun b' _ => fails_bind fun A' hA' => ?_
  rw [eA] at hA'
  cases hA'
  cases form with
  | df2 => exact fails_bind fun cd _ => key _ _ hA hAr _ _ _ _ _ _
  | tdf2 =>
    refine fails_bind fun cd _ => fails_bind fun A' hA' => ?_
    obtain ⟨A2, eA2, hA2⟩ := mT_conj hA
    have := mT_conj_rank hA eA2
    rw [eA2] at hA'
    cases hA'
    exact key _ _ hA2 (by omega) _ _ _ _ _ _
  | df1 => exact ⟨_, rfl⟩
  | tdf1 => exact ⟨_, rfl⟩
  | other => exact ⟨_, rfl⟩

example (b a l x : Nat → Nat → ℂ) (ev : Tensor ℂ → Res (Tensor ℂ)) :=
  C62_layout (B := 3) (B' := 3) (P := 2) (b := t2 3 3 b) (X := t2 3 7 x) (V' := none) (W' := none) (zi := none) (form := .df2) (u := none)
    (ev := ev) (fe := findEigenvectors) (re := id) (realC := true) (delayed := true) (.shared (a 0)) (.batched l) (by decide) (by simp)

/-- Batched poles without `V` and `Vinv` raise. -/
theorem C62_batched_poles_only {B P : Nat} {b a X : Tensor β} {l : Nat → Nat → β} {zi : Option (Tensor β)} {form : Form}
    {u : Option Int} {ev : Tensor β → Res (Tensor β)} {fe : Tensor β → Tensor β → Res (Tensor β)} {re : β → β} {realC delayed : Bool} :
    Fails (lfilterDiagWith (some (t2 B P l)) none none ev fe re realC b a X zi form delayed u) := by
  have key : ∀ A z Bm C D out x, Fails (diagStateSpace ev fe re realC x (some (t2 B P l)) none none A Bm C D z out u) := by
    intro A z Bm C D out x
    unfold diagStateSpace diagStateSpaceWith
    refine fails_check fun _ => fails_check fun _ => fails_left ?_
    unfold checkEigen
    simp only [shape_t2]
    split
    · exact fails_check fun h => by simp at h
    · exact ⟨_, rfl⟩
  unfold lfilterDiagWith lfilterWith
  refine fails_bind fun x2 _ => fails_check fun _ => fails_check fun _ => fails_left ?_
  unfold diagSsmLfilterWith
  refine fails_bind fun s _ => fails_left ?_
  unfold diagFilterCoreWith
  refine fails_bind fun b' _ => fails_bind fun A' hA' => ?_
  cases form with
  | df2 => exact fails_bind fun cd _ => key _ _ _ _ _ _ _
  | tdf2 => exact fails_bind fun cd _ => fails_bind fun A' _ => key _ _ _ _ _ _ _
  | df1 => exact ⟨_, rfl⟩
  | tdf1 => exact ⟨_, rfl⟩
  | other => exact ⟨_, rfl⟩

/-- **C62 (partial), poles only.**  With the distinct roots `p` of a denominator without batch axis as `L`, and no eigenvectors: as in C23, but
`torch.linalg.eigvals` is not called and need not be trusted.  In form df2 no pole may be zero; in form tdf2 the poles must be those
of the conjugated denominator. -/
theorem C62_poles_only_partial {B N K P : Nat} {b X : Tensor β} {bv z x : Nat → Nat → β} {av p : Nat → β} {zi : Option (Tensor β)} {form : Form}
    {u u' : Option Int} {ev : Tensor β → Res (Tensor β)} {re : β → β} {realC delayed : Bool}
    (hb : Rows B K b bv) (hx : Sig N B X x) (hz : InitState B P zi z) (hP : 0 < P) (hK : 0 < K) (hKP : K ≤ P + 1)
    (hN : 0 < N) (hu : ∀ i, u = some i → 1 ≤ i) (hu' : ∀ i, u' = some i → 1 ≤ i)
    (hform : form = .df2 ∧ DistinctPoles P av p ∧ (∀ m, m < P → p m ≠ 0) ∧ RealData re realC (fun _ => av) z x ∨
      form = .tdf2 ∧ DistinctPoles P (fun k => star (av k)) p) :
    lfilterDiagWith (some (t1 P p)) none none ev findEigenvectors re realC b (t1 P av) X zi form delayed u =
      lfilter b (t1 P av) X zi form u' := by
  refine lfilterWith_congr hx ?_
  rw [diagSsm_short (by rw [size_rows hb, size_t1_n1]; exact hKP)]
  -- the basis found by `find_eigenvectors` could have been given as `V`
  have key : ∀ (A : Nat → Nat → β) (x : Tensor β) (Bm C D zi : Option (Tensor β)) (out : Option Int) (V W : Tensor β),
      completeBasis findEigenvectors (t1 P p) none none (some (t2 P P A)) P = .ok (V, W) → V.shape = [P, P] →
      diagStateSpace ev findEigenvectors re realC x (some (t1 P p)) none none (some (t2 P P A)) Bm C D zi out u =
        diagStateSpace ev findEigenvectors re realC x (some (t1 P p)) (some V) none (some (t2 P P A)) Bm C D zi out u := by
    intro A x Bm C D zi out V W e hs
    have hc : ∀ V', absentOrShape V' [P, P] = true → checkEigen (t1 P p) V' none (some (t2 P P A)) (x.size 0) = .ok P := by
      intro V' hV'
      unfold checkEigen
      simp only [shape_t1]
      exact check_step hV' (check_step rfl (check_step (by simp [absentOrShape]) rfl))
    have e' : completeBasis findEigenvectors (t1 P p) (some V) none (some (t2 P P A)) P = .ok (V, W) := by
      simp only [completeBasis] at e ⊢
      cases hf : findEigenvectors (t2 P P A) (t1 P p) with
      | error m => rw [hf] at e; cases e
      | ok V2 =>
        rw [hf, ok_bind] at e
        cases hi : linalgInv V2 with
        | error m => rw [hi] at e; cases e
        | ok W2 =>
          rw [hi, ok_bind] at e
          cases e
          rw [hi]; rfl
    unfold diagStateSpace diagStateSpaceWith
    simp only [hc none rfl, hc (some V) (by simp [absentOrShape, hs]), ok_bind, e, e']
  rcases hform with ⟨rfl, hp, hp0, hreal⟩ | ⟨rfl, hp⟩
  · obtain ⟨V, W, v, w, hE, hdec, e⟩ := completeBasis_find (B := B) (.shared (comp av) p) hP
      (fun _ m hm => ⟨_, comp_eigenvector hP (hp.1 m hm)⟩) (fun _ m v hm hv => comp_eigenvector_first (hp0 m hm) hv) fun _ => hp.2
    have hs : V.shape = [P, P] := by
      generalize hL : t1 P p = L at hE
      generalize (fun _ : Nat => p) = l at hE
      cases hE with
      | shared => rfl
      | batched => have := congrArg shape hL; simp at this
    rw [← diagFilterCoreWith_basis (L := t1 P p) (V' := some V) (W' := none) (ev := ev) (fe := findEigenvectors) (re := re) (realC := realC) (u := u) (form := .df2)
      hb (.shared av) x hz hP hK hKP hN hu hu' hE (by simp) hdec (Or.inr rfl) (Or.inl rfl) (Or.inl rfl) (Or.inl rfl) fun _ => hreal]
    unfold diagFilterCoreWith
    simp only [companion_t1 av hP, ok_bind]
    congr 1
    funext b'
    congr 1
    funext cd
    exact key _ _ _ _ _ _ _ V W e hs
  · obtain ⟨V, W, v, w, hE, hdec, e⟩ := completeBasis_find (B := B) (.shared (fun j k => comp (fun k => star (av k)) k j) p) hP
      (fun _ m hm => ⟨_, compT_eigenvector hP (hp.1 m hm)⟩) (fun _ m v hm hv => compT_eigenvector_first hv) fun _ => hp.2
    have hs : V.shape = [P, P] := by
      generalize hL : t1 P p = L at hE
      generalize (fun _ : Nat => p) = l at hE
      cases hE with
      | shared => rfl
      | batched => have := congrArg shape hL; simp at this
    rw [← diagFilterCoreWith_basis (L := t1 P p) (V' := some V) (W' := none) (ev := ev) (fe := findEigenvectors) (re := re) (realC := realC) (u := u) (form := .tdf2)
      hb (.shared av) x hz hP hK hKP hN hu hu' hE (by simp) hdec (Or.inr rfl) (Or.inl rfl) (Or.inl rfl) (Or.inr rfl) (by simp)]
    unfold diagFilterCoreWith
    simp only [companion_t1 av hP, ok_bind]
    congr 1
    funext b'
    congr 1
    funext cd
    rw [show mT (t2 P P (comp av)) = _ from transpose_t2_n2_n1 _ _ _, ok_bind, ok_bind, conj_t2]
    simp only [star_comp]
    exact key _ _ _ _ _ _ _ V W e hs

example (b x : Nat → Nat → ℂ) (z : Nat → ℂ) (ev : Tensor ℂ → Res (Tensor ℂ)) :=
  C62_poles_only_partial (B := 3) (N := 7) (K := 2) (P := 2) (form := .df2) (u := none) (u' := some 2) (ev := ev) (re := id)
    (realC := false) (delayed := true) (.batched b) (.batched 3 x) (.shared z) (by decide) (by decide) (by decide) (by decide) (by simp) (by simp)
    (Or.inl ⟨rfl, Witness.rot_poles, fun m _ => Witness.rotEig_ne m, by simp [RealData]⟩)

/-- The roots `i`, `-i` of `z² + 1`. -/
theorem two_poles_distinct : DistinctPoles 2 (fun k => if k = 0 then (0 : ℂ) else 1) fun m => if m = 0 then Complex.I else -Complex.I := by
  refine ⟨fun m hm => ?_, fun m n hm hn e => ?_⟩
  · beta_reduce; split <;> simp [Finset.sum_range_succ]
  · have h1 : m = 0 ∨ m = 1 := by omega
    have h2 : n = 0 ∨ n = 1 := by omega
    rcases h1 with rfl | rfl <;> rcases h2 with rfl | rfl <;> first | rfl | (exfalso; have := congrArg Complex.im e; norm_num at this)

/-- The call of the tests for `1 / (1 + z⁻²)`, real signal and taps, both forms. -/
example (b : Nat → Nat → ℝ) (x : Nat → Nat → ℝ) (ev : Tensor ℂ → Res (Tensor ℂ)) :
    (do let V ← vandermonde (t1 2 fun m => if m = 0 then Complex.I else -Complex.I)
        lfilterDiagWith (some (t1 2 fun m => if m = 0 then Complex.I else -Complex.I)) (some V) none ev findEigenvectors (fun c => (c.re : ℂ)) true
          (t2 3 3 fun i k => (b i k : ℂ)) (t1 2 fun k => if k = 0 then 0 else 1) (t2 3 7 fun i t => (x i t : ℂ)) none .df2 true none) =
      lfilter (t2 3 3 fun i k => (b i k : ℂ)) (t1 2 fun k => if k = 0 then 0 else 1) (t2 3 7 fun i t => (x i t : ℂ)) none .df2 none :=
  C62_vandermonde_df2 (.batched _) (.batched 3 _) .zero (by decide) (by decide) (by decide) (by decide) (by simp) (by simp) two_poles_distinct
    fun _ => ⟨fun c hc => Complex.conj_eq_iff_re.1 hc, fun i k => by beta_reduce; split <;> simp, by simp, by simp⟩

example (b : Nat → Nat → ℂ) (x : Nat → Nat → ℂ) (ev : Tensor ℂ → Res (Tensor ℂ)) :
    (do let V ← vandermonde (t1 2 fun m => if m = 0 then Complex.I else -Complex.I)
        let W ← mT V
        lfilterDiagWith (some (t1 2 fun m => if m = 0 then Complex.I else -Complex.I)) none (some W) ev findEigenvectors id true
          (t2 3 3 b) (t1 2 fun k => if k = 0 then 0 else 1) (t2 3 7 x) none .tdf2 true none) =
      lfilter (t2 3 3 b) (t1 2 fun k => if k = 0 then 0 else 1) (t2 3 7 x) none .tdf2 none :=
  C62_vandermonde_tdf2 (.batched _) (.batched 3 _) .zero (by decide) (by decide) (by decide) (by decide) (by simp) (by simp) two_poles_distinct
    fun k => by split <;> simp

/-- Poles 0 and 1 (denominator `1 - z⁻¹`, written with two coefficients) are accepted when `V` is given. -/
example (b x : Nat → ℂ) (ev : Tensor ℂ → Res (Tensor ℂ)) :
    (do let V ← vandermonde (t1 2 fun m => (m : ℂ))
        lfilterDiagWith (some (t1 2 fun m => (m : ℂ))) (some V) none ev findEigenvectors id false
          (t1 3 b) (t1 2 fun k => if k = 0 then -1 else 0) (t1 7 x) none .df2 true none) =
      lfilter (t1 3 b) (t1 2 fun k => if k = 0 then -1 else 0) (t1 7 x) none .df2 none := by
  refine C62_vandermonde_df2 (B := 1) (.shared _) (.flat _) .zero (by decide) (by decide) (by decide) (by decide) (by simp) (by simp)
    ⟨fun m hm => ?_, fun m n _ _ e => Nat.cast_injective e⟩ (by simp [RealData])
  have h1 : m = 0 ∨ m = 1 := by omega
  rcases h1 with rfl | rfl <;> simp

/-- Denominator `1 - z⁻²`, but the poles of `1 + z⁻²` are given: the filter run is `(1 + 2 z⁻²) / (1 + z⁻²)`. -/
example (x : Nat → ℂ) (ev : Tensor ℂ → Res (Tensor ℂ)) :
    (do let V ← vandermonde (t1 2 fun m => if m = 0 then Complex.I else -Complex.I)
        lfilterDiagWith (some (t1 2 fun m => if m = 0 then Complex.I else -Complex.I)) (some V) none ev findEigenvectors id false
          (t1 1 fun _ => 1) (t1 2 fun k => if k = 0 then 0 else -1) (t1 7 x) none .df2 true none) =
      lfilter (t1 3 fun k => if k = 0 then 1 else if k = 1 then 0 else 2) (t1 2 fun k => if k = 0 then 0 else 1) (t1 7 x) none .df2 none := by
  refine C62_override_df2 (B := 1) (.shared fun _ => 1) (.flat _) .zero (by decide) (by decide) (by decide) (by simp) (by simp) two_poles_distinct
    ?_ (by simp) (by simp [RealData])
  rw [show (t1 3 fun k => if k = 0 then (1 : ℂ) else if k = 1 then 0 else 2) =
    t1 3 (overrideNum (zext 1 fun _ => 1) (fun k => if k = 0 then 0 else -1) fun k => if k = 0 then 0 else 1) from t1_congr rfl fun k hk => by
      have h1 : k = 0 ∨ k = 1 ∨ k = 2 := by omega
      rcases h1 with rfl | rfl | rfl <;> norm_num [overrideNum, zext]]
  exact .shared _

example : ∃ y y' : Nat → ℂ,
    lfilter (t1 1 fun _ => 1) (t1 1 fun _ => Complex.I) (t1 3 fun t => if t = 0 then 1 else 0) none .tdf2 none = .ok (t1 3 y, none) ∧
      (do let V ← vandermonde (t1 1 fun _ => -Complex.I)
          let W ← mT V
          lfilterDiagWith (some (t1 1 fun _ => -Complex.I)) none (some W) (fun _ => .error "") findEigenvectors id false (t1 1 fun _ => 1)
            (t1 1 fun _ => Complex.I) (t1 3 fun t => if t = 0 then 1 else 0) none .tdf2 false none) = .ok (t1 3 y', none) ∧
      y 2 = star Complex.I ^ 2 ∧ y' 2 = Complex.I * star Complex.I ∧ y 2 ≠ y' 2 :=
  C62_tdf2_complex (fun h => by have := congrArg Complex.im h; norm_num at this) (by simp) (by simp)

end Props
