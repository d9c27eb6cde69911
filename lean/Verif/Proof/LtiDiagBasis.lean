import Verif.Props.C23
import Verif.Proof.LtiFiltfilt

/-! # `lfilter(backend="diag_ssm")` with given eigenvalues and eigenvectors -/

namespace Props
open Torch Torch.Tensor Spec Phil Phil.Lti Phil.Mat Finset

variable {β : Type} [RCLike β]

/-- The state matrix whose eigenvectors are used by a form. -/
def formMatrix (form : Form) (a : Nat → β) : Nat → Nat → β :=
  match form with
  | .tdf2 => fun j k => comp (fun k => star (a k)) k j
  | _ => comp a

theorem eigen_shape {B M : Nat} {L V W A : Tensor β} {l : Nat → Nat → β} {v w f : Nat → Nat → Nat → β} (hE : Eigen B M L V W l v w)
    (h : MatVals B M M A f) (hr : A.rank = L.rank + 1) : A.shape = V.shape := by
  cases hE <;> cases h <;> simp at hr ⊢

theorem companion_rank {B M : Nat} {a A : Tensor β} {av : Nat → Nat → β} (ha : Rows B M a av) (hM : 0 < M) (e : companion a = .ok A) :
    A.rank = a.rank + 1 := by
  cases ha with
  | shared f => rw [companion_t1 _ hM] at e; cases e; simp
  | batched f => rw [companion_t2 _ hM] at e; cases e; simp

theorem mT_conj_rank {B R Q : Nat} {A A' : Tensor β} {f : Nat → Nat → Nat → β} (h : MatVals B R Q A f) (e : mT A = .ok A') :
    (conj A').rank = A.rank := by
  cases h with
  | shared f => rw [show mT (t2 R Q f) = _ from transpose_t2_n2_n1 _ _ _] at e; cases e; rw [conj_t2]; simp
  | batched f => rw [show mT (t3 B R Q f) = _ from transpose_t3_n2_n1 _ _ _ _] at e; cases e; rw [conj_t3]; simp

/-- A basis that diagonalises the right matrix. -/
theorem diagFilterCoreWith_basis {B N K P : Nat} {b a L V W : Tensor β} {V' W' : Option (Tensor β)} {bv av l z : Nat → Nat → β}
    {v w : Nat → Nat → Nat → β} {zi : Option (Tensor β)} {form : Form}
    {u u' : Option Int} {ev : Tensor β → Res (Tensor β)} {fe : Tensor β → Tensor β → Res (Tensor β)} {re : β → β} {realC : Bool}
    (hb : Rows B K b bv) (ha : Rows B P a av) (x : Nat → Nat → β) (hz : InitState B P zi z) (hP : 0 < P) (hK : 0 < K) (hKP : K ≤ P + 1)
    (hN : 0 < N) (hu : ∀ i, u = some i → 1 ≤ i) (hu' : ∀ i, u' = some i → 1 ≤ i)
    (hE : Eigen B P L V W l v w) (hlay : L.rank = a.rank) (hdec : ∀ i, Diagonalises P (formMatrix form (av i)) (l i) (v i) (w i))
    (hV' : V' = none ∨ V' = some V) (hW' : W' = none ∨ W' = some W) (hone : V'.isSome ∨ W'.isSome)
    (hform : form = .df2 ∨ form = .tdf2)
    (hreal : form = .df2 → realC = true → (∀ c, star c = c → re c = c) ∧ (∀ i k, star (av i k) = av i k) ∧
      (∀ i m, star (z i m) = z i m) ∧ ∀ i t, star (x i t) = x i t) :
    diagFilterCoreWith (some L) V' W' ev fe re realC b a (t2 B N x) zi form u = ssmLfilter b a (t2 B N x) zi form u' := by
  obtain ⟨b', e1, hb', e2⟩ := diagPad_eq hb ha hK hKP
  obtain ⟨A, eA, hA⟩ := companion_rows ha hP
  have hAr := companion_rank ha hP eA
  obtain ⟨C, D, eC, hC, hD⟩ := outputCoefs_eq hb' ha
  unfold diagFilterCoreWith ssmLfilter
  rw [e1, e2]
  refine bind_step rfl (bind_step eA (Eq.symm (bind_step rfl (bind_step eA ?_))))
  rcases hform with rfl | rfl
  · refine bind_step eC (Eq.symm (bind_step eC ?_))
    refine C22_given_basis_partial hE hA hdec hV' hW' hone (fun A₁ h => ?_) (.none (.scalar x)) (readout_rows hC) (feed_gain hD x) hz hP hN
      hu hu' fun _ hr => ?_
    · cases h; exact eigen_shape hE hA (by omega)
    · obtain ⟨r1, r2, r3, r4⟩ := hreal rfl hr
      refine ⟨r1, fun i j k => ?_, r3, fun i t k => ?_⟩
      · rw [star_comp]; simp only [r2]
      · split
        · exact r4 i t
        · exact star_zero _
  · obtain ⟨A', eA', hA'⟩ := mT_conj hA
    have hAr' := mT_conj_rank hA eA'
    refine bind_step eC (bind_step eA' (Eq.symm (bind_step eC (bind_step eA' ?_))))
    simp only [star_comp] at hA'
    refine C22_out_idx hE hA' hdec hV' hW' hone (fun A₁ h => ?_) (input_rows (conj_rows hC) x) (feed_gain (conj_gain hD) x) hz (by omega) hN hu hu'
    cases h; exact eigen_shape hE hA' (by omega)

/-- `lfilter` only calls its backend at the batched signal, and otherwise looks at the ranks only. -/
theorem lfilterWith_congr_coefs {f g : Tensor β → Tensor β → Tensor β → Option (Tensor β) → Res (Tensor β × Option (Tensor β))}
    {B N : Nat} {b b' a a' X : Tensor β} {x : Nat → Nat → β} {zi : Option (Tensor β)} (hx : Sig N B X x) (hb : b.rank = b'.rank)
    (ha : a.rank = a'.rank) (h : f b a (t2 B N x) zi = g b' a' (t2 B N x) zi) : lfilterWith f b a X zi = lfilterWith g b' a' X zi := by
  unfold lfilterWith
  rw [hb, ha]
  cases hx with
  | flat x =>
    have e : (if (t1 N x).rank = 1 then unsqueeze (t1 N x) 0 else if 2 < (t1 N x).rank then
        .error "ValueError: Input signal x must be 1D or 2D." else pure (t1 N x)) = Except.ok (t2 1 N fun _ => x) := by
      rw [if_pos (rank_t1 _ _)]; exact unsqueeze_t1_0 _ _
    rw [e]
    exact (bind_step rfl (by rw [h]; rfl))
  | batched B x =>
    have e : (if (t2 B N x).rank = 1 then unsqueeze (t2 B N x) 0 else if 2 < (t2 B N x).rank then
        .error "ValueError: Input signal x must be 1D or 2D." else pure (t2 B N x)) = Except.ok (t2 B N x) := by
      rw [if_neg (by simp), if_neg (by simp)]; rfl
    rw [e]
    exact (bind_step rfl (by rw [h]; rfl))

/-- A short numerator goes to the core as it is. -/
theorem diagSsm_short {L V W : Option (Tensor β)} {ev : Tensor β → Res (Tensor β)} {fe : Tensor β → Tensor β → Res (Tensor β)} {re : β → β}
    {realC delayed : Bool} {b a x : Tensor β} {zi : Option (Tensor β)} {form : Form} {u : Option Int} (h : b.size (-1) ≤ a.size (-1) + 1) :
    diagSsmLfilterWith L V W ev fe re realC b a x zi form delayed u = diagFilterCoreWith L V W ev fe re realC b a x zi form u := by
  have hs : diagSplit b a delayed = .ok (b, none, 0) := by
    unfold diagSplit
    rw [if_neg (by omega)]; rfl
  unfold diagSsmLfilterWith
  refine bind_step hs ?_
  rw [if_neg (by omega)]
  simp only
  cases diagFilterCoreWith L V W ev fe re realC b a x zi form u with
  | error e => rfl
  | ok r =>
    obtain ⟨y, zf⟩ := r
    cases zf <;> rfl

theorem outputCoefs_flat {M : Nat} (f g : Nat → β) :
    outputCoefs (t1 (M + 1) f) (t1 M g) = .ok (t1 M fun m => f (m + 1) - f 0 * g m, t0 (f 0)) := by
  have e1 : pyStop (M + 1) (some 1) - pyStart (M + 1) none = 1 := by rw [pyStop_one, pyStart_none]; omega
  have e2 : pyStop (M + 1) none - pyStart (M + 1) (some 1) = M := by rw [pyStop_none, pyStart_one]; omega
  have e3 : pyStart (M + 1) (some 1) = 1 := by rw [pyStart_one]; omega
  have e4 : pyStart (M + 1) none = 0 := pyStart_none _
  unfold outputCoefs
  refine bind_step (slice_t1_n1 _ _ _ _) (bind_step (slice_t1_n1 _ _ _ _) ?_)
  rw [e1, e2, e3, e4]
  exact bind_step (zipWith_1_n _ _ _ _) (bind_step (zipWith_n_n _ _ _ _) (bind_step (select_t1_n1_0 _ _ (by omega)) rfl))

theorem outputCoefs_batch {B M : Nat} (f : Nat → Nat → β) (g : Nat → β) :
    outputCoefs (t2 B (M + 1) f) (t1 M g) = .ok (t2 B M fun i m => f i (m + 1) - f i 0 * g m, t1 B fun i => f i 0) := by
  have e1 : pyStop (M + 1) (some 1) - pyStart (M + 1) none = 1 := by rw [pyStop_one, pyStart_none]; omega
  have e2 : pyStop (M + 1) none - pyStart (M + 1) (some 1) = M := by rw [pyStop_none, pyStart_one]; omega
  have e3 : pyStart (M + 1) (some 1) = 1 := by rw [pyStart_one]; omega
  have e4 : pyStart (M + 1) none = 0 := pyStart_none _
  unfold outputCoefs
  refine bind_step (slice_t2_n1 _ _ _ _ _) (bind_step (slice_t2_n1 _ _ _ _ _) ?_)
  rw [e1, e2, e3, e4]
  exact bind_step (zipWith_n1_m _ _ _ _ _) (bind_step (zipWith_nm_nm _ _ _ _ _) (bind_step (select_t2_n1_0 _ _ _ (by omega)) rfl))

theorem overrideNum_self (b a : Nat → β) : overrideNum b a a = b := by
  funext k
  unfold overrideNum
  split
  · rename_i h; rw [h]
  · ring

theorem override_coefs {B K P : Nat} {b b'' : Tensor β} {bv : Nat → Nat → β} {av cv : Nat → β} (hb : Rows B K b bv) (hKP : K ≤ P + 1)
    (hb'' : Rows B (P + 1) b'' fun i => overrideNum (zext K (bv i)) av cv) (hr : b.rank = b''.rank) :
    ∃ b', (if b.size (-1) < (t1 P av).size (-1) + 1 then
        padDim b (-1) 0 (((t1 P av).size (-1) + 1 - b.size (-1) : Nat) : Int) 0 else pure b) = Except.ok b' ∧
      outputCoefs b' (t1 P av) = outputCoefs b'' (t1 P cv) := by
  rw [size_rows hb, size_t1_n1]
  generalize hg : (fun i => overrideNum (zext K (bv i)) av cv) = g at hb''
  cases hb with
  | shared f =>
    cases hb'' with
    | batched => simp at hr
    | shared h =>
      have hh : h = overrideNum (zext K f) av cv := (congrFun hg 0).symm
      refine ⟨t1 (P + 1) (zext K f), ?_, ?_⟩
      · split
        · rw [padDim_t1_n1_right, show K + (P + 1 - K) = P + 1 by omega]; rfl
        · obtain rfl : K = P + 1 := by omega
          exact congrArg Except.ok (t1_congr rfl fun j hj => (zext_lt f hj).symm)
      · rw [outputCoefs_flat, outputCoefs_flat, hh]
        refine ok_pair (t1_congr rfl fun m _ => ?_) rfl
        simp only [overrideNum, if_neg (Nat.succ_ne_zero m), if_true, Nat.add_sub_cancel]
        ring
  | batched f =>
    cases hb'' with
    | shared => simp at hr
    | batched h =>
      refine ⟨t2 B (P + 1) fun i => zext K (bv i), ?_, ?_⟩
      · split
        · rw [padDim_t2_n1_right, show K + (P + 1 - K) = P + 1 by omega]; rfl
        · obtain rfl : K = P + 1 := by omega
          exact congrArg Except.ok (t2_congr rfl rfl fun i j _ hj => (zext_lt (bv i) hj).symm)
      · rw [outputCoefs_batch, outputCoefs_batch, ← hg]
        refine ok_pair (t2_congr rfl rfl fun i m _ _ => ?_) rfl
        simp only [overrideNum, if_neg (Nat.succ_ne_zero m), if_true, Nat.add_sub_cancel]
        ring

end Props
