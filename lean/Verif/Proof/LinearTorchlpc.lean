import Verif.Proof.LinearVals
import Verif.Proof.TvStream

/-! # The transposed all-pole filter and forms I of the `torchlpc` backend are linear and causal -/

namespace Phil.Lpv
open Torch Torch.Tensor Spec Finset
variable {α : Type} [CommRing α] [StarRing α]

/-- `allpole(transpose=True)` without state, as an explicit signal. -/
theorem allpole_transposed_out {B M N : Nat} {lpc : Lpc α} (hl : IsLpc lpc) (a : Nat → Nat → Nat → α)
    (x : Nat → Nat → α) (hM : 0 < M) (hMN : M ≤ N) :
    allpole lpc (t3 B N M a) (t2 B N x) none true =
      .ok (t2 B N fun i n => tvTdf2Out M unitTaps (fun t k => star (a i t k)) (fun _ => 0) (x i) n, none) := by
  obtain ⟨y, hy, e⟩ := allpoleTransposed_eq (B := B) hl a x (fun _ _ => 0) false (by omega) hM hMN
  rw [allpole_none_eq, if_pos rfl, e]
  exact Lti.ok_pair (t2_congr rfl rfl fun i n _ hn => allpoleT_out hM (hy i) hn) rfl

/-- `lfilter` in transposed direct form I with `torchlpc`, as an explicit signal. -/
theorem torchlpc_tdf1_out {B N M P : Nat} {b a X : Tensor α} {bv av : Nat → Nat → Nat → α} {x : Nat → Nat → α}
    {u : Option Int} {lpc : Lpc α} (hl : IsLpc lpc) (hb : MatVals B N (M + 1) b bv) (ha : MatVals B N P a av)
    (hx : Sig N B X x) (hB : 0 < B) (hM : 0 < M) (hP : 0 < P) (hPN : P ≤ N) :
    lfilter lpc b a X none .tdf1 .torchlpc u = .ok (packed (allFlatTv X b a none) B N fun i n =>
        tvConv N M (fun t k => star (bv i t k))
          (fun n => tvTdf2Out P unitTaps (fun t k => star (av i t k)) (fun _ => 0) (x i) n) n, none) := by
  refine lfilterWith_seq (c := false) (M := 0) (zf := fun _ _ => 0) hb ha hx
    ((torchlpcLfilter_eq lpc hb ha x .zero hB .tdf1).trans ?_)
  unfold torchlpcForms
  exact bind_step (allpole_transposed_out hl av x hP hPN) (fir_transposed_none bv _ hM (by omega))

end Phil.Lpv

namespace Spec
open Torch Torch.Tensor Phil Finset
open Phil.Lti (ok_pair Form)
variable {α : Type} [CommRing α] [StarRing α]

theorem allpoleT_none_both {B M N : Nat} {lpc : Lpv.Lpc α} (hl : IsLpc lpc) (a : Nat → Nat → Nat → α) (hM : 0 < M)
    (hMN : M ≤ N) :
    LinearOn (fun x zi => Lpv.allpole lpc (t3 B N M a) x zi true) [B, N] none ∧
      CausalOn (fun x zi => Lpv.allpole lpc (t3 B N M a) x zi true) [B, N] none := by
  refine both_packed (fl := false) (B := B) (N := N) (M := 0) (st := false)
    (fun X _ i t => tvTdf2Out M unitTaps (fun t k => star (a i t k)) (fun _ => 0) (xval X i) t) (fun _ _ _ _ => 0)
    (fun X' z' hX' hz' => ?_) (fun c d x₁ x₂ z₁ z₂ hx hz i t => ?_) (fun c d x₁ x₂ z₁ z₂ hx hz i m => by ring)
    (fun T x₁ x₂ z hx h i t ht => ?_)
  · cases none_of_shape hz'
    conv_lhs => rw [sig2 hX']
    exact Lpv.allpole_transposed_out hl a _ hM hMN
  · exact tvTdf2Out_lin _ _ c d (fun m => by ring) (fun t => xval_lin hx i t) _
  · exact tvTdf2Out_agree (T := t) (fun _ _ _ => rfl) (fun _ _ _ => rfl) (fun s hs => xval_agree h (by omega)) le_rfl

theorem allpoleT_some_both {B M N : Nat} {lpc : Lpv.Lpc α} (hl : IsLpc lpc) (a : Nat → Nat → Nat → α) (hM : 0 < M)
    (hMN : M ≤ N) :
    LinearOn (fun x zi => Lpv.allpole lpc (t3 B N M a) x zi true) [B, N] (some [B, M]) ∧
      CausalOn (fun x zi => Lpv.allpole lpc (t3 B N M a) x zi true) [B, N] (some [B, M]) := by
  refine both_packed (fl := false) (B := B) (N := N) (M := M) (st := true)
    (fun X z i t => tvTdf2Out M unitTaps (fun t k => star (a i t k)) (zval z i) (xval X i) t)
    (fun X z i m => tvTdf2State M unitTaps (fun t k => star (a i t k)) (zval z i) (xval X i) N m)
    (fun X' z' hX' hz' => ?_) (fun c d x₁ x₂ z₁ z₂ hx hz i t => ?_) (fun c d x₁ x₂ z₁ z₂ hx hz i m => ?_)
    (fun T x₁ x₂ z hx h i t ht => ?_)
  · obtain ⟨z', rfl, hs⟩ := some_of_shape hz'
    conv_lhs => rw [sig2 hX', st2 hs]
    exact Lpv.allpole_transposed_state hl a _ _ hM hMN
  · exact tvTdf2Out_lin _ _ c d (fun m => zval_lin hz i m) (fun t => xval_lin hx i t) _
  · exact tvTdf2State_lin _ _ c d (fun m => zval_lin hz i m) (fun t => xval_lin hx i t) _ _
  · exact tvTdf2Out_agree (T := t) (fun _ _ _ => rfl) (fun _ _ _ => rfl) (fun s hs => xval_agree h (by omega)) le_rfl

theorem torchlpc_df1_out {B N K P : Nat} {b a X : Tensor α} {bv av : Nat → Nat → Nat → α} {x : Nat → Nat → α}
    {u : Option Int} {lpc : Lpv.Lpc α} (hl : IsLpc lpc) (hb : MatVals B N K b bv) (ha : MatVals B N P a av)
    (hx : Sig N B X x) (hB : 0 < B) (hK : 0 < K) (hP : 0 < P) (hN : 0 < N) :
    Lpv.lfilter lpc b a X none .df1 .torchlpc u = .ok (packed (allFlatTv X b a none) B N fun i n =>
      tvSignal P (fun t => zext P (av i t)) (fun _ => 0) (fun t => taps K (bv i t) (causal (x i)) t) n, none) := by
  obtain ⟨y, hy, e⟩ := Props.C30_torchlpc_df1 (u := u) hl hb ha hx hB hK hP hN
  refine e.trans (ok_pair (Props.packed_congr fun i n hn => ?_) rfl)
  rw [← allPole_tvSignal (N := N) (w := y i) (fun n hn => ?_) hP le_rfl (by omega), withPast_nat]
  exact hy i n hn

theorem allpole_out {B M N : Nat} {lpc : Lpv.Lpc α} (hl : IsLpc lpc) (a : Nat → Nat → Nat → α) (x : Nat → Nat → α)
    (hM : 0 < M) (hN : 0 < N) :
    Lpv.allpole lpc (t3 B N M a) (t2 B N x) none false =
      .ok (t2 B N fun i n => tvSignal M (fun t => zext M (a i t)) (fun _ => 0) (x i) n, none) := by
  obtain ⟨y, zf, e, hy, -⟩ := hl B N M x a _ _ hN hM (.given fun _ _ => 0)
  rw [Lpv.allpole_none_eq, if_neg (by simp)]
  refine (bind_step e rfl).trans (ok_pair (t2_congr rfl rfl fun i t _ ht => ?_) rfl)
  rw [← allPole_tvSignal (hy i) hM le_rfl (by omega), withPast_nat]

theorem torchlpc_df2_out {B N K P : Nat} {b a X : Tensor α} {bv av : Nat → Nat → Nat → α} {x : Nat → Nat → α}
    {u : Option Int} {lpc : Lpv.Lpc α} (hl : IsLpc lpc) (hb : MatVals B N K b bv) (ha : MatVals B N P a av)
    (hx : Sig N B X x) (hB : 0 < B) (hK : 0 < K) (hP : 0 < P) (hN : 0 < N) :
    Lpv.lfilter lpc b a X none .df2 .torchlpc u = .ok (packed (allFlatTv X b a none) B N fun i n =>
      taps K (bv i n) (tvSignal (max P (K - 1)) (fun t => zext P (av i t)) (fun _ => 0) (x i)) n, none) := by
  obtain ⟨w, hw, e⟩ := Props.C30_torchlpc_df2_partial (u := u) hl hb ha hx .zero hB hK hP hN (Or.inl rfl)
  refine e.trans (ok_pair (Props.packed_congr fun i n hn => Finset.sum_congr rfl fun j _ => ?_) rfl)
  rw [allPole_tvSignal (fun n hn => hw i n hn) (M := max P (K - 1)) (by omega) (by omega) (by omega)]

theorem torchlpc_df1_both {B N K P : Nat} {b a X : Tensor α} {bv av : Nat → Nat → Nat → α}
    {x : Nat → Nat → α} {u : Option Int} {lpc : Lpv.Lpc α} (hl : IsLpc lpc)
    (hb : MatVals B N K b bv) (ha : MatVals B N P a av) (hx : Sig N B X x)
    (hB : 0 < B) (hK : 0 < K) (hP : 0 < P) (hN : 0 < N) :
    LinearOn (fun x zi => Lpv.lfilter lpc b a x zi .df1 .torchlpc u) X.shape none ∧
      CausalOn (fun x zi => Lpv.lfilter lpc b a x zi .df1 .torchlpc u) X.shape none := by
  refine both_packed (fl := allFlatTv X b a none) (B := B) (N := N) (M := 0) (st := false)
    (fun X _ i n => tvSignal P (fun t => zext P (av i t)) (fun _ => 0) (fun t => taps K (bv i t) (causal (xval X i)) t) n)
    (fun _ _ _ _ => 0)
    (fun X' z' hX' hz' => ?_) (fun c d x₁ x₂ z₁ z₂ hx hz i t => ?_) (fun c d _ _ _ _ _ _ i m => by ring)
    (fun T x₁ x₂ z hx h i t ht => ?_)
  · cases none_of_shape hz'
    rw [← allFlatTv_shape (z := none) (z' := none) hX' rfl]
    exact torchlpc_df1_out hl hb ha (sig_vals hx hX') hB hK hP hN
  · exact tvSignal_lin _ c d (fun m => by ring)
      (fun t => taps_lin _ _ c d (fun n => causal_lin c d (fun t => xval_lin hx i t) n) _) _
  · exact tvSignal_agree (T := t) (fun _ _ _ => rfl) (fun s hs => taps_agree (T := t) (fun _ => rfl)
      (fun n hn => causal_agree (T := t) (fun s hs => xval_agree h (by omega)) hn) (by omega)) le_rfl

theorem torchlpc_tdf1_both {B N M P : Nat} {b a X : Tensor α} {bv av : Nat → Nat → Nat → α}
    {x : Nat → Nat → α} {u : Option Int} {lpc : Lpv.Lpc α} (hl : IsLpc lpc)
    (hb : MatVals B N (M + 1) b bv) (ha : MatVals B N P a av) (hx : Sig N B X x)
    (hB : 0 < B) (hM : 0 < M) (hP : 0 < P) (hPN : P ≤ N) :
    LinearOn (fun x zi => Lpv.lfilter lpc b a x zi .tdf1 .torchlpc u) X.shape none ∧
      CausalOn (fun x zi => Lpv.lfilter lpc b a x zi .tdf1 .torchlpc u) X.shape none := by
  refine both_packed (fl := allFlatTv X b a none) (B := B) (N := N) (M := 0) (st := false)
    (fun X _ i n => tvConv N M (fun t k => star (bv i t k))
      (fun n => tvTdf2Out P unitTaps (fun t k => star (av i t k)) (fun _ => 0) (xval X i) n) n) (fun _ _ _ _ => 0)
    (fun X' z' hX' hz' => ?_) (fun c d x₁ x₂ z₁ z₂ hx hz i t => ?_) (fun c d _ _ _ _ _ _ i m => by ring)
    (fun T x₁ x₂ z hx h i t ht => ?_)
  · cases none_of_shape hz'
    rw [← allFlatTv_shape (z := none) (z' := none) hX' rfl]
    exact Lpv.torchlpc_tdf1_out hl hb ha (sig_vals hx hX') hB hM hP hPN
  · exact tvConv_lin _ c d (fun t => tvTdf2Out_lin _ _ c d (fun m => by ring) (fun t => xval_lin hx i t) _) _
  · exact tvConv_agree (T := t) (fun _ _ _ => rfl) (fun s hs => tvTdf2Out_agree (T := t) (fun _ _ _ => rfl)
      (fun _ _ _ => rfl) (fun r hr => xval_agree h (by omega)) hs) le_rfl

end Spec
