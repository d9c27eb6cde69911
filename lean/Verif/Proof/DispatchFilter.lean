import Verif.Proof.Dispatch
import Verif.Proof.LtiFiltering
import Verif.Proof.LpvFiltering
import Verif.Proof.LtiDiag
import Verif.Props.C01

/-!
# The filters do not depend on the backend
-/

namespace Phil
open Torch Torch.Tensor Spec

variable {α : Type} [CommRing α] [StarRing α]

namespace Lti

theorem stateSpaceOn_eq {e : Env α} (hc : Correct e) {B N M : Nat} (hi : LtiInstall e M) {A x : Tensor α}
    {Bm C D zi : Option (Tensor α)} {Av v : Nat → Nat → Nat → α} {z : Nat → Nat → α} {u out : Option Int}
    (hA : MatVals B M M A Av) (hB : LtiInput B N M Bm x v) (hz : InitState B M zi z)
    (ho : OV M out) (hM : 0 < M) (hN : 0 < N) :
    stateSpaceOn e A x Bm C D zi u out = stateSpace A x Bm C D zi u out := by
  obtain ⟨-, -, hA3, -⟩ := size_MatVals hA
  unfold stateSpaceOn stateSpace
  rw [hA3]
  refine stateSpaceWith_congr hA hB hz fun Bx o hBx h => recurRunner_eq hc hi hA hBx z _ o ?_ hM hN
  rcases h with rfl | rfl
  · trivial
  · exact ho

omit [StarRing α] in
theorem lfilterWith_congr {f g : Tensor α → Tensor α → Tensor α → Option (Tensor α) → Res (Tensor α × Option (Tensor α))}
    {B N : Nat} {b a X : Tensor α} {x : Nat → Nat → α} {zi : Option (Tensor α)} (hx : Sig N B X x)
    (h : f b a (t2 B N x) zi = g b a (t2 B N x) zi) : lfilterWith f b a X zi = lfilterWith g b a X zi := by
  unfold lfilterWith
  refine bind_congr_ok fun x2 hx2 => ?_
  obtain rfl : x2 = t2 B N x := by
    cases hx with
    | flat x => exact Except.ok.inj (hx2.symm.trans ((if_pos (rank_t1 _ _)).trans (unsqueeze_t1_0 _ _)))
    | batched B x => exact Except.ok.inj (hx2.symm.trans ((if_neg (by simp)).trans (if_neg (by simp))))
  rw [h]

theorem ssmLfilterOn_eq {e : Env α} (hc : Correct e) {B N K P : Nat} {b a : Tensor α} {bv av : Nat → Nat → α}
    (hi : LtiInstall e (max P (K - 1))) (hb : Rows B K b bv) (ha : Rows B P a av)
    (x : Nat → Nat → α) {zi : Option (Tensor α)} {z : Nat → Nat → α} (hz : InitState B (max P (K - 1)) zi z) (form : Form)
    (hB : 0 < B) (hK : 0 < K) (hM : 0 < max P (K - 1)) (hN : 0 < N) (u : Option Int) :
    ssmLfilterOn e b a (t2 B N x) zi form u = ssmLfilter b a (t2 B N x) zi form u := by
  obtain ⟨b', a', ep, hb', ha'⟩ := padOrders_eq hb ha hK
  obtain ⟨A, eA, hA⟩ := companion_rows ha' hM
  obtain ⟨C, D, eC, hC, hD⟩ := outputCoefs_eq hb' ha'
  obtain ⟨A', eA', hA'⟩ := mT_conj hA
  have ho : OV (max P (K - 1)) (some 0) := show _ ∧ _ by omega
  unfold ssmLfilterOn ssmLfilter
  rw [ep, ok_bind, ok_bind]
  dsimp only
  rw [eA, ok_bind, ok_bind]
  cases form with
  | df2 =>
    dsimp only
    rw [eC, ok_bind, ok_bind]
    exact stateSpaceOn_eq hc hi hA (.none (.scalar x)) hz trivial hM hN
  | tdf2 =>
    dsimp only
    rw [eC, ok_bind, ok_bind, eA', ok_bind, ok_bind]
    exact stateSpaceOn_eq hc hi hA' (input_rows (conj_rows hC) x) hz ho hM hN
  | df1 =>
    dsimp only
    rw [size_t2_0, size_mat hA, expand_rows hb', ok_bind, ok_bind, fir_transpose_none _ _ hB hN hM, ok_bind, ok_bind, zeros, full_t2]
    rw [stateSpaceRecursionOn_eq hc hi hA (.scalar _) (fun _ _ => 0) _ (some 0) ho hM hN]
  | tdf1 =>
    dsimp only
    rw [size_t2_0, size_mat hA, expand_rows (conj_rows hb'), ok_bind, ok_bind, eA', ok_bind, ok_bind, zeros, full_t2]
    rw [stateSpaceRecursionOn_eq hc hi hA' (.scalar _) (fun _ _ => 0) _ (some 0) ho hM hN]
  | other => rfl

theorem diagRunner_eq {e : Env α} (hc : Correct e) (hi : e.ext → e.cuda → e.extCuda) {B N : Nat} (hN : 0 < N) (a i : Nat → α)
    (x : Nat → Nat → α) (u : Int) :
    diagRunner e (t1 B a) (t1 B i) (t2 B N x) u = linearRecurrence (t1 B a) (t1 B i) (t2 B N x) u := by
  unfold diagRunner
  split
  · rename_i h
    obtain ⟨h1, rfl⟩ := h
    rw [Props.C01_linear_recurrence x 1 (.full a) (.full i) hN (by omega), ltiRecurrence, Env.both_eq h1 (hi h1)]
    exact hc.ltiRecur h1 B N _ _ _ _ (.full a)
  · rfl

theorem diagRun_congr {r r' : Tensor α → Tensor α → Tensor α → Int → Res (Tensor α)} (re : α → α) (realC : Bool) {B N M : Nat}
    {L V W x : Tensor α} {Bm C D zi : Option (Tensor α)} {l z : Nat → Nat → α} {w vx : Nat → Nat → Nat → α} {u : Int} {out : Option Int}
    (hL : EigVals B M L l) (hW : MatVals B M M W w) (hB : LtiInput B N M Bm x vx) (hz : InitState B M zi z) (hM : 0 < M)
    (h : ∀ a i x, r (t1 (B * M) a) (t1 (B * M) i) (t2 (B * M) N x) u = r' (t1 (B * M) a) (t1 (B * M) i) (t2 (B * M) N x) u) :
    diagRun r re realC L V W x Bm C D zi out u M = diagRun r' re realC L V W x Bm C D zi out u M := by
  obtain ⟨hx1, hx2, hx3⟩ := size_LtiInput hB
  have hE : ∃ l', expand L [some B, some M] = .ok (t2 B M l') := by
    cases hL with
    | shared l => exact ⟨_, expand_m_nm _ _ _⟩
    | batched l => exact ⟨_, expand_nm_nm _ _ _⟩
  obtain ⟨l', hl'⟩ := hE
  unfold diagRun
  rw [hx2, initialState_eq hz, ok_bind, ok_bind, diagInit_eq hW z, ok_bind, ok_bind, diagInput_eq hW hM hB, ok_bind, ok_bind]
  have key : ∀ f g, diagRecur r L (t2 B M f) (t3 B N M g) B M u = diagRecur r' L (t2 B M f) (t3 B N M g) B M u := by
    intro f g
    unfold diagRecur
    rw [hl', ok_bind, ok_bind, flatten_t2_0_1, ok_bind, ok_bind, show flatten (t2 B M f) 0 (-1) = _ from flatten_t2_0_1 _ _ _, ok_bind, ok_bind, mT_eq, transpose_t3_n2_n1, ok_bind, ok_bind,
      flatten_t3_0_1, ok_bind, ok_bind, h]
  rw [key]

end Lti

namespace Lpv
open Phil.Lti (Form OV bind_congr_ok)

theorem stateSpaceOn_eq {e : Env α} (hc : Correct e) {B N M : Nat} (hi : LpvInstall e M) {A x : Tensor α}
    {Bm C D zi : Option (Tensor α)} {Av : Nat → Nat → Nat → Nat → α} {v : Nat → Nat → Nat → α} {z : Nat → Nat → α} {u out : Option Int}
    (hA : MatSeq B N M M A Av) (hB : LpvInput B N M Bm x v) (hz : InitState B M zi z)
    (ho : OV M out) (hM : 0 < M) (hN : 0 < N) (hP : HelionRuns e → 0 < B) :
    stateSpaceOn e A x Bm C D zi u out = stateSpace A x Bm C D zi u out := by
  obtain ⟨-, -, hA3, -⟩ := size_MatSeq hA
  unfold stateSpaceOn stateSpace
  rw [hA3]
  refine stateSpaceWith_congr hA hB hz fun Bx o hBx h => recurRunner_eq hc hi hA hBx z _ o ?_ hM hN hP
  rcases h with rfl | rfl
  · trivial
  · exact ho

omit [StarRing α] in
theorem lfilterWith_congr {f g : Tensor α → Tensor α → Tensor α → Option (Tensor α) → Res (Tensor α × Option (Tensor α))}
    {B N : Nat} {b a X : Tensor α} {x : Nat → Nat → α} {zi : Option (Tensor α)} (hx : Sig N B X x)
    (h : f b a (t2 B N x) zi = g b a (t2 B N x) zi) : lfilterWith f b a X zi = lfilterWith g b a X zi := by
  unfold lfilterWith
  refine bind_congr_ok fun x2 hx2 => ?_
  obtain rfl : x2 = t2 B N x := by
    cases hx with
    | flat x => exact Except.ok.inj (hx2.symm.trans ((if_pos (rank_t1 _ _)).trans (unsqueeze_t1_0 _ _)))
    | batched B x => exact Except.ok.inj (hx2.symm.trans ((if_neg (by simp)).trans (if_neg (by simp))))
  rw [h]

theorem ssmLfilterOn_eq {e : Env α} (hc : Correct e) {B N K P : Nat} {b a : Tensor α} {bv av : Nat → Nat → Nat → α}
    (hi : LpvInstall e (max P (K - 1))) (hb : MatVals B N K b bv) (ha : MatVals B N P a av)
    (x : Nat → Nat → α) {zi : Option (Tensor α)} {z : Nat → Nat → α} (hz : InitState B (max P (K - 1)) zi z) (form : Form)
    (hB : 0 < B) (hK : 0 < K) (hM : 0 < max P (K - 1)) (hN : 0 < N) (u : Option Int)
    (h1 : form = .df1 ∨ form = .tdf1 → 1 ≤ u.getD 1 ∧ GoodFactor N (u.getD 1)) :
    ssmLfilterOn e b a (t2 B N x) zi form u = ssmLfilter b a (t2 B N x) zi form u := by
  obtain ⟨b', a', ep, hb', ha', -, -⟩ := padOrders_seq hb ha hK
  obtain ⟨A, eA, hA⟩ := companion_seq ha' hM
  obtain ⟨C, D, eC, hC, hD, -, -⟩ := outputCoefs_seq hb' ha'
  obtain ⟨A', eA', hA'⟩ := mT_conj_seq hA
  have ho : OV (max P (K - 1)) (some 0) := show _ ∧ _ by omega
  unfold ssmLfilterOn ssmLfilter
  rw [ep, ok_bind, ok_bind]
  dsimp only
  rw [eA, ok_bind, ok_bind]
  cases form with
  | df2 =>
    dsimp only
    rw [eC, ok_bind, ok_bind]
    exact stateSpaceOn_eq hc hi hA (.none (.scalar x)) hz trivial hM hN fun _ => hB
  | tdf2 =>
    dsimp only
    rw [eC, ok_bind, ok_bind, eA', ok_bind, ok_bind]
    exact stateSpaceOn_eq hc hi hA' (input_seq (conj_seq hC).1 x) hz ho hM hN fun _ => hB
  | df1 =>
    obtain ⟨h3, h4⟩ := h1 (Or.inl rfl)
    dsimp only
    rw [size_t2_0, size_matSeq hA, expand_seq hb', ok_bind, ok_bind, fir_direct_none _ _ hN, ok_bind, ok_bind, zeros, full_t2]
    rw [formRunner_eq hc hi hA (.scalar _) (fun _ _ => 0) _ (some 0) ho hM hN hB h3 h4]
  | tdf1 =>
    obtain ⟨h3, h4⟩ := h1 (Or.inr rfl)
    dsimp only
    rw [size_t2_0, size_matSeq hA, expand_seq (conj_seq hb').1, ok_bind, ok_bind, eA', ok_bind, ok_bind, zeros, full_t2]
    rw [formRunner_eq hc hi hA' (.scalar _) (fun _ _ => 0) _ (some 0) ho hM hN hB h3 h4]
  | other => rfl

end Lpv
end Phil
