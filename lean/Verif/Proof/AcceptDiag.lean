import Verif.Proof.AcceptFilter
import Verif.Model.LtiDiag

/-!
# The shapes that `diag_state_space` and `filtfilt` accept
-/

namespace Phil
open Torch Torch.Tensor Spec
variable {α : Type} [Field α] [StarRing α]

omit [Field α] [StarRing α] in
theorem absentOrShape_iff [Zero α] {X : Option (Tensor α)} {s : List Nat} :
    Lti.absentOrShape X s = true ↔ ∀ x, X = some x → x.shape = s := by
  cases X <;> simp [Lti.absentOrShape]

omit [StarRing α] in
/-- The shapes of given eigenvalues, eigenvectors, inverse and state matrix. -/
theorem checkEigen_ok {L : Tensor α} {V W A : Option (Tensor α)} {B M : Nat} (h : Lti.checkEigen L V W A B = .ok M) :
    (L.shape = [M] ∧ ∀ X, V = some X ∨ W = some X ∨ A = some X → X.shape = [M, M]) ∨
      (L.shape = [B, M] ∧ (V.isSome ∨ W.isSome) ∧ ∀ X, V = some X ∨ W = some X ∨ A = some X → X.shape = [B, M, M]) := by
  unfold Lti.checkEigen at h
  split at h
  next m hs =>
    obtain ⟨h1, h⟩ := ok_check h
    obtain ⟨h2, h⟩ := ok_check h
    obtain ⟨h3, h⟩ := ok_check h
    cases h
    refine Or.inl ⟨hs, fun X hX => ?_⟩
    rcases hX with e | e | e
    · exact absentOrShape_iff.1 h1 X e
    · exact absentOrShape_iff.1 h2 X e
    · exact absentOrShape_iff.1 h3 X e
  next b m hs =>
    split_ifs at h with hb
    subst hb
    obtain ⟨h0, h⟩ := ok_check h
    obtain ⟨h1, h⟩ := ok_check h
    obtain ⟨h2, h⟩ := ok_check h
    obtain ⟨h3, h⟩ := ok_check h
    cases h
    refine Or.inr ⟨hs, h0, fun X hX => ?_⟩
    rcases hX with e | e | e
    · exact absentOrShape_iff.1 h1 X e
    · exact absentOrShape_iff.1 h2 X e
    · exact absentOrShape_iff.1 h3 X e
  next => cases h

/-- The shapes of a given input matrix. -/
theorem diagInputWith_ok {W Bm x y : Tensor α} {B M : Nat} (hx : x.rank = 2 ∨ x.rank = 3)
    (h : Lti.diagInputWith W Bm x B M (Lti.featuresOf x) = .ok y) :
    x.rank = 2 ∧ (Bm.shape = [M] ∨ Bm.shape = [B, M]) ∨
      x.rank = 3 ∧ (Bm.shape = [M, x.size (-1)] ∨ Bm.shape = [B, M, x.size (-1)]) := by
  have hf : ∀ n : Nat, (n : Int) = Lti.featuresOf x → x.rank = 3 ∧ n = x.size (-1) := by
    intro n hn
    unfold Lti.featuresOf at hn
    split_ifs at hn with h2
    exact ⟨by omega, by omega⟩
  unfold Lti.diagInputWith at h
  split at h
  next b0 hs =>
    split_ifs at h with h0
    exact Or.inl ⟨(ok_check h).1, Or.inl (by rw [hs, h0])⟩
  next b0 b1 hs =>
    split_ifs at h with h0 _ h1
    · exact Or.inl ⟨(ok_check h).1, Or.inr (by rw [hs, h0.1, h0.2])⟩
    · exact Or.inl ⟨(ok_check h).1, Or.inr (by rw [hs, h0.1, h0.2])⟩
    · obtain ⟨h2, h3⟩ := hf _ h1.2
      exact Or.inr ⟨h2, Or.inl (by rw [hs, h1.1, h3])⟩
  next b0 b1 b2 hs =>
    split_ifs at h with h0
    obtain ⟨h2, h3⟩ := hf _ h0.2.2
    exact Or.inr ⟨h2, Or.inr (by rw [hs, h0.1, h0.2.1, h3])⟩
  next => cases h

theorem diagRun_ok {runner : Tensor α → Tensor α → Tensor α → Int → Res (Tensor α)} {re : α → α} {realC : Bool}
    {L V W x : Tensor α} {Bm C D zi : Option (Tensor α)} {out : Option Int} {u : Int} {M : Nat} {y : Tensor α × Option (Tensor α)}
    (hx : x.rank = 2 ∨ x.rank = 3) (h : Lti.diagRun runner re realC L V W x Bm C D zi out u M = .ok y) :
    (∀ b, Bm = some b → x.rank = 2 ∧ (b.shape = [M] ∨ b.shape = [x.size 0, M]) ∨
        x.rank = 3 ∧ (b.shape = [M, x.size (-1)] ∨ b.shape = [x.size 0, M, x.size (-1)])) ∧
      (∃ k r, LtiReadout (x.size 0) M C k r) ∧ ∃ k d, LtiFeed (x.size 0) (x.size 1) D x k d := by
  unfold Lti.diagRun at h
  obtain ⟨z, hz, h⟩ := ok_bind_inv h
  obtain ⟨Wz, hWz, h⟩ := ok_bind_inv h
  obtain ⟨Wx, hWx, h⟩ := ok_bind_inv h
  obtain ⟨Wh, hWh, h⟩ := ok_bind_inv h
  obtain ⟨r, hr, h⟩ := ok_bind_inv h
  obtain ⟨y', hy, h⟩ := ok_bind_inv h
  refine ⟨?_, ltiCD_of_ok (signal_of_rank hx) hy⟩
  rintro b rfl
  exact diagInputWith_ok hx hWx

/-- What `diag_state_space` requires of the eigenvalues, the basis, the state matrix, the input matrix, `C` and `D`. -/
theorem diagStateSpace_ok {eigvals : Tensor α → Res (Tensor α)} {findEv : Tensor α → Tensor α → Res (Tensor α)} {re : α → α}
    {realC : Bool} {x : Tensor α} {L V W A Bm C D zi : Option (Tensor α)} {out u : Option Int} {y : Tensor α × Option (Tensor α)}
    (h : Lti.diagStateSpace eigvals findEv re realC x L V W A Bm C D zi out u = .ok y) :
    (C = none ∨ out = none) ∧ ∃ B N M, (x.shape = [B, N] ∨ ∃ F, x.shape = [B, N, F]) ∧
      ((L = none ∧ ∃ A' Av, A = some A' ∧ MatVals B M M A' Av) ∨
        ∃ L', L = some L' ∧
          ((L'.shape = [M] ∧ ∀ X, V = some X ∨ W = some X ∨ A = some X → X.shape = [M, M]) ∨
            (L'.shape = [B, M] ∧ (V.isSome ∨ W.isSome) ∧ ∀ X, V = some X ∨ W = some X ∨ A = some X → X.shape = [B, M, M]))) ∧
      (∀ b, Bm = some b → x.shape = [B, N] ∧ (b.shape = [M] ∨ b.shape = [B, M]) ∨
        ∃ F, x.shape = [B, N, F] ∧ (b.shape = [M, F] ∨ b.shape = [B, M, F])) ∧
      (∃ k r, LtiReadout B M C k r) ∧ ∃ k d, LtiFeed B N D x k d := by
  unfold Lti.diagStateSpace Lti.diagStateSpaceWith at h
  obtain ⟨h1, h⟩ := ok_check h
  obtain ⟨h2, h⟩ := ok_check h
  have hxs : x.shape = [x.size 0, x.size 1] ∨ ∃ F, x.shape = [x.size 0, x.size 1, F] := by
    rcases h1 with h1 | h1
    · exact Or.inl (shape2_of_rank h1)
    · obtain ⟨n, m, k, hs⟩ := shape_rank3 h1
      exact Or.inr ⟨k, by simp [size, hs]⟩
  have hB : ∀ {M : Nat} {b : Tensor α}, x.rank = 2 ∧ (b.shape = [M] ∨ b.shape = [x.size 0, M]) ∨
        x.rank = 3 ∧ (b.shape = [M, x.size (-1)] ∨ b.shape = [x.size 0, M, x.size (-1)]) →
      x.shape = [x.size 0, x.size 1] ∧ (b.shape = [M] ∨ b.shape = [x.size 0, M]) ∨
        ∃ F, x.shape = [x.size 0, x.size 1, F] ∧ (b.shape = [M, F] ∨ b.shape = [x.size 0, M, F]) := by
    rintro M b (⟨e, hb⟩ | ⟨e, hb⟩)
    · exact Or.inl ⟨shape2_of_rank e, hb⟩
    · obtain ⟨n, m, k, hs⟩ := shape_rank3 e
      have : x.size (-1) = k := by simp [size, rank, hs]
      exact Or.inr ⟨x.size (-1), by rw [this]; simp [size, hs], hb⟩
  refine ⟨h2, ?_⟩
  cases L with
  | none =>
    cases A with
    | none => cases h
    | some A =>
      dsimp only at h
      obtain ⟨h3, h⟩ := ok_check h
      obtain ⟨h4, h⟩ := ok_check h
      obtain ⟨h5, h⟩ := ok_check h
      obtain ⟨L, _, h⟩ := ok_bind_inv h
      obtain ⟨bs, _, h⟩ := ok_bind_inv h
      obtain ⟨Av, hA⟩ := matVals_of h3 h4 h5
      obtain ⟨e1, e2⟩ := diagRun_ok h1 h
      exact ⟨_, _, _, hxs, Or.inl ⟨rfl, A, Av, rfl, hA⟩, fun b hb => hB (e1 b hb), e2⟩
  | some L =>
    dsimp only at h
    obtain ⟨M, hM, h⟩ := ok_bind_inv h
    obtain ⟨bs, _, h⟩ := ok_bind_inv h
    obtain ⟨e1, e2⟩ := diagRun_ok h1 h
    exact ⟨_, _, M, hxs, Or.inr ⟨L, rfl, checkEigen_ok hM⟩, fun b hb => hB (e1 b hb), e2⟩

/-- What `filtfilt` requires of its arguments. -/
theorem filtfilt_ok {b a x : Tensor α} {padmode : Option Lti.PadMode} {padlen : Option Int} {form : Lti.Form} {u : Option Int}
    {y : Tensor α} (h : Lti.filtfilt b a x padmode padlen form u = .ok y) :
    Lti.edgeLength b a padmode padlen < x.size (-1) ∧ (b.rank = 1 ∨ b.rank = 2) ∧ (a.rank = 1 ∨ a.rank = 2) ∧ form ≠ .other ∧
      ∀ i, u = some i → 1 ≤ i := by
  unfold Lti.filtfilt Lti.filtfiltWith at h
  obtain ⟨h1, h⟩ := ok_check h
  obtain ⟨e, he, h⟩ := ok_bind_inv h
  obtain ⟨zi, hzi, h⟩ := ok_bind_inv h
  obtain ⟨x0, hx0, h⟩ := ok_bind_inv h
  obtain ⟨zx, hzx, h⟩ := ok_bind_inv h
  obtain ⟨r, hr, h⟩ := ok_bind_inv h
  have hr : Lti.lfilter b a e (some zx) form u = .ok r := hr
  obtain ⟨B, N, K, P, hN, hs, ha, hb, hf, hu, _⟩ := ltiLfilter_ok hr
  refine ⟨h1, ?_, ?_, hf, hu⟩
  · rcases hb with hb | ⟨R, hb, _⟩
    · exact Or.inl (rank_of hb)
    · exact Or.inr (rank_of hb)
  · rcases ha with ha | ha
    · exact Or.inl (rank_of ha)
    · exact Or.inr (rank_of ha)

end Phil
