import Verif.Proof.Accept
import Verif.Proof.StateSpace
import Verif.Torch.Lemmas

/-!
# The layouts that `state_space` accepts

Converse of the evaluation lemmas in StateSpace.lean: when a term of the state-space model is computed without an exception,
its matrix has one of the layouts in Spec/StateSpace.lean.
-/

namespace Phil
open Torch Torch.Tensor Spec
variable {α : Type} [CommRing α] [StarRing α]

omit [StarRing α] in
theorem eq_t0 {x : Tensor α} (h : x.shape = []) : x = t0 (x.get []) := by
  refine Tensor.ext' h fun l hl => ?_
  have : l = [] := by
    cases l with
    | nil => rfl
    | cons a l => rw [h] at hl; simp [inB] at hl
  subst this
  simp [t0, ofFn, inB]

/-- A two- or three-dimensional signal. -/
def SignalShape (B N : Nat) (x : Tensor α) : Prop := (∃ f, x = t2 B N f) ∨ ∃ F f, x = t3 B N F f

omit [StarRing α] in
theorem signal_of_rank {x : Tensor α} (h : x.rank = 2 ∨ x.rank = 3) : SignalShape (x.size 0) (x.size 1) x := by
  rcases h with h | h
  · obtain ⟨n, m, hs⟩ := shape_rank2 h
    have e0 : x.size 0 = n := by simp [size, hs]
    have e1 : x.size 1 = m := by simp [size, hs]
    rw [e0, e1]
    exact Or.inl ⟨_, eq_t2 hs⟩
  · obtain ⟨n, m, p, hs⟩ := shape_rank3 h
    have e0 : x.size 0 = n := by simp [size, hs]
    have e1 : x.size 1 = m := by simp [size, hs]
    rw [e0, e1]
    exact Or.inr ⟨p, _, eq_t3 hs⟩

omit [StarRing α] in
theorem features_t2 (B N : Nat) (f : Nat → Nat → α) : Lti.featuresOf (t2 B N f) = -1 := rfl
omit [StarRing α] in
theorem features_t3 (B N F : Nat) (f : Nat → Nat → Nat → α) : Lti.featuresOf (t3 B N F f) = F := rfl

theorem ltiInput_of_ok {B N M : Nat} {Bt x y : Tensor α} (hx : SignalShape B N x)
    (h : Lti.inputTerm Bt x B M (Lti.featuresOf x) = .ok y) : ∃ v, LtiInput B N M (some Bt) x v := by
  unfold Lti.inputTerm at h
  rcases hx with ⟨f, rfl⟩ | ⟨F, f, rfl⟩
  · rw [features_t2] at h
    generalize hg : (-1 : Int) = g at h
    split at h
    next b0 hs =>
      split_ifs at h with h0
      subst h0
      rw [eq_t1 hs]; exact ⟨_, .vec _ _⟩
    next b0 b1 hs =>
      split_ifs at h with h0 h1
      · obtain ⟨rfl, rfl⟩ := h0
        rw [eq_t2 hs]; exact ⟨_, .batchVec _ _⟩
      · omega
    next b0 b1 b2 hs =>
      split_ifs at h with h0
      omega
    next => cases h
  · rw [features_t3] at h
    split at h
    next b0 hs =>
      split_ifs at h with h0
      exact absurd (ok_check h).1 (by simp)
    next b0 b1 hs =>
      split_ifs at h with h0 h1
      · exact absurd (ok_check h).1 (by simp)
      · obtain ⟨rfl, h1⟩ := h1
        have h1 : b1 = F := by exact_mod_cast h1
        subst h1
        rw [eq_t2 hs]; exact ⟨_, .mat _ _ _ fun e => h0 ⟨e.1, e.2⟩⟩
    next b0 b1 b2 hs =>
      split_ifs at h with h0
      obtain ⟨rfl, rfl, h1⟩ := h0
      have h1 : b2 = F := by exact_mod_cast h1
      subst h1
      rw [eq_t3 hs]; exact ⟨_, .batchMat _ _ _⟩
    next => cases h

theorem ltiReadout_of_ok {B M : Nat} {C h y : Tensor α} (e : Lti.outputTerm C h B M = .ok y) :
    ∃ k r, LtiReadout B M (some C) k r := by
  unfold Lti.outputTerm at e
  split at e
  next c0 hs =>
    split_ifs at e with h0
    subst h0
    rw [eq_t1 hs]; exact ⟨_, _, .vec _⟩
  next c0 c1 hs =>
    split_ifs at e with h0 h1
    · obtain ⟨rfl, rfl⟩ := h0
      rw [eq_t2 hs]; exact ⟨_, _, .batchVec _⟩
    · subst h1
      rw [eq_t2 hs]; exact ⟨_, _, .mat _ _ fun e => h0 ⟨e, rfl⟩⟩
  next c0 c1 c2 hs =>
    split_ifs at e with h0
    obtain ⟨rfl, rfl⟩ := h0
    rw [eq_t3 hs]; exact ⟨_, _, .batchMat _ _⟩
  next => cases e

theorem ltiFeed_of_ok {B N : Nat} {D x y : Tensor α} (hx : SignalShape B N x)
    (h : Lti.feedTerm D x B (Lti.featuresOf x) = .ok y) : ∃ k d, LtiFeed B N (some D) x k d := by
  unfold Lti.feedTerm at h
  rcases hx with ⟨f, rfl⟩ | ⟨F, f, rfl⟩
  · rw [features_t2] at h
    generalize hg : (-1 : Int) = g at h
    split at h
    next hs => rw [eq_t0 hs]; exact ⟨_, _, .scalar _ _⟩
    next d0 hs =>
      split_ifs at h with h0 h1 h2
      · omega
      · subst h1; rw [eq_t1 hs]; exact ⟨_, _, .batch _ _⟩
      · subst h2; rw [eq_t1 hs]; exact ⟨_, _, .one _ _⟩
      · rw [eq_t1 hs]; exact ⟨_, _, .column _ _ _ h1 h2⟩
    next d0 d1 hs =>
      split_ifs at h with h0 h1 h2
      · omega
      · subst h1; rw [eq_t2 hs]; exact ⟨_, _, .batchColumn _ _ _⟩
      · omega
    next d0 d1 d2 hs =>
      split_ifs at h with h0
      omega
    next => cases h
  · rw [features_t3] at h
    split at h
    next hs => rw [eq_t0 hs]; exact ⟨_, _, .scalarFull _ _ _⟩
    next d0 hs =>
      split_ifs at h with h0 h1 h2
      · have h0 : d0 = F := by exact_mod_cast h0
        subst h0; rw [eq_t1 hs]; exact ⟨_, _, .row _ _ _⟩
      · exact absurd (ok_check h).1 (by simp)
      · subst h2; rw [eq_t1 hs]
        exact ⟨_, _, .oneFull _ _ _ (fun e => h1 e.symm) (fun e => h0 (by rw [e]))⟩
      · exact absurd (ok_check h).1 (by simp)
    next d0 d1 hs =>
      split_ifs at h with h0 h1 h2
      · obtain ⟨rfl, h0⟩ := h0
        have h0 : d1 = F := by exact_mod_cast h0
        subst h0; rw [eq_t2 hs]; exact ⟨_, _, .batchRow _ _ _⟩
      · exact absurd (ok_check h).1 (by simp)
      · have h2 : d1 = F := by exact_mod_cast h2
        subst h2; rw [eq_t2 hs]; exact ⟨_, _, .mat _ _ _ _ h1⟩
    next d0 d1 d2 hs =>
      split_ifs at h with h0
      obtain ⟨rfl, h0⟩ := h0
      have h0 : d2 = F := by exact_mod_cast h0
      subst h0; rw [eq_t3 hs]; exact ⟨_, _, .batchMat _ _ _ _⟩
    next => cases h

theorem ltiCD_of_ok {B N M : Nat} {h x y : Tensor α} {C D : Option (Tensor α)} (hx : SignalShape B N x)
    (e : Lti.ssmCD h x C D B M = .ok y) :
    (∃ k r, LtiReadout B M C k r) ∧ ∃ k d, LtiFeed B N D x k d := by
  unfold Lti.ssmCD at e
  obtain ⟨Dx, hD, e⟩ := ok_bind_inv e
  obtain ⟨Ch, hC, e⟩ := ok_bind_inv e
  constructor
  · cases C with
    | none => exact ⟨_, _, .none⟩
    | some C => exact ltiReadout_of_ok hC
  · cases D with
    | none => exact ⟨none, _, .none _ _⟩
    | some D =>
      obtain ⟨d, hd, _⟩ := ok_bind_inv hD
      exact ltiFeed_of_ok hx hd

theorem lpvInput_of_ok {B N M : Nat} {Bt x y : Tensor α} (hx : SignalShape B N x)
    (h : Lpv.inputTerm Bt x B N M (Lti.featuresOf x) = .ok y) : ∃ v, LpvInput B N M (some Bt) x v := by
  unfold Lpv.inputTerm at h
  rcases hx with ⟨f, rfl⟩ | ⟨F, f, rfl⟩
  · rw [features_t2] at h
    generalize hg : (-1 : Int) = g at h
    split at h
    next b0 hs =>
      split_ifs at h with h0
      subst h0
      rw [eq_t1 hs]; exact ⟨_, .vec _ _⟩
    next b0 b1 hs =>
      split_ifs at h with h0 h1 h2
      · omega
      · obtain ⟨rfl, rfl⟩ := h1
        rw [eq_t2 hs]; exact ⟨_, .timeVec _ _⟩
      · obtain ⟨rfl, rfl⟩ := h2
        rw [eq_t2 hs]; exact ⟨_, .batchVec _ _ fun e => h1 ⟨e, rfl⟩⟩
    next b0 b1 b2 hs =>
      split_ifs at h with h0 h1 h2
      · omega
      · obtain ⟨rfl, rfl, rfl⟩ := h1
        rw [eq_t3 hs]; exact ⟨_, .batchTimeVec _ _⟩
      · omega
    next b0 b1 b2 b3 hs =>
      split_ifs at h with h0
      omega
    next => cases h
  · rw [features_t3] at h
    split at h
    next b0 hs =>
      split_ifs at h with h0
      exact absurd (ok_check h).1 (by simp)
    next b0 b1 hs =>
      split_ifs at h with h0 h1 h2
      · obtain ⟨rfl, h1⟩ := h0
        have h1 : b1 = F := by exact_mod_cast h1
        subst h1
        rw [eq_t2 hs]; exact ⟨_, .mat _ _ _⟩
      · exact absurd (ok_check h).1 (by simp)
      · exact absurd (ok_check h).1 (by simp)
    next b0 b1 b2 hs =>
      split_ifs at h with h0 h1 h2
      · obtain ⟨rfl, rfl, h1⟩ := h0
        have h1 : b2 = F := by exact_mod_cast h1
        subst h1
        rw [eq_t3 hs]; exact ⟨_, .timeMat _ _ _⟩
      · exact absurd (ok_check h).1 (by simp)
      · obtain ⟨rfl, rfl, h3⟩ := h2
        have h3 : b2 = F := by exact_mod_cast h3
        subst h3
        rw [eq_t3 hs]
        exact ⟨_, .batchMat _ _ _ (fun e => h0 ⟨e, rfl, rfl⟩) fun e => h1 ⟨rfl, e.2, e.1⟩⟩
    next b0 b1 b2 b3 hs =>
      split_ifs at h with h0
      obtain ⟨rfl, rfl, rfl, h3⟩ := h0
      have h3 : b3 = F := by exact_mod_cast h3
      subst h3
      rw [eq_t4 hs]; exact ⟨_, .batchTimeMat _ _ _⟩
    next => cases h

theorem lpvReadout_of_ok {B N M : Nat} {C h y : Tensor α} (e : Lpv.outputTerm C h B N M = .ok y) :
    ∃ k r, LpvReadout B N M (some C) k r := by
  unfold Lpv.outputTerm at e
  split at e
  next c0 hs =>
    split_ifs at e with h0
    subst h0
    rw [eq_t1 hs]; exact ⟨_, _, .vec _⟩
  next c0 c1 hs =>
    split_ifs at e with h0 h1 h2
    · obtain ⟨rfl, rfl⟩ := h0
      rw [eq_t2 hs]; exact ⟨_, _, .timeVec _⟩
    · obtain ⟨rfl, rfl⟩ := h1
      rw [eq_t2 hs]; exact ⟨_, _, .batchVec _ fun e => h0 ⟨e, rfl⟩⟩
    · subst h2
      rw [eq_t2 hs]; exact ⟨_, _, .mat _ _ (fun e => h1 ⟨e, rfl⟩) fun e => h0 ⟨e, rfl⟩⟩
  next c0 c1 c2 hs =>
    split_ifs at e with h0 h1 h2
    · obtain ⟨rfl, rfl⟩ := h0
      rw [eq_t3 hs]; exact ⟨_, _, .timeMat _ _⟩
    · obtain ⟨rfl, rfl, rfl⟩ := h1
      rw [eq_t3 hs]; exact ⟨_, _, .batchTimeVec _ fun e => h0 ⟨e, rfl⟩⟩
    · obtain ⟨rfl, rfl⟩ := h2
      rw [eq_t3 hs]; exact ⟨_, _, .batchMat _ _ (fun e => h0 ⟨e, rfl⟩) fun e => h1 ⟨rfl, rfl, e⟩⟩
  next c0 c1 c2 c3 hs =>
    split_ifs at e with h0
    obtain ⟨rfl, rfl, rfl⟩ := h0
    rw [eq_t4 hs]; exact ⟨_, _, .batchTimeMat _ _⟩
  next => cases e

theorem lpvFeed_of_ok {B N : Nat} {D x y : Tensor α} (hx : SignalShape B N x)
    (h : Lpv.feedTerm D x B N (Lti.featuresOf x) = .ok y) : ∃ k d, LpvFeed B N (some D) x k d := by
  unfold Lpv.feedTerm at h
  rcases hx with ⟨f, rfl⟩ | ⟨F, f, rfl⟩
  · rw [features_t2] at h
    generalize hg : (-1 : Int) = g at h
    split at h
    next hs => rw [eq_t0 hs]; exact ⟨_, _, .scalar _ _⟩
    next d0 hs =>
      split_ifs at h with h0 h1 h2 h3
      · omega
      · subst h1; rw [eq_t1 hs]; exact ⟨_, _, .time _ _⟩
      · subst h2; rw [eq_t1 hs]; exact ⟨_, _, .batch _ _ h1⟩
      · subst h3; rw [eq_t1 hs]; exact ⟨_, _, .one _ _⟩
      · rw [eq_t1 hs]; exact ⟨_, _, .column _ _ _ h1 h2 h3⟩
    next d0 d1 hs =>
      split_ifs at h with h0 h1 h2 h3 h4 h5
      · omega
      · omega
      · subst h2; rw [eq_t2 hs]; exact ⟨_, _, .timeColumn _ _ _⟩
      · obtain ⟨rfl, rfl⟩ := h3
        rw [eq_t2 hs]; exact ⟨_, _, .batchTime _ _ h2⟩
      · subst h4; rw [eq_t2 hs]; exact ⟨_, _, .batchColumn _ _ _ h2 fun e => h3 ⟨rfl, e⟩⟩
      · omega
    next d0 d1 d2 hs =>
      split_ifs at h with h0 h1 h2 h3
      · omega
      · obtain ⟨rfl, rfl⟩ := h1
        rw [eq_t3 hs]; exact ⟨_, _, .batchTimeColumn _ _ _⟩
      · omega
      · omega
    next d0 d1 d2 d3 hs =>
      split_ifs at h with h0
      omega
    next => cases h
  · rw [features_t3] at h
    split at h
    next hs => rw [eq_t0 hs]; exact ⟨_, _, .scalarFull _ _ _⟩
    next d0 hs =>
      split_ifs at h with h0 h1 h2 h3
      · have h0 : d0 = F := by exact_mod_cast h0
        subst h0; rw [eq_t1 hs]; exact ⟨_, _, .row _ _ _⟩
      · exact absurd (ok_check h).1 (by simp)
      · exact absurd (ok_check h).1 (by simp)
      · subst h3; rw [eq_t1 hs]
        exact ⟨_, _, .oneFull _ _ _ (fun e => h2 e.symm) (fun e => h1 e.symm) (fun e => h0 (by rw [e]))⟩
      · exact absurd (ok_check h).1 (by simp)
    next d0 d1 hs =>
      split_ifs at h with h0 h1 h2 h3 h4 h5
      · obtain ⟨rfl, h0⟩ := h0
        have h0 : d1 = F := by exact_mod_cast h0
        subst h0; rw [eq_t2 hs]; exact ⟨_, _, .timeRow _ _ _⟩
      · obtain ⟨rfl, h1⟩ := h1
        have h1 : d1 = F := by exact_mod_cast h1
        subst h1; rw [eq_t2 hs]; exact ⟨_, _, .batchRow _ _ _ fun e => h0 ⟨e, rfl⟩⟩
      · exact absurd (ok_check h).1 (by simp)
      · exact absurd (ok_check h).1 (by simp)
      · exact absurd (ok_check h).1 (by simp)
      · have h5 : d1 = F := by exact_mod_cast h5
        subst h5; rw [eq_t2 hs]; exact ⟨_, _, .mat _ _ _ _ h2 h4⟩
    next d0 d1 d2 hs =>
      split_ifs at h with h0 h1 h2 h3
      · obtain ⟨rfl, rfl, h0⟩ := h0
        have h0 : d2 = F := by exact_mod_cast h0
        subst h0; rw [eq_t3 hs]; exact ⟨_, _, .batchTimeRow _ _ _⟩
      · exact absurd (ok_check h).1 (by simp)
      · obtain ⟨rfl, h2⟩ := h2
        have h2 : d2 = F := by exact_mod_cast h2
        subst h2; rw [eq_t3 hs]; exact ⟨_, _, .timeMat _ _ _ _ fun e => h1 ⟨e.1.symm, e.2⟩⟩
      · obtain ⟨rfl, h3⟩ := h3
        have h3 : d2 = F := by exact_mod_cast h3
        subst h3; rw [eq_t3 hs]
        exact ⟨_, _, .batchMat _ _ _ _ (fun e => h2 ⟨e, rfl⟩) fun e => h1 ⟨rfl, e⟩⟩
    next d0 d1 d2 d3 hs =>
      split_ifs at h with h0
      obtain ⟨rfl, rfl, h0⟩ := h0
      have h0 : d3 = F := by exact_mod_cast h0
      subst h0; rw [eq_t4 hs]; exact ⟨_, _, .batchTimeMat _ _ _ _⟩
    next => cases h

theorem lpvCD_of_ok {B N M : Nat} {h x y : Tensor α} {C D : Option (Tensor α)} (hx : SignalShape B N x)
    (e : Lpv.ssmCD h x C D B N M = .ok y) :
    (∃ k r, LpvReadout B N M C k r) ∧ ∃ k d, LpvFeed B N D x k d := by
  unfold Lpv.ssmCD at e
  obtain ⟨Dx, hD, e⟩ := ok_bind_inv e
  obtain ⟨Ch, hC, e⟩ := ok_bind_inv e
  constructor
  · cases C with
    | none => exact ⟨_, _, .none⟩
    | some C => exact lpvReadout_of_ok hC
  · cases D with
    | none => exact ⟨none, _, .none _ _⟩
    | some D =>
      obtain ⟨d, hd, _⟩ := ok_bind_inv hD
      exact lpvFeed_of_ok hx hd

omit [StarRing α] in
/-- The layout of the initial state. -/
theorem initState_of_ok {zi : Option (Tensor α)} {B M : Nat} {z : Tensor α} (h : Lti.initialState zi B M = .ok z)
    (hr : z.rank = 2) (h0 : z.size 0 = B) (h1 : z.size 1 = M) : ∃ v, InitState B M zi v := by
  have := initialState_shape h hr h0 h1
  cases zi with
  | none => exact ⟨_, .zero⟩
  | some w =>
    rcases this w rfl with hs | hs
    · rw [eq_t1 hs]; exact ⟨_, .shared _⟩
    · rw [eq_t2 hs]; exact ⟨_, .full _⟩

omit [StarRing α] in
/-- The layout of a state matrix. -/
theorem matVals_of {A : Tensor α} {B : Nat} (h : A.rank = 2 ∨ A.rank = 3) (hsq : A.size (-2) = A.size (-1))
    (hB : A.rank = 3 → B = A.size 0) : ∃ v, MatVals B (A.size (-1)) (A.size (-1)) A v := by
  rcases h with h | h
  · obtain ⟨n, m, hs⟩ := shape_rank2 h
    have e : n = m := by simpa [size, rank, hs] using hsq
    subst e
    have e1 : A.size (-1) = n := by simp [size, rank, hs]
    rw [e1, eq_t2 hs]; exact ⟨_, .shared _⟩
  · have hB := hB h
    obtain ⟨b, n, m, hs⟩ := shape_rank3 h
    have e : n = m := by simpa [size, rank, hs] using hsq
    subst e
    have e0 : A.size 0 = b := by simp [size, hs]
    have e1 : A.size (-1) = n := by simp [size, rank, hs]
    rw [hB, e0, e1, eq_t3 hs]; exact ⟨_, .batched _⟩

omit [StarRing α] in
/-- The layout of a sequence of state matrices. -/
theorem matSeq_of {A : Tensor α} {B N : Nat} (h : A.rank = 3 ∨ A.rank = 4) (hsq : A.size (-2) = A.size (-1))
    (hN : A.size (-3) = N) (hB : A.rank = 4 → B = A.size 0) : ∃ v, MatSeq B N (A.size (-1)) (A.size (-1)) A v := by
  rcases h with h | h
  · obtain ⟨t, n, m, hs⟩ := shape_rank3 h
    have e : n = m := by simpa [size, rank, hs] using hsq
    subst e
    have e0 : A.size (-3) = t := by simp [size, rank, hs]
    have e1 : A.size (-1) = n := by simp [size, rank, hs]
    rw [← hN, e0, e1, eq_t3 hs]; exact ⟨_, .shared _⟩
  · have hB := hB h
    obtain ⟨b, t, n, m, hs⟩ := shape_rank4 h
    have e : n = m := by simpa [size, rank, hs] using hsq
    subst e
    have e0 : A.size 0 = b := by simp [size, hs]
    have e2 : A.size (-3) = t := by simp [size, rank, hs]
    have e1 : A.size (-1) = n := by simp [size, rank, hs]
    rw [hB, ← hN, e0, e1, e2, eq_t4 hs]; exact ⟨_, .batched _⟩

omit [StarRing α] in
theorem firstComponent_t2_inv {B N M : Nat} {f : Nat → Nat → α} {y : Tensor α} (h : Lti.firstComponent (t2 B N f) M = .ok y) :
    0 < M ∧ ∃ g, y = t3 B N M g := by
  have hM := (ok_check h).1
  rw [Lti.firstComponent_t2 _ _ _ hM] at h
  cases h
  exact ⟨hM, _, rfl⟩

omit [StarRing α] in
theorem lti_nonempty {B N : Nat} {A z X h : Tensor α} {u : Int} {o : Option Int} (hX : SignalShape B N X)
    (e : Lti.stateSpaceRecursion A z X u o = .ok h) : 0 < N := by
  by_contra hN
  obtain rfl : N = 0 := by omega
  refine not_fails e ?_
  unfold Lti.stateSpaceRecursion
  rw [Lti.stateSpaceRecursionAux]
  have h1 : X.size 1 = 0 := by rcases hX with ⟨f, rfl⟩ | ⟨F, f, rfl⟩ <;> rfl
  refine fails_check fun _ => fails_check fun _ => fails_check fun _ => fails_check fun _ => fails_check fun _ =>
    fails_check fun _ => fails_check fun _ => fails_check fun _ => fails_check fun _ => ?_
  rw [h1, if_pos (Or.inr (Nat.zero_le _))]
  unfold Lti.recursionLoop
  refine fails_bind fun _ _ => fails_bind fun y hy => ?_
  have hy : ∃ F g, y = t3 B 0 F g := by
    rcases hX with ⟨f, rfl⟩ | ⟨F, f, rfl⟩
    · rw [if_pos (rank_t2 _ _ _)] at hy
      obtain ⟨_, g, rfl⟩ := firstComponent_t2_inv hy
      exact ⟨_, _, rfl⟩
    · rw [if_neg (by rw [rank_t3]; omega)] at hy
      cases hy
      exact ⟨_, _, rfl⟩
  obtain ⟨F, g, rfl⟩ := hy
  rw [unbind_t3_1]
  split
  · exact ⟨_, rfl⟩
  · exact fails_bind fun _ _ => ⟨_, rfl⟩

omit [StarRing α] in
theorem lpv_nonempty {B N : Nat} {A z X h : Tensor α} {u : Int} {o : Option Int} (hX : SignalShape B N X)
    (e : Lpv.stateSpaceRecursion A z X u o = .ok h) : 0 < N := by
  by_contra hN
  obtain rfl : N = 0 := by omega
  refine not_fails e ?_
  unfold Lpv.stateSpaceRecursion
  rw [Lpv.stateSpaceRecursionAux]
  have h1 : X.size 1 = 0 := by rcases hX with ⟨f, rfl⟩ | ⟨F, f, rfl⟩ <;> rfl
  refine fails_check fun _ => fails_check fun _ => fails_check fun _ => fails_check fun _ => fails_check fun _ =>
    fails_check fun _ => fails_check fun _ => fails_check fun _ => fails_check fun _ => fails_check fun _ => ?_
  rw [h1, if_pos (Or.inr (Nat.zero_le _))]
  unfold Lpv.recursionLoop
  refine fails_check fun _ => fails_bind fun _ _ => fails_bind fun y hy => ?_
  have hy : ∃ F g, y = t3 B 0 F g := by
    rcases hX with ⟨f, rfl⟩ | ⟨F, f, rfl⟩
    · rw [if_pos (rank_t2 _ _ _)] at hy
      obtain ⟨_, g, rfl⟩ := firstComponent_t2_inv hy
      exact ⟨_, _, rfl⟩
    · rw [if_neg (by rw [rank_t3]; omega)] at hy
      cases hy
      exact ⟨_, _, rfl⟩
  obtain ⟨F, g, rfl⟩ := hy
  rw [unbind_t3_1]
  split
  · rw [ok_bind]; exact fails_bind fun _ _ => ⟨_, rfl⟩
  · exact fails_bind fun _ _ => (by rw [ok_bind]; exact fails_bind fun _ _ => ⟨_, rfl⟩)

omit [StarRing α] in
theorem drive_shape {B N M : Nat} {X : Tensor α} {v : Nat → Nat → Nat → α} (h : Drive B N M X v) : SignalShape B N X := by
  cases h with
  | full x => exact Or.inr ⟨_, _, rfl⟩
  | scalar x => exact Or.inl ⟨_, rfl⟩

omit [StarRing α] in
theorem drive_of {B N M : Nat} {X : Tensor α} (h : SignalShape B N X) (hM : X.rank = 3 → M = X.size (-1)) :
    ∃ v, Drive B N M X v := by
  rcases h with ⟨f, rfl⟩ | ⟨F, f, rfl⟩
  · exact ⟨_, .scalar _⟩
  · obtain rfl : M = F := hM rfl
    exact ⟨_, .full _⟩

omit [StarRing α] in
theorem unroll_of {u : Option Int} {N : Nat} (h : 1 ≤ u.getD N) : ∀ i, u = some i → 1 ≤ i := by
  rintro i rfl; exact h

/-- What `lti.state_space` requires of its arguments. -/
theorem ltiStateSpace_ok {A x : Tensor α} {Bm C D zi : Option (Tensor α)} {u out : Option Int} {y : Tensor α × Option (Tensor α)}
    (h : Lti.stateSpace A x Bm C D zi u out = .ok y) :
    0 < x.size 1 ∧ (∃ Av, MatVals (x.size 0) (A.size (-1)) (A.size (-1)) A Av) ∧
      (∃ v, LtiInput (x.size 0) (x.size 1) (A.size (-1)) Bm x v) ∧ (∃ k r, LtiReadout (x.size 0) (A.size (-1)) C k r) ∧
      (∃ k d, LtiFeed (x.size 0) (x.size 1) D x k d) ∧ (∃ z, InitState (x.size 0) (A.size (-1)) zi z) ∧
      (∀ i, u = some i → 1 ≤ i) ∧ (C = none ∨ out = none) := by
  unfold Lti.stateSpace Lti.stateSpaceWith at h
  obtain ⟨h1, h⟩ := ok_check h
  obtain ⟨h2, h⟩ := ok_check h
  obtain ⟨h3, h⟩ := ok_check h
  obtain ⟨h4, h⟩ := ok_check h
  obtain ⟨h5, h⟩ := ok_check h
  obtain ⟨z, hz, h⟩ := ok_bind_inv h
  obtain ⟨Bx, hBx, h⟩ := ok_bind_inv h
  obtain ⟨r, hr, h⟩ := ok_bind_inv h
  obtain ⟨y', hy, h⟩ := ok_bind_inv h
  have hx := signal_of_rank h1
  obtain ⟨o, hh, hrun⟩ := shiftedStates_runner hr
  have hc := ltiRecursion_ok hrun
  have hin : ∃ v, LtiInput (x.size 0) (x.size 1) (A.size (-1)) Bm x v := by
    cases Bm with
    | none =>
      cases hBx
      obtain ⟨v, hv⟩ := drive_of hx hc.2.2.2.2.1
      exact ⟨v, .none hv⟩
    | some Bt => exact ltiInput_of_ok hx hBx
  obtain ⟨v, hv⟩ := hin
  obtain ⟨Bx', hd, e⟩ := Lti.inputTerm_eq hv
  cases hBx.symm.trans e
  have hs := drive_shape hd
  have hs0 : Bx.size 0 = x.size 0 := by
    cases hd <;> rfl
  have hcd := ltiCD_of_ok hx hy
  exact ⟨lti_nonempty hs hrun, matVals_of h2 h3 h4, ⟨v, hv⟩, hcd.1, hcd.2,
    initState_of_ok hz hc.2.2.2.2.2.1 (hc.2.2.2.2.2.2.1.trans hs0) hc.2.2.2.2.2.2.2.1, unroll_of hc.2.2.2.2.2.2.2.2, h5⟩

/-- What `lpv.state_space` requires of its arguments. -/
theorem lpvStateSpace_ok {A x : Tensor α} {Bm C D zi : Option (Tensor α)} {u out : Option Int} {y : Tensor α × Option (Tensor α)}
    (h : Lpv.stateSpace A x Bm C D zi u out = .ok y) :
    0 < x.size 1 ∧ (∃ Av, MatSeq (x.size 0) (x.size 1) (A.size (-1)) (A.size (-1)) A Av) ∧
      (∃ v, LpvInput (x.size 0) (x.size 1) (A.size (-1)) Bm x v) ∧
      (∃ k r, LpvReadout (x.size 0) (x.size 1) (A.size (-1)) C k r) ∧
      (∃ k d, LpvFeed (x.size 0) (x.size 1) D x k d) ∧ (∃ z, InitState (x.size 0) (A.size (-1)) zi z) ∧
      (∀ i, u = some i → 1 ≤ i) ∧ (C = none ∨ out = none) := by
  unfold Lpv.stateSpace Lpv.stateSpaceWith at h
  obtain ⟨h1, h⟩ := ok_check h
  obtain ⟨h2, h⟩ := ok_check h
  obtain ⟨h3, h⟩ := ok_check h
  obtain ⟨h4, h⟩ := ok_check h
  obtain ⟨h5, h⟩ := ok_check h
  obtain ⟨z, hz, h⟩ := ok_bind_inv h
  obtain ⟨Bx, hBx, h⟩ := ok_bind_inv h
  obtain ⟨r, hr, h⟩ := ok_bind_inv h
  obtain ⟨y', hy, h⟩ := ok_bind_inv h
  have hx := signal_of_rank h1
  obtain ⟨o, hh, hrun⟩ := shiftedStates_runner hr
  have hc := lpvRecursion_ok hrun
  have hin : ∃ v, LpvInput (x.size 0) (x.size 1) (A.size (-1)) Bm x v := by
    cases Bm with
    | none =>
      cases hBx
      obtain ⟨v, hv⟩ := drive_of hx hc.2.2.2.2.2.1
      exact ⟨v, .none hv⟩
    | some Bt => exact lpvInput_of_ok hx hBx
  obtain ⟨v, hv⟩ := hin
  obtain ⟨Bx', hd, e⟩ := Lpv.inputTerm_eq hv
  cases hBx.symm.trans e
  have hs := drive_shape hd
  have hs0 : Bx.size 0 = x.size 0 := by
    cases hd <;> rfl
  have hcd := lpvCD_of_ok hx hy
  exact ⟨lpv_nonempty hs hrun,
    matSeq_of h2 h3 h4 (fun h => hs0.symm.trans (hc.2.2.2.2.1 h)), ⟨v, hv⟩, hcd.1, hcd.2,
    initState_of_ok hz hc.2.2.2.2.2.2.1 (hc.2.2.2.2.2.2.2.1.trans hs0) hc.2.2.2.2.2.2.2.2.1, unroll_of hc.2.2.2.2.2.2.2.2.2, h5⟩

end Phil
