import Verif.Proof.AcceptDiag
import Verif.Proof.DepthSpace
import Verif.Proof.HostBounds
import Verif.Proof.Eigenvectors

/-!
# The initial states that `diag_state_space` accepts
-/

namespace Phil
open Torch Torch.Tensor

section
variable {α : Type} [CommRing α]

theorem zipWith_rank1 {f : α → α → α} {x y z : Tensor α} (hx : x.rank = 1) (hy : y.rank = 1) (h : zipWith f x y = .ok z) :
    z.rank = 1 := by
  unfold zipWith at h
  split at h
  next s hs =>
    cases h
    obtain ⟨k, hk⟩ := shape_rank1 hx
    rw [hk] at hs
    obtain ⟨d, rfl⟩ := bshape_one hs (by have : y.shape.length = 1 := hy; omega)
    rfl
  next => cases h

theorem scalarLoop_rank {a init x h : Tensor α} (ha : a.rank = 1) (hi : init.rank = 1) (hx : x.rank = 2)
    (hh : Lti.scalarRecursionLoop a init x = .ok h) : h.rank = 2 := by
  unfold Lti.scalarRecursionLoop at hh
  obtain ⟨xs, hxs, hh⟩ := ok_bind_inv hh
  obtain ⟨rs, hrs, hh⟩ := ok_bind_inv hh
  have hr := unbind_rank hxs
  match xs, hr, hrs with
  | [], _, hrs => cases hrs; cases hh
  | x0 :: xs, hr, hrs =>
    obtain ⟨h0, e0, hrs⟩ := ok_bind_inv hrs
    obtain ⟨r, _, hrs⟩ := ok_bind_inv hrs
    cases hrs
    obtain ⟨ah, e1, e0⟩ := ok_bind_inv e0
    have hr0 := hr x0 (by simp)
    have h1 := zipWith_rank1 ha hi e1
    have h2 := zipWith_rank1 h1 (by omega) e0
    rw [stack_rank hh, h2]

variable [StarRing α]

/-- `linear_recurrence` returns a matrix. -/
theorem linearRecurrence_rank {a init x h : Tensor α} {u : Int} (hh : Lti.linearRecurrence a init x u = .ok h) : h.rank = 2 := by
  unfold Lti.linearRecurrence Lti.linearRecurrenceAux at hh
  obtain ⟨h1, hh⟩ := ok_check hh
  obtain ⟨h2, hh⟩ := ok_check hh
  obtain ⟨h3, hh⟩ := ok_check hh
  obtain ⟨a', ha, hh⟩ := ok_bind_inv hh
  have ha' : a'.rank = 1 := by
    split_ifs at ha with h
    · exact expand_rank ha
    · cases ha; omega
  dsimp only at hh
  obtain ⟨h4, hh⟩ := ok_check hh
  obtain ⟨h5, hh⟩ := ok_check hh
  obtain ⟨i', hi, hh⟩ := ok_bind_inv hh
  have hi' : i'.rank = 1 := by
    split_ifs at hi with h
    · exact expand_rank hi
    · cases hi; omega
  obtain ⟨h6, hh⟩ := ok_check hh
  split at hh
  · exact scalarLoop_rank ha' hi' h1 hh
  obtain ⟨xp, _, hh⟩ := ok_bind_inv hh
  obtain ⟨ux, _, hh⟩ := ok_bind_inv hh
  obtain ⟨aRep, _, hh⟩ := ok_bind_inv hh
  obtain ⟨aP, _, hh⟩ := ok_bind_inv hh
  obtain ⟨aL, _, hh⟩ := ok_bind_inv hh
  obtain ⟨w1, _, hh⟩ := ok_bind_inv hh
  obtain ⟨w2, _, hh⟩ := ok_bind_inv hh
  obtain ⟨w3, _, hh⟩ := ok_bind_inv hh
  obtain ⟨z, _, hh⟩ := ok_bind_inv hh
  obtain ⟨rec_, _, hh⟩ := ok_bind_inv hh
  obtain ⟨i1, hi1, hh⟩ := ok_bind_inv hh
  obtain ⟨i2, hi2, hh⟩ := ok_bind_inv hh
  obtain ⟨i3, hi3, hh⟩ := ok_bind_inv hh
  obtain ⟨i4, _, hh⟩ := ok_bind_inv hh
  obtain ⟨i5, _, hh⟩ := ok_bind_inv hh
  obtain ⟨u2, _, hh⟩ := ok_bind_inv hh
  obtain ⟨gX, _, hh⟩ := ok_bind_inv hh
  obtain ⟨g1, _, hh⟩ := ok_bind_inv hh
  obtain ⟨g2, _, hh⟩ := ok_bind_inv hh
  obtain ⟨g3, _, hh⟩ := ok_bind_inv hh
  obtain ⟨g4, _, hh⟩ := ok_bind_inv hh
  obtain ⟨o, _, hh⟩ := ok_bind_inv hh
  obtain ⟨f1, hf1, hh⟩ := ok_bind_inv hh
  obtain ⟨f2, hf2, hh⟩ := ok_bind_inv hh
  obtain ⟨o2, ho2, hh⟩ := ok_bind_inv hh
  obtain ⟨o3, ho3, hh⟩ := ok_bind_inv hh
  have e1 := expand_rank hi2
  have e2 := cat2_rank hi3
  have e3 := slice_rank hf1
  have e4 := unsqueeze_rank hf2
  have e5 := cat2_rank ho2
  have e6 := flatten_pair_rank (d := 1) ho3 (by decide)
  simp only [List.length_cons, List.length_nil] at e1
  have e7 : o3.rank = 2 := by omega
  split_ifs at hh
  · rw [slice_rank hh, e7]
  · cases hh; exact e7

omit [StarRing α] in
theorem slice1_shape3 {x y : Tensor α} {B n k : Nat} {s t : Option Int} (hx : x.shape = [B, n, k]) (h : slice x 1 s t = .ok y) :
    ∃ n', y.shape = [B, n', k] := by
  obtain ⟨p, hp, h⟩ := ok_bind_inv h
  have := wrapDim_ok hp
  obtain rfl : p = 1 := by simp at this; omega
  cases h
  exact ⟨_, by simp only [ofFn, hx]; rfl⟩

omit [StarRing α] in
theorem select_shape {x y : Tensor α} {d i : Int} (h : select x d i = .ok y) :
    ∃ p, wrapDim x.rank d = .ok p ∧ y.shape = x.shape.eraseIdx p := by
  obtain ⟨p, hp, h⟩ := ok_bind_inv h
  refine ⟨p, hp, ?_⟩
  dsimp only at h
  split_ifs at h <;> (cases h; rfl)

omit [StarRing α] in
/-- The states of all steps, in the original basis. -/
theorem diag_states_shape {V Wh h h' : Tensor α} {B M n : Nat} (hV : V.shape = [M, M] ∨ V.shape = [B, M, M])
    (hW : Wh.shape = [B, M, n]) (h1 : matmul V Wh = .ok h) (h2 : mT h = .ok h') : h'.shape = [B, n, M] := by
  have rW : Wh.rank = 3 := by rw [rank, hW]; rfl
  have sW : Wh.size (-1) = n := by simp [size, rW, hW]
  have e : h.shape = [B, M, n] := by
    rcases hV with hV | hV
    · have rV : V.rank = 2 := by rw [rank, hV]; rfl
      have sV : V.size (-2) = M := by simp [size, rV, hV]
      obtain ⟨bs, hb, hz⟩ := matmulCore_shape (matmul_big (by omega) (by omega) h1)
      rw [rV, rW, hV, hW] at hb
      cases hb
      rw [hz, sV, sW]; rfl
    · have rV : V.rank = 3 := by rw [rank, hV]; rfl
      have sV : V.size (-2) = M := by simp [size, rV, hV]
      obtain ⟨bs, hb, hz⟩ := matmulCore_shape (matmul_big (by omega) (by omega) h1)
      rw [rV, rW, hV, hW] at hb
      obtain ⟨r, hr, rfl⟩ := Option.map_eq_some_iff.1 hb
      obtain ⟨d, r', rfl, hd, h2⟩ := bshapeR_cons (xs := []) (ys := []) hr
      cases h2
      have : d = B := by
        unfold bdim at hd
        simp at hd
        exact hd.symm
      rw [hz, sV, sW, this]; rfl
  have rh : h.rank = 3 := by rw [rank, e]; rfl
  unfold mT transpose at h2
  rw [rh] at h2
  cases h2
  simp only [ofFn, e]; rfl

omit [StarRing α] in
theorem unflatten0_shape {h y : Tensor α} {B M : Nat} (hh : h.rank = 2) (hy : unflatten h 0 [some B, some M] = .ok y) :
    ∃ n, y.shape = [B, M, n] := by
  obtain ⟨k, n, hs⟩ := shape_rank2 hh
  obtain ⟨p, hp, hy⟩ := ok_bind_inv hy
  have := wrapDim_ok hp
  obtain rfl : p = 0 := by simp at this; omega
  obtain ⟨ss, hss, hy⟩ := ok_bind_inv hy
  have e : ss = [B, M] := by
    unfold resolve at hss
    simp at hss
    split_ifs at hss
    cases hss; rfl
  cases hy
  subst e
  exact ⟨n, by simp only [ofFn, hs]; rfl⟩

/-- The initial state in the eigenbasis: the number of states, up to broadcasting for one matrix per item. -/
theorem diagInit_shape {W z Wz : Tensor α} {B M m : Nat} (hW : W.shape = [M, M] ∨ W.shape = [B, M, M]) (hz : z.shape = [B, m])
    (h : Lti.diagInit W z = .ok Wz) : m = M ∨ W.rank = 3 ∧ (m = 1 ∨ M = 1) := by
  have rz : z.rank = 2 := by rw [rank, hz]; rfl
  unfold Lti.diagInit at h
  rcases hW with hW | hW
  · have rW : W.rank = 2 := by rw [rank, hW]; rfl
    rw [if_pos rW] at h
    obtain ⟨WT, h1, h⟩ := ok_bind_inv h
    have sT : WT.shape = [M, M] := by
      unfold mT transpose at h1
      rw [rW] at h1
      cases h1
      simp only [ofFn, hW]; rfl
    have rT : WT.rank = 2 := by rw [rank, sT]; rfl
    obtain ⟨hc, _⟩ := ok_check (matmul_big (by omega) (by omega) h)
    simp [size, rz, hz, rT, sT] at hc
    exact Or.inl hc
  · have rW : W.rank = 3 := by rw [rank, hW]; rfl
    rw [if_neg (by omega), if_pos rW] at h
    obtain ⟨z1, h1, h⟩ := ok_bind_inv h
    have s1 : z1.shape = [B, 1, m] := by
      unfold unsqueeze at h1
      rw [rz] at h1
      cases h1
      simp only [ofFn, hz]; rfl
    obtain ⟨_, h⟩ := ok_check h
    have sc : (conj W).shape = [B, M, M] := hW
    cases hb : bshape (conj W).shape z1.shape with
    | none => rw [hb] at h; cases h
    | some s =>
      rw [sc, s1] at hb
      obtain ⟨r, hr, rfl⟩ := Option.map_eq_some_iff.1 hb
      obtain ⟨d, r', rfl, hd, _⟩ := bshapeR_cons (xs := [M, B]) (ys := [1, B]) hr
      unfold bdim at hd
      split_ifs at hd with e1 e2 e3
      · exact Or.inl e1.symm
      · exact Or.inr ⟨rW, Or.inr e2⟩
      · exact Or.inr ⟨rW, Or.inl e3⟩

end

section
variable {α : Type} [Field α] [StarRing α]

omit [StarRing α] in
/-- The given initial state from the one that is used. -/
theorem initial_shape {z z' : Tensor α} {B M m : Nat} (h : Lti.initialState (some z) B M = .ok z') (hz : z'.shape = [B, m]) :
    z.shape = [m] ∨ z.shape = [B, m] := by
  unfold Lti.initialState at h
  dsimp only at h
  split_ifs at h with hr
  · left
    obtain ⟨k, hk⟩ := shape_rank1 hr
    obtain ⟨f, rfl⟩ : ∃ f, z = t1 k f := ⟨_, eq_t1 hk⟩
    obtain ⟨z1, h1, h⟩ := ok_bind_inv h
    cases h1
    obtain ⟨_, h⟩ := ok_check h
    obtain ⟨_, h⟩ := ok_check h
    obtain ⟨_, h⟩ := ok_check h
    cases h
    have hz : [B, k] = [B, m] := hz
    cases hz; rfl
  · cases h; exact Or.inr hz

/-- The initial states accepted by `diag_state_space` once the basis is known. -/
theorem diagRun_state {re : α → α} {realC : Bool} {L V W x z : Tensor α} {Bm C D : Option (Tensor α)} {out : Option Int} {u : Int}
    {M : Nat} {y : Tensor α × Option (Tensor α)} (hV : V.shape = [M, M] ∨ V.shape = [x.size 0, M, M])
    (hW : W.shape = [M, M] ∨ W.shape = [x.size 0, M, M])
    (h : Lti.diagRun Lti.linearRecurrence re realC L V W x Bm C D (some z) out u M = .ok y) :
    ∃ m, (z.shape = [m] ∨ z.shape = [x.size 0, m]) ∧ (m = M ∨ out.isSome ∧ W.rank = 3 ∧ (m = 1 ∨ M = 1)) := by
  unfold Lti.diagRun at h
  obtain ⟨z', hz, h⟩ := ok_bind_inv h
  obtain ⟨Wz, hWz, h⟩ := ok_bind_inv h
  obtain ⟨Wx, hWx, h⟩ := ok_bind_inv h
  obtain ⟨Wh, hWh, h⟩ := ok_bind_inv h
  obtain ⟨r, hr, h⟩ := ok_bind_inv h
  unfold Lti.diagRecur at hWh
  obtain ⟨_, _, hWh⟩ := ok_bind_inv hWh
  obtain ⟨_, _, hWh⟩ := ok_bind_inv hWh
  obtain ⟨_, _, hWh⟩ := ok_bind_inv hWh
  obtain ⟨_, _, hWh⟩ := ok_bind_inv hWh
  obtain ⟨_, _, hWh⟩ := ok_bind_inv hWh
  obtain ⟨hh, h0, hWh⟩ := ok_bind_inv hWh
  obtain ⟨n, hWs⟩ := unflatten0_shape (linearRecurrence_rank h0) hWh
  unfold Lti.diagStates at hr
  cases out with
  | none =>
    dsimp only at hr
    obtain ⟨h1, e1, hr⟩ := ok_bind_inv hr
    obtain ⟨h2, e2, hr⟩ := ok_bind_inv hr
    obtain ⟨_, _, hr⟩ := ok_bind_inv hr
    obtain ⟨z1, e3, hr⟩ := ok_bind_inv hr
    obtain ⟨h3, e4, hr⟩ := ok_bind_inv hr
    obtain ⟨h4, e5, hr⟩ := ok_bind_inv hr
    obtain ⟨n', s3⟩ := slice1_shape3 (diag_states_shape hV hWs e1 e2) e4
    have := (cat_state_shape e3 e5).2.2
    rw [s3] at this
    exact ⟨M, initial_shape hz this.symm, Or.inl rfl⟩
  | some i =>
    simp only [Option.isSome_some, if_true] at hr
    obtain ⟨h1, e1, hr⟩ := ok_bind_inv hr
    obtain ⟨h2, e2, hr⟩ := ok_bind_inv hr
    obtain ⟨_, _, hr⟩ := ok_bind_inv hr
    obtain ⟨z1, e3, hr⟩ := ok_bind_inv hr
    obtain ⟨z2, e4, hr⟩ := ok_bind_inv hr
    obtain ⟨h3, e5, hr⟩ := ok_bind_inv hr
    obtain ⟨h4, e6, hr⟩ := ok_bind_inv hr
    obtain ⟨h5, e7, hr⟩ := ok_bind_inv hr
    obtain ⟨n', s3⟩ := slice1_shape3 (diag_states_shape hV hWs e1 e2) e5
    obtain ⟨p, hp, s4⟩ := select_shape e6
    have hp' := wrapDim_ok hp
    obtain rfl : p = 2 := by simp at hp'; omega
    rw [s3] at s4
    have s1 := (cat_state_shape e4 e7).2.2
    rw [s4] at s1
    obtain ⟨q, hq, s5⟩ := select_shape e3
    have hq' := wrapDim_ok hq
    obtain rfl : q = 1 := by simp at hq'; omega
    have hlt := wrapDim_lt hq
    rw [s5] at s1
    obtain ⟨m, sz⟩ : ∃ m, z'.shape = [x.size 0, m] := by
      rw [rank] at hlt
      match hs : z'.shape, hlt with
      | a :: b :: l, _ =>
        rw [hs] at s1
        simp at s1
        exact ⟨b, by rw [← s1.1, s1.2]⟩
    refine ⟨m, initial_shape hz sz, ?_⟩
    rcases diagInit_shape hW sz hWz with e | e
    · exact Or.inl e
    · exact Or.inr ⟨rfl, e⟩

omit [StarRing α] in
theorem linalgInv_shape {x y : Tensor α} (h : linalgInv x = .ok y) : y.shape = x.shape := by
  unfold linalgInv linalgInvAux at h
  obtain ⟨_, h⟩ := ok_check h
  obtain ⟨_, h⟩ := ok_check h
  cases h; rfl

omit [StarRing α] in
/-- The completed basis has the layout of what was given. -/
theorem completeBasis_shape {findEv : Tensor α → Tensor α → Res (Tensor α)} {L : Tensor α} {V W A : Option (Tensor α)} {M : Nat}
    {s : List Nat} {b : Tensor α × Tensor α} (hfe : ∀ A L V, A.rank = 2 ∨ A.rank = 3 → L.shape = A.shape.dropLast → findEv A L = .ok V → V.shape = A.shape)
    (hL : ∀ X, A = some X → V = none → W = none → (X.rank = 2 ∨ X.rank = 3) ∧ L.shape = X.shape.dropLast)
    (hs : ∀ X, V = some X ∨ W = some X ∨ A = some X → X.shape = s) (hn : V = none → W = none → A = none → s = [M, M])
    (h : Lti.completeBasis findEv L V W A M = .ok b) : b.1.shape = s ∧ b.2.shape = s := by
  unfold Lti.completeBasis at h
  split at h
  · cases h
    rw [hn rfl rfl rfl]
    exact ⟨rfl, rfl⟩
  · obtain ⟨V', h1, h⟩ := ok_bind_inv h
    obtain ⟨W', h2, h⟩ := ok_bind_inv h
    cases h
    have := hs _ (Or.inr (Or.inr rfl))
    have e := (hfe _ _ _ (hL _ rfl rfl rfl).1 (hL _ rfl rfl rfl).2 h1).trans this
    exact ⟨e, (linalgInv_shape h2).trans e⟩
  · obtain ⟨V', h1, h⟩ := ok_bind_inv h
    cases h
    have := hs _ (Or.inr (Or.inl rfl))
    exact ⟨(linalgInv_shape h1).trans this, this⟩
  · obtain ⟨V', h1, h⟩ := ok_bind_inv h
    cases h
    have := hs _ (Or.inl rfl)
    exact ⟨this, (linalgInv_shape h1).trans this⟩
  · cases h
    exact ⟨hs _ (Or.inl rfl), hs _ (Or.inr (Or.inl rfl))⟩

end

section
variable {α : Type} [RCLike α]

/-- `find_eigenvectors` returns a tensor of the shape of the matrix. -/
theorem findEigenvectors_shape {A L V : Tensor α} (hA : A.rank = 2 ∨ A.rank = 3) (hL : L.shape = A.shape.dropLast)
    (h : findEigenvectors A L = .ok V) : V.shape = A.shape := by
  have hsq : A.size (-2) = A.size (-1) := (ok_check (ok_check (ok_check h).2).2).1
  rcases hA with hA | hA
  · obtain ⟨n, m, hs⟩ := shape_rank2 hA
    have e : n = m := by simpa [size, rank, hs] using hsq
    subst e
    obtain ⟨f, rfl⟩ : ∃ f, A = t2 n n f := ⟨_, eq_t2 hs⟩
    obtain ⟨g, rfl⟩ : ∃ g, L = t1 n g := ⟨_, eq_t1 hL⟩
    cases n with
    | zero => cases h
    | succ m =>
      by_cases hd : ∀ e, e < m + 1 → (mat m m (gram m f (g e))).det ≠ 0
      · rw [findEigenvectors_t2 m f g hd] at h
        cases h; rfl
      · push Not at hd
        obtain ⟨e, he, hd⟩ := hd
        obtain ⟨_, hf⟩ := findEigenvectors_t2_fails m f g he hd
        rw [h] at hf; cases hf
  · obtain ⟨B, n, m, hs⟩ := shape_rank3 hA
    have e : n = m := by simpa [size, rank, hs] using hsq
    subst e
    obtain ⟨f, rfl⟩ : ∃ f, A = t3 B n n f := ⟨_, eq_t3 hs⟩
    obtain ⟨g, rfl⟩ : ∃ g, L = t2 B n g := ⟨_, eq_t2 hL⟩
    cases n with
    | zero =>
      unfold findEigenvectors shiftedColumns at h
      obtain ⟨_, h⟩ := ok_check h
      obtain ⟨_, h⟩ := ok_check h
      obtain ⟨_, h⟩ := ok_check h
      obtain ⟨_, h⟩ := ok_check h
      rw [unsqueeze_t3_n3, ok_bind, unsqueeze_t2_n1, ok_bind, unsqueeze_t3_n1, ok_bind, eye, mul, zipWith_nm11_pq, ok_bind, sub] at h
      obtain ⟨BW, h1, h⟩ := ok_bind_inv h
      obtain ⟨w, h2, h1⟩ := ok_bind_inv h1
      rw [show (t3 B 0 0 f).size (-1) = 0 from rfl, zipWith_n1pq_nmpq] at h2
      cases h2
      cases h1
    | succ m =>
      by_cases hd : ∀ b e, b < B → e < m + 1 → (mat m m (gram m (f b) (g b e))).det ≠ 0
      · rw [findEigenvectors_t3 B m f g hd] at h
        cases h; rfl
      · push Not at hd
        obtain ⟨b, e, hb, he, hd⟩ := hd
        obtain ⟨_, hf⟩ := findEigenvectors_t3_fails B m f g hb he hd
        rw [h] at hf; cases hf

end

end Phil
