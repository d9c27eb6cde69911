import Verif.Proof.DiagState
import Verif.Props.C67

/-!
# C67: the initial state of `diag_state_space`

Full claim: `diag_state_space` returns only if the initial state is `(M,)` or `(batch, M)` for `M` states.

False with `out_idx` and one basis per item: the change of basis broadcasts, so a state with one entry is accepted for any `M`
(`C67_diag_accepts_one_state`) and a state with any number of entries for `M = 1` (`C67_diag_accepts_long_state`).
-/

namespace Props
open Torch Torch.Tensor Spec Phil

section
variable {α : Type} [Field α] [StarRing α]

/-- **C67 (partial), initial state of `diag_state_space`.**  It is `(m,)` or `(batch, m)`, and `m` is the number `M` of states unless
`out_idx` is given, there is one basis or state matrix per item, and `m` or `M` is 1. -/
theorem C67_diag_initial_state_partial {eigvals : Tensor α → Res (Tensor α)} {findEv : Tensor α → Tensor α → Res (Tensor α)} {re : α → α}
    {realC : Bool} {x z : Tensor α} {L V W A Bm C D : Option (Tensor α)} {out u : Option Int} {y : Tensor α × Option (Tensor α)}
    (hev : ∀ A L, eigvals A = .ok L → L.shape = A.shape.dropLast)
    (hfe : ∀ A L V, A.rank = 2 ∨ A.rank = 3 → L.shape = A.shape.dropLast → findEv A L = .ok V → V.shape = A.shape)
    (h : Lti.diagStateSpace eigvals findEv re realC x L V W A Bm C D (some z) out u = .ok y) :
    ∃ M m, ((∃ L', L = some L' ∧ L'.size (-1) = M) ∨ ∃ A', L = none ∧ A = some A' ∧ A'.size (-1) = M) ∧
      (z.shape = [m] ∨ z.shape = [x.size 0, m]) ∧
      (m = M ∨ out.isSome ∧ (∃ X, (V = some X ∨ W = some X ∨ A = some X) ∧ X.rank = 3) ∧ (m = 1 ∨ M = 1)) := by
  unfold Lti.diagStateSpace Lti.diagStateSpaceWith at h
  obtain ⟨h1, h⟩ := ok_check h
  obtain ⟨h2, h⟩ := ok_check h
  cases L with
  | none =>
    cases A with
    | none => cases h
    | some A =>
      dsimp only at h
      obtain ⟨h3, h⟩ := ok_check h
      obtain ⟨h4, h⟩ := ok_check h
      obtain ⟨h5, h⟩ := ok_check h
      obtain ⟨L, hL, h⟩ := ok_bind_inv h
      obtain ⟨bs, hbs, h⟩ := ok_bind_inv h
      obtain ⟨e1, e2⟩ := completeBasis_shape (s := A.shape) hfe (fun X hX _ _ => by cases hX; exact ⟨h3, hev _ _ hL⟩)
        (by simp) (by simp) hbs
      have hA : A.shape = [A.size (-1), A.size (-1)] ∨ A.shape = [x.size 0, A.size (-1), A.size (-1)] := by
        rcases h3 with h3 | h3
        · obtain ⟨n, m, hs⟩ := shape_rank2 h3
          have e : n = m := by simpa [size, rank, hs] using h4
          left; rw [hs, e]; simp [size, rank, hs]
        · obtain ⟨k, n, m, hs⟩ := shape_rank3 h3
          have e : n = m := by simpa [size, rank, hs] using h4
          have e' : x.size 0 = k := by rw [h5 h3]; simp [size, hs]
          right; rw [e', hs, e]; simp [size, rank, hs]
      rw [← e1] at hA
      have hA' := hA
      rw [e1, ← e2] at hA'
      obtain ⟨m, hz, hm⟩ := diagRun_state hA hA' h
      refine ⟨_, m, Or.inr ⟨A, rfl, rfl, rfl⟩, hz, hm.imp_right fun ⟨ho, hr, hm⟩ => ⟨ho, ⟨A, Or.inr (Or.inr rfl), ?_⟩, hm⟩⟩
      rw [rank, ← e2]; exact hr
  | some L =>
    dsimp only at h
    obtain ⟨M, hM, h⟩ := ok_bind_inv h
    obtain ⟨bs, hbs, h⟩ := ok_bind_inv h
    rcases checkEigen_ok hM with ⟨hL, hs⟩ | ⟨hL, hVW, hs⟩
    · obtain ⟨e1, e2⟩ := completeBasis_shape (s := [M, M]) hfe (fun X hX _ _ => by
        rw [rank, hL, hs X (Or.inr (Or.inr hX))]; exact ⟨Or.inl rfl, rfl⟩) hs (fun _ _ _ => rfl) hbs
      obtain ⟨m, hz, hm⟩ := diagRun_state (Or.inl e1) (Or.inl e2) h
      refine ⟨M, m, Or.inl ⟨L, rfl, by simp [size, rank, hL]⟩, hz, hm.imp_right fun ⟨_, hr, _⟩ => ?_⟩
      rw [rank, e2] at hr
      simp at hr
    · obtain ⟨e1, e2⟩ := completeBasis_shape (s := [x.size 0, M, M]) hfe (fun X hX _ _ => by
        rw [rank, hL, hs X (Or.inr (Or.inr hX))]; exact ⟨Or.inr rfl, rfl⟩) hs
        (by rintro rfl rfl; simp at hVW) hbs
      obtain ⟨m, hz, hm⟩ := diagRun_state (Or.inr e1) (Or.inr e2) h
      refine ⟨M, m, Or.inl ⟨L, rfl, by simp [size, rank, hL]⟩, hz, hm.imp_right fun ⟨ho, _, hm⟩ => ⟨ho, ?_, hm⟩⟩
      cases V with
      | some V => exact ⟨V, Or.inl rfl, by rw [rank, hs V (Or.inl rfl)]; rfl⟩
      | none =>
        cases W with
        | some W => exact ⟨W, Or.inr (Or.inl rfl), by rw [rank, hs W (Or.inr (Or.inl rfl))]; rfl⟩
        | none => simp at hVW

end

/-- The assumption on eigenvectors holds for `find_eigenvectors`. -/
example (ev : Tensor ℂ → Res (Tensor ℂ)) (hev : ∀ A L, ev A = .ok L → L.shape = A.shape.dropLast) {x z A : Tensor ℂ}
    {y : Tensor ℂ × Option (Tensor ℂ)}
    (h : Lti.diagStateSpace ev findEigenvectors id false x none none none (some A) none none none (some z) none none = .ok y) :=
  C67_diag_initial_state_partial hev (fun _ _ _ => findEigenvectors_shape) h

/-- Two eigenvalues and an initial state with three entries. -/
example (x : Tensor ℚ) (Bm C D : Option (Tensor ℚ)) (out u : Option Int) :
    Fails (Lti.diagStateSpace (fun _ => .error "") (fun _ _ => .error "") id false x (some (t1 2 fun i => (i : ℚ)))
      none none none Bm C D (some (t1 3 fun i => (i : ℚ))) out u) := by
  refine raises_of fun y h => ?_
  obtain ⟨M, m, h1, h2, h3⟩ := C67_diag_initial_state_partial (by simp) (by simp) h
  rcases h1 with ⟨L', hL, h1⟩ | ⟨A', h1, _⟩
  · cases hL
    have h1 : 2 = M := h1
    rcases h2 with h2 | h2
    · cases h2
      rcases h3 with h3 | ⟨_, ⟨X, hX, _⟩, _⟩
      · omega
      · simp at hX
    · simp at h2
  · cases h1

/-- **C67, false**: two states, one basis per item, `out_idx`: an initial state with a single entry is accepted. -/
theorem C67_diag_accepts_one_state : ∃ y, Lti.diagStateSpace (fun _ => .error "") (fun _ _ => .error "") id false
    (t2 1 3 fun _ t => (t : ℚ)) (some (t2 1 2 fun _ i => (i : ℚ))) (some (t3 1 2 2 fun _ i j => if i = j then (1 : ℚ) else 0))
    (some (t3 1 2 2 fun _ i j => if i = j then (1 : ℚ) else 0)) none none none none (some (t2 1 1 fun _ _ => (5 : ℚ))) (some 0) (some 1)
    = .ok y :=
  ⟨_, rfl⟩

/-- **C67, false**: one state, one basis per item, `out_idx`: an initial state with two entries is accepted. -/
theorem C67_diag_accepts_long_state : ∃ y, Lti.diagStateSpace (fun _ => .error "") (fun _ _ => .error "") id false
    (t2 1 3 fun _ t => (t : ℚ)) (some (t2 1 1 fun _ i => (i : ℚ))) (some (t3 1 1 1 fun _ _ _ => (1 : ℚ)))
    (some (t3 1 1 1 fun _ _ _ => (1 : ℚ))) none none none none (some (t2 1 2 fun _ _ => (5 : ℚ))) (some 0) (some 1)
    = .ok y :=
  ⟨_, rfl⟩

end Props
