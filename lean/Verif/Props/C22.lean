import Verif.Proof.Witness
import Verif.Proof.LtiDiag
import Verif.Proof.Eigenvectors
import Verif.Proof.EigenBasis
import Verif.Props.C08
import Mathlib.Data.Complex.Basic
import Mathlib.Analysis.Complex.Basic

/-!
# C22: `diag_state_space` equals `state_space`

`Eigen` and `Diagonalises` (Spec/Eigen.lean) say that `A = V diag(L) W`, `V W = 1`, for one decomposition or one per batch item.
`ev`, `fe` stand for `torch.linalg.eigvals` and `find_eigenvectors`, which are not called when `L` and `V` or `W` are given; `re`
is the real part, applied when `C` has a real dtype (`realC`).  The theorems ask that in this case the model is real; the claim
without this hypothesis is false (`C22_real_readout`).
-/

namespace Props
open Torch Torch.Tensor Spec Phil Phil.Lti

/-- The states of a real model are real. -/
theorem vecRec_real {α : Type} [CommRing α] [StarRing α] {M : Nat} {A : Nat → Nat → Nat → α} {z : Nat → α} {x : Nat → Nat → α}
    (hA : ∀ t i j, star (A t i j) = A t i j) (hz : ∀ i, star (z i) = z i) (hx : ∀ t i, star (x t i) = x t i) (t i : Nat) :
    star (vecRec M A z x t i) = vecRec M A z x t i := by
  induction t generalizing i with
  | zero => exact hz i
  | succ t ih =>
    simp only [vecRec, star_add, star_sum, star_mul', hA, ih, hx]

variable {α : Type} [Field α] [StarRing α]

/-- With a complete basis the recursion in the eigenbasis gives the same outputs and final state. -/
theorem diagRun_stateSpace {B N M : Nat} {A L V W x : Tensor α} {Bm C D zi : Option (Tensor α)} {k : Option Nat}
    {l z : Nat → Nat → α} {Av v w vx d : Nat → Nat → Nat → α} {r : Nat → (Nat → α) → Nat → α} {u u' : Option Int} {re : α → α} {realC : Bool}
    (hE : Eigen B M L V W l v w) (hA : MatVals B M M A Av) (hdec : ∀ b, Diagonalises M (Av b) (l b) (v b) (w b))
    (hB : LtiInput B N M Bm x vx) (hC : LtiReadout B M C k r) (hD : LtiFeed B N D x k d) (hz : InitState B M zi z)
    (hM : 0 < M) (hN : 0 < N) (hu : ∀ i, u = some i → 1 ≤ i) (hu' : ∀ i, u' = some i → 1 ≤ i)
    (hreal : C.isSome = true → realC = true → (∀ c, star c = c → re c = c) ∧ (∀ b i j, star (Av b i j) = Av b i j) ∧
      (∀ b i, star (z b i) = z b i) ∧ ∀ b t i, star (vx b t i) = vx b t i) :
    diagRun linearRecurrence re realC L V W x Bm C D zi none (u.getD (roundSqrt N)) M = stateSpace A x Bm C D zi u' none := by
  obtain ⟨h, hh, e⟩ := C08_state_space_partial hA hB hC hD hz hM hN hu'
  have hh' : ∀ b t, h b t = vecRec M (fun _ => Av b) (z b) (vx b) t := by
    intro b t
    induction t with
    | zero => exact funext fun i => (hh b i).1
    | succ t ih => funext i; rw [(hh b i).2 t, ih]; rfl
  rw [e]
  simp only [hh']
  obtain ⟨hL, hV, hW⟩ := eigen_parts hE
  refine diagRun_eq hL hV hW hdec hB hC hD hz hN hM (fun a i x => ?_) fun hc hr b t m _ => ?_
  · refine C01_linear_recurrence x _ (.full _) (.full _) hN ?_
    cases u with
    | none => have := roundSqrt_pos hN; simp only [Option.getD_none]; omega
    | some i => exact hu i rfl
  · obtain ⟨h1, h2, h3, h4⟩ := hreal hc hr
    exact h1 _ (vecRec_real (fun _ => h2 b) (h3 b) (h4 b) t m)

theorem diagRun_stateSpace_idx {B N M : Nat} {A L V W x : Tensor α} {Bm D zi : Option (Tensor α)}
    {l z : Nat → Nat → α} {Av v w vx d : Nat → Nat → Nat → α} {u u' : Option Int} {i : Int} {re : α → α} {realC : Bool}
    (hE : Eigen B M L V W l v w) (hA : MatVals B M M A Av) (hdec : ∀ b, Diagonalises M (Av b) (l b) (v b) (w b))
    (hB : LtiInput B N M Bm x vx) (hD : LtiFeed B N D x none d) (hz : InitState B M zi z)
    (hi : -(M : Int) ≤ i ∧ i < M) (hN : 0 < N) (hu : ∀ i, u = some i → 1 ≤ i) (hu' : ∀ i, u' = some i → 1 ≤ i) :
    diagRun linearRecurrence re realC L V W x Bm none D zi (some i) (u.getD (roundSqrt N)) M =
      stateSpace A x Bm none D zi u' (some i) := by
  obtain ⟨h, hh, e⟩ := C08_state_space_out_idx_partial hA hB hD hz hi hN hu'
  have hh' : ∀ b t, h b t = vecRec M (fun _ => Av b) (z b) (vx b) t := by
    intro b t
    induction t with
    | zero => exact funext fun i => (hh b i).1
    | succ t ih => funext i; rw [(hh b i).2 t, ih]; rfl
  rw [e]
  simp only [hh']
  obtain ⟨hL, hV, hW⟩ := eigen_parts hE
  refine diagRun_idx hL hV hW hdec hB hD hz hN hi (fun a i x => ?_)
  refine C01_linear_recurrence x _ (.full _) (.full _) hN ?_
  cases u with
  | none => have := roundSqrt_pos hN; simp only [Option.getD_none]; omega
  | some i => exact hu i rfl

/-- **C22 (partial).**  With eigenvalues `L` and `V`, or its inverse, or both given, `diag_state_space` returns what
`state_space` returns for `A = V diag(L) V⁻¹`, for every layout of the other arguments and any two unroll factors.  A state matrix
given as well is not looked at, but for its shape.  Missing: a real output matrix for a complex model, and coinciding sizes (as in C08). -/
theorem C22_given_basis_partial {B N M : Nat} {A L V W x : Tensor α} {V' W' A' Bm C D zi : Option (Tensor α)} {k : Option Nat}
    {l z : Nat → Nat → α} {Av v w vx d : Nat → Nat → Nat → α} {r : Nat → (Nat → α) → Nat → α} {u u' : Option Int}
    {ev : Tensor α → Res (Tensor α)} {fe : Tensor α → Tensor α → Res (Tensor α)} {re : α → α} {realC : Bool}
    (hE : Eigen B M L V W l v w) (hA : MatVals B M M A Av) (hdec : ∀ b, Diagonalises M (Av b) (l b) (v b) (w b))
    (hV' : V' = none ∨ V' = some V) (hW' : W' = none ∨ W' = some W) (hone : V'.isSome ∨ W'.isSome)
    (hA' : ∀ A₁, A' = some A₁ → A₁.shape = V.shape)
    (hB : LtiInput B N M Bm x vx) (hC : LtiReadout B M C k r) (hD : LtiFeed B N D x k d) (hz : InitState B M zi z)
    (hM : 0 < M) (hN : 0 < N) (hu : ∀ i, u = some i → 1 ≤ i) (hu' : ∀ i, u' = some i → 1 ≤ i)
    (hreal : C.isSome = true → realC = true → (∀ c, star c = c → re c = c) ∧ (∀ b i j, star (Av b i j) = Av b i j) ∧
      (∀ b i, star (z b i) = z b i) ∧ ∀ b t i, star (vx b t i) = vx b t i) :
    diagStateSpace ev fe re realC x (some L) V' W' A' Bm C D zi none u = stateSpace A x Bm C D zi u' none := by
  obtain ⟨hx1, hx2, hx3⟩ := size_LtiInput hB
  unfold diagStateSpace diagStateSpaceWith
  refine check_step hx1 (check_step (Or.inr rfl) ?_)
  rw [hx2, hx3]
  refine bind_step (checkEigen_eq hE hV' hW' hone hA') (bind_step (completeBasis_eq hE hdec hV' hW' hone) ?_)
  exact diagRun_stateSpace hE hA hdec hB hC hD hz hM hN hu hu' hreal

/-- The same with an output index instead of an output matrix; no imaginary part is dropped here. -/
theorem C22_out_idx {B N M : Nat} {A L V W x : Tensor α} {V' W' A' Bm D zi : Option (Tensor α)}
    {l z : Nat → Nat → α} {Av v w vx d : Nat → Nat → Nat → α} {u u' : Option Int} {i : Int}
    {ev : Tensor α → Res (Tensor α)} {fe : Tensor α → Tensor α → Res (Tensor α)} {re : α → α} {realC : Bool}
    (hE : Eigen B M L V W l v w) (hA : MatVals B M M A Av) (hdec : ∀ b, Diagonalises M (Av b) (l b) (v b) (w b))
    (hV' : V' = none ∨ V' = some V) (hW' : W' = none ∨ W' = some W) (hone : V'.isSome ∨ W'.isSome)
    (hA' : ∀ A₁, A' = some A₁ → A₁.shape = V.shape)
    (hB : LtiInput B N M Bm x vx) (hD : LtiFeed B N D x none d) (hz : InitState B M zi z)
    (hi : -(M : Int) ≤ i ∧ i < M) (hN : 0 < N) (hu : ∀ i, u = some i → 1 ≤ i) (hu' : ∀ i, u' = some i → 1 ≤ i) :
    diagStateSpace ev fe re realC x (some L) V' W' A' Bm none D zi (some i) u = stateSpace A x Bm none D zi u' (some i) := by
  obtain ⟨hx1, hx2, hx3⟩ := size_LtiInput hB
  unfold diagStateSpace diagStateSpaceWith
  refine check_step hx1 (check_step (Or.inl rfl) ?_)
  rw [hx2, hx3]
  refine bind_step (checkEigen_eq hE hV' hW' hone hA') (bind_step (completeBasis_eq hE hdec hV' hW' hone) ?_)
  exact diagRun_stateSpace_idx hE hA hdec hB hD hz hi hN hu hu'

/-- `[[2, 1], [0, 3]]` with `V` given; the last state variable is returned. -/
example (ev : Tensor ℚ → Res (Tensor ℚ)) (fe : Tensor ℚ → Tensor ℚ → Res (Tensor ℚ)) :=
  C22_out_idx (B := 3) (N := 5) (M := 2) (A' := none) (u := none) (u' := some 2) (i := -1) (ev := ev) (fe := fe) (re := id) (realC := true)
    (.shared _ _ _) (.shared _) (fun _ => Witness.two_three) (Or.inr rfl) (Or.inl rfl) (Or.inl rfl) (by simp)
    (.none (.scalar fun b t => (b : ℚ) * t)) (.none _ _) (.shared fun m => (m : ℚ) + 1) (by decide) (by decide) (by simp) (by simp)

/-- Eigenvalues alone (one list for all batch items): the model with the diagonal matrix. -/
theorem C22_diagonal_partial {B N M : Nat} {x : Tensor α} {Bm C D zi : Option (Tensor α)} {k : Option Nat}
    {z : Nat → Nat → α} {vx d : Nat → Nat → Nat → α} {r : Nat → (Nat → α) → Nat → α} {u u' : Option Int}
    {ev : Tensor α → Res (Tensor α)} {fe : Tensor α → Tensor α → Res (Tensor α)} {re : α → α} {realC : Bool} (l : Nat → α)
    (hB : LtiInput B N M Bm x vx) (hC : LtiReadout B M C k r) (hD : LtiFeed B N D x k d) (hz : InitState B M zi z)
    (hM : 0 < M) (hN : 0 < N) (hu : ∀ i, u = some i → 1 ≤ i) (hu' : ∀ i, u' = some i → 1 ≤ i)
    (hreal : C.isSome = true → realC = true → (∀ c, star c = c → re c = c) ∧ (∀ i, star (l i) = l i) ∧
      (∀ b i, star (z b i) = z b i) ∧ ∀ b t i, star (vx b t i) = vx b t i) :
    diagStateSpace ev fe re realC x (some (t1 M l)) none none none Bm C D zi none u =
      stateSpace (t2 M M fun i j => if i = j then l i else 0) x Bm C D zi u' none := by
  have hE : Eigen B M (t1 M l) (eye M) (eye M) (fun _ => l) (fun _ i j => if i = j then 1 else 0)
      (fun _ i j => if i = j then 1 else 0) := .shared _ _ _
  have hdec : ∀ _ : Nat, Diagonalises M (fun i j => if i = j then l i else 0) l (fun i j => if i = j then 1 else 0)
      (fun i j => if i = j then 1 else 0) := fun _ => ⟨fun i j hi hj => by simp; aesop, fun i j hi hj => by simp; omega⟩
  have key := C22_given_basis_partial (ev := ev) (fe := fe) (re := re) (realC := realC) (u := u) (u' := u') (A' := none) hE (.shared _) hdec
    (Or.inr rfl) (Or.inr rfl) (Or.inl rfl) (by simp) hB hC hD hz hM hN hu hu' (fun hc hr => by
      obtain ⟨h1, h2, h3, h4⟩ := hreal hc hr
      exact ⟨h1, fun b i j => by split <;> simp [h2], h3, h4⟩)
  rw [← key]
  simp only [diagStateSpace, diagStateSpaceWith, checkEigen, completeBasis, absentOrShape, shape_t1, eye, shape_t2, Option.all_none,
    Option.all_some, decide_true]
  rfl

example (ev : Tensor ℚ → Res (Tensor ℚ)) (fe : Tensor ℚ → Tensor ℚ → Res (Tensor ℚ)) :=
  C22_diagonal_partial (B := 3) (N := 5) (M := 2) (u := none) (u' := some 2) (ev := ev) (fe := fe) (re := id) (realC := true) (fun m => (m : ℚ) + 2)
    (.none (.scalar fun b t => (b : ℚ) * t)) (.mat 2 (fun i j => (i : ℚ) + j) (by decide)) (.none _ _) (.shared fun m => (m : ℚ) + 1)
    (by decide) (by decide) (by simp) (by simp) (fun _ _ => ⟨fun _ _ => rfl, fun _ => rfl, fun _ _ => rfl, fun _ _ _ => rfl⟩)

/-- A basis computed from `A` by `find_eigenvectors` and `torch.linalg.inv`. -/
theorem completeBasis_find {β : Type} [RCLike β] {B M : Nat} {A L : Tensor β} {l : Nat → Nat → β} {Av : Nat → Nat → Nat → β}
    (hA : Spectrum B M A L Av l) (hM : 0 < M) (hl : ∀ b m, m < M → ∃ v, Eigenvector M (Av b) (l b m) v)
    (h0 : ∀ b m v, m < M → Eigenvector M (Av b) (l b m) v → v 0 ≠ 0) (hd : ∀ b m p, m < M → p < M → l b m = l b p → m = p) :
    ∃ V W v w, Eigen B M L V W l v w ∧ (∀ b, Diagonalises M (Av b) (l b) (v b) (w b)) ∧
      completeBasis findEigenvectors L none none (some A) M = .ok (V, W) := by
  obtain ⟨m, rfl⟩ : ∃ m, M = m + 1 := ⟨M - 1, by omega⟩
  have key : ∀ b, Diagonalises (m + 1) (Av b) (l b) (fun i e => eigRow m (Av b) (l b e) i / (eigNorm m (Av b) (l b e) : β)) _ := fun b =>
    eigenbasis_diagonalises (fun e he => ⟨⟨0, by omega, by
      simp only [eigRow, if_true]
      exact div_ne_zero one_ne_zero (by exact_mod_cast (eigNorm_pos m (Av b) (l b e)).ne')⟩, fun i hi => by
      rw [mul_div_assoc', ← eigRow_eigen (h0 b e · he) (hl b e he) hi, Finset.sum_div]
      exact Finset.sum_congr rfl fun j _ => by ring⟩) (hd b)
  cases hA with
  | shared Av l =>
    refine ⟨_, _, _, _, .shared l _ _, fun _ => key 0, ?_⟩
    exact bind_step (findEigenvectors_t2 m Av l fun e he => gram_det (h0 0 e · he)) (bind_step (linalgInv_eq_t2 (key 0).2) rfl)
  | batched Av l =>
    refine ⟨_, _, _, _, .batched l _ _, key, ?_⟩
    exact bind_step (findEigenvectors_t3 B m Av l fun b e _ he => gram_det (h0 b e · he)) (bind_step (linalgInv_eq_t3 fun b => (key b).2) rfl)

/-- **C22 (partial), from the state matrix alone.**  `torch.linalg.eigvals` is trusted to return eigenvalues (`hev`, `hl`); they are distinct
and none of their eigenvectors starts with zero (C25).  `V` and `Vinv` are ignored in this case. -/
theorem C22_from_matrix_partial {β : Type} [RCLike β] {B N M : Nat} {A L x : Tensor β} {V' W' Bm C D zi : Option (Tensor β)} {k : Option Nat}
    {l z : Nat → Nat → β} {Av vx d : Nat → Nat → Nat → β} {r : Nat → (Nat → β) → Nat → β} {u u' : Option Int}
    {ev : Tensor β → Res (Tensor β)} {re : β → β} {realC : Bool} (hev : ev A = .ok L)
    (hA : Spectrum B M A L Av l) (hl : ∀ b m, m < M → ∃ v, Eigenvector M (Av b) (l b m) v)
    (h0 : ∀ b m v, m < M → Eigenvector M (Av b) (l b m) v → v 0 ≠ 0) (hd : ∀ b m p, m < M → p < M → l b m = l b p → m = p)
    (hB : LtiInput B N M Bm x vx) (hC : LtiReadout B M C k r) (hD : LtiFeed B N D x k d) (hz : InitState B M zi z)
    (hM : 0 < M) (hN : 0 < N) (hu : ∀ i, u = some i → 1 ≤ i) (hu' : ∀ i, u' = some i → 1 ≤ i)
    (hreal : C.isSome = true → realC = true → (∀ c, star c = c → re c = c) ∧ (∀ b i j, star (Av b i j) = Av b i j) ∧
      (∀ b i, star (z b i) = z b i) ∧ ∀ b t i, star (vx b t i) = vx b t i) :
    diagStateSpace ev findEigenvectors re realC x none V' W' (some A) Bm C D zi none u = stateSpace A x Bm C D zi u' none := by
  obtain ⟨V, W, v, w, hE, hdec, e⟩ := completeBasis_find hA hM hl h0 hd
  obtain ⟨hx1, hx2, hx3⟩ := size_LtiInput hB
  have hA' : MatVals B M M A Av := by
    cases hA with
    | shared => exact .shared _
    | batched => exact .batched _
  unfold diagStateSpace diagStateSpaceWith
  refine check_step hx1 (check_step (Or.inr rfl) ?_)
  rw [hx2, hx3]
  have h1 : (A.rank = 2 ∨ A.rank = 3) ∧ A.size (-2) = M ∧ A.size (-1) = M ∧ (A.rank = 3 → B = A.size 0) := by
    cases hA with
    | shared => exact ⟨Or.inl rfl, rfl, rfl, fun h => by cases h⟩
    | batched => exact ⟨Or.inr rfl, rfl, rfl, fun _ => rfl⟩
  obtain ⟨h1, h2, h3, h4⟩ := h1
  refine check_step h1 (check_step (h2.trans h3.symm) (check_step h4 (bind_step hev ?_)))
  rw [h3]
  exact bind_step e (diagRun_stateSpace hE hA' hdec hB hC hD hz hM hN hu hu' hreal)

/-- The same with an output index. -/
theorem C22_from_matrix_out_idx_partial {β : Type} [RCLike β] {B N M : Nat} {A L x : Tensor β} {V' W' Bm D zi : Option (Tensor β)}
    {l z : Nat → Nat → β} {Av vx d : Nat → Nat → Nat → β} {u u' : Option Int} {i : Int}
    {ev : Tensor β → Res (Tensor β)} {re : β → β} {realC : Bool} (hev : ev A = .ok L)
    (hA : Spectrum B M A L Av l) (hl : ∀ b m, m < M → ∃ v, Eigenvector M (Av b) (l b m) v)
    (h0 : ∀ b m v, m < M → Eigenvector M (Av b) (l b m) v → v 0 ≠ 0) (hd : ∀ b m p, m < M → p < M → l b m = l b p → m = p)
    (hB : LtiInput B N M Bm x vx) (hD : LtiFeed B N D x none d) (hz : InitState B M zi z)
    (hi : -(M : Int) ≤ i ∧ i < M) (hN : 0 < N) (hu : ∀ i, u = some i → 1 ≤ i) (hu' : ∀ i, u' = some i → 1 ≤ i) :
    diagStateSpace ev findEigenvectors re realC x none V' W' (some A) Bm none D zi (some i) u = stateSpace A x Bm none D zi u' (some i) := by
  obtain ⟨V, W, v, w, hE, hdec, e⟩ := completeBasis_find hA (by omega) hl h0 hd
  obtain ⟨hx1, hx2, hx3⟩ := size_LtiInput hB
  have hA' : MatVals B M M A Av := by
    cases hA with
    | shared => exact .shared _
    | batched => exact .batched _
  unfold diagStateSpace diagStateSpaceWith
  refine check_step hx1 (check_step (Or.inl rfl) ?_)
  rw [hx2, hx3]
  have h1 : (A.rank = 2 ∨ A.rank = 3) ∧ A.size (-2) = M ∧ A.size (-1) = M ∧ (A.rank = 3 → B = A.size 0) := by
    cases hA with
    | shared => exact ⟨Or.inl rfl, rfl, rfl, fun h => by cases h⟩
    | batched => exact ⟨Or.inr rfl, rfl, rfl, fun _ => rfl⟩
  obtain ⟨h1, h2, h3, h4⟩ := h1
  refine check_step h1 (check_step (h2.trans h3.symm) (check_step h4 (bind_step hev ?_)))
  rw [h3]
  exact bind_step e (diagRun_stateSpace_idx hE hA' hdec hB hD hz hi hN hu hu')

example (x : Nat → Nat → ℂ) := C22_from_matrix_out_idx_partial (B := 3) (N := 5) (M := 2) (V' := none) (W' := none) (u := none) (u' := some 2)
  (i := 1) (ev := fun _ => .ok (t1 2 Witness.rotEig)) (re := id) (realC := false) rfl (.shared Witness.rot Witness.rotEig)
  (fun _ => Witness.rot_eigenvector) (fun _ m v _ => Witness.rot_first m v) (fun _ => Witness.rotEig_inj) (.none (.scalar x)) (.none _ _) .zero
  (by decide) (by decide) (by simp) (by simp)

/-- Equal eigenvalues give equal columns. -/
theorem completeBasis_repeated {β : Type} [RCLike β] {B M : Nat} {A L : Tensor β} {l : Nat → Nat → β} {Av : Nat → Nat → Nat → β}
    (hA : Spectrum B M A L Av l) {b m p : Nat} (hb : b < B) (hm : m < M) (hp : p < M) (hne : m ≠ p) (he : l b m = l b p) :
    Fails (completeBasis findEigenvectors L none none (some A) M) := by
  obtain ⟨k, rfl⟩ : ∃ k, M = k + 1 := ⟨M - 1, by omega⟩
  simp only [completeBasis]
  have hcol : ∀ v : Nat → Nat → β, (∀ i, v i m = v i p) → (mat (k + 1) (k + 1) v).det = 0 := fun v h =>
    Matrix.det_zero_of_column_eq (i := ⟨m, hm⟩) (j := ⟨p, hp⟩) (by simpa [Fin.ext_iff] using hne) fun i => h i
  cases hA with
  | shared A l =>
    by_cases hd : ∀ e, e < k + 1 → (mat k k (gram k A (l e))).det ≠ 0
    · rw [findEigenvectors_t2 k A l hd, ok_bind, t2_eq_fm]
      exact fails_left (linalgInv_t2_singular _ (hcol _ fun i => by rw [show l m = l p from he]))
    · push Not at hd
      obtain ⟨e, hlt, h0⟩ := hd
      exact fails_left (findEigenvectors_t2_fails k A l hlt h0)
  | batched =>
    by_cases hd : ∀ c e, c < B → e < k + 1 → (mat k k (gram k (Av c) (l c e))).det ≠ 0
    · rw [findEigenvectors_t3 B k Av l hd, ok_bind, t3_eq_fm]
      exact fails_left (linalgInv_t3_singular _ hb (hcol _ fun i => by simp only [he]))
    · push Not at hd
      obtain ⟨c, e, hc, hlt, h0⟩ := hd
      exact fails_left (findEigenvectors_t3_fails B k Av l hc hlt h0)

/-- A repeated eigenvalue makes the call from `A` alone raise, even if `A` is diagonalisable. -/
theorem C22_repeated_eigenvalue {β : Type} [RCLike β] {B M : Nat} {A L x : Tensor β} {V' W' Bm C D zi : Option (Tensor β)} {out u : Option Int}
    {l : Nat → Nat → β} {Av : Nat → Nat → Nat → β} {ev : Tensor β → Res (Tensor β)} {re : β → β} {realC : Bool} (hev : ev A = .ok L)
    (hA : Spectrum B M A L Av l) {b m p : Nat} (hb : b < B) (hm : m < M) (hp : p < M) (hne : m ≠ p) (he : l b m = l b p) :
    Fails (diagStateSpace ev findEigenvectors re realC x none V' W' (some A) Bm C D zi out u) := by
  unfold diagStateSpace diagStateSpaceWith
  refine fails_check fun _ => fails_check fun _ => ?_
  refine fails_check fun _ => fails_check fun _ => fails_check fun _ => fails_bind fun L' hL' => fails_left ?_
  rw [hev] at hL'
  cases hL'
  have hs : A.size (-1) = M := by cases hA <;> rfl
  rw [hs]
  exact completeBasis_repeated hA hb hm hp hne he

/-- The identity matrix of size 2 is such a matrix, though `state_space` filters with it. -/
example (x : Nat → Nat → ℂ) (re : ℂ → ℂ) :
    Fails (diagStateSpace (fun _ => .ok (t1 2 fun _ => 1)) findEigenvectors re false (t2 1 3 x) none none none
      (some (t2 2 2 fun i j => if i = j then 1 else 0)) none none none none none none) :=
  C22_repeated_eigenvalue (B := 1) (b := 0) rfl (.shared _ _) (by decide) (by decide : 0 < 2) (by decide : 1 < 2) (by decide) rfl

/-- An eigenvector that starts with zero makes `find_eigenvectors` raise. -/
theorem completeBasis_zero {β : Type} [RCLike β] {B M : Nat} {A L : Tensor β} {l : Nat → Nat → β} {Av : Nat → Nat → Nat → β} {v : Nat → β}
    (hA : Spectrum B M A L Av l) {b m : Nat} (hb : b < B) (hm : m < M) (hv : Eigenvector M (Av b) (l b m) v) (h0 : v 0 = 0) :
    Fails (completeBasis findEigenvectors L none none (some A) M) := by
  obtain ⟨k, rfl⟩ : ∃ k, M = k + 1 := ⟨M - 1, by omega⟩
  simp only [completeBasis]
  cases hA with
  | shared A l => exact fails_left (findEigenvectors_t2_fails k A l hm (gram_singular hv h0))
  | batched => exact fails_left (findEigenvectors_t3_fails B k Av l hb hm (gram_singular hv h0))

/-- Values for batch items that do not exist can be chosen. -/
theorem spectrum_clamp {β : Type} [Zero β] {B M : Nat} {A L : Tensor β} {l : Nat → Nat → β} {Av : Nat → Nat → Nat → β}
    (hA : Spectrum B M A L Av l) : Spectrum B M A L (fun b => Av (min b (B - 1))) fun b => l (min b (B - 1)) := by
  cases hA with
  | shared A l => exact .shared A l
  | batched =>
    rw [show t3 B M M Av = t3 B M M fun b => Av (min b (B - 1)) from t3_congr rfl rfl rfl fun i j k hi _ _ => by rw [Nat.min_eq_left (by omega)],
      show t2 B M l = t2 B M fun b => l (min b (B - 1)) from t2_congr rfl rfl fun i j hi _ => by rw [Nat.min_eq_left (by omega)]]
    exact .batched _ _

/-- **C22, from the state matrix alone: the exact condition.**  If `torch.linalg.eigvals` returns eigenvalues, the call returns what
`state_space` returns if all eigenvalues of each matrix are distinct and none of their eigenvectors starts with zero, and raises otherwise. -/
theorem C22_from_matrix_exact {β : Type} [RCLike β] {B N M : Nat} {A L x : Tensor β} {V' W' Bm C D zi : Option (Tensor β)} {k : Option Nat}
    {l z : Nat → Nat → β} {Av vx d : Nat → Nat → Nat → β} {r : Nat → (Nat → β) → Nat → β} {u u' : Option Int}
    {ev : Tensor β → Res (Tensor β)} {re : β → β} {realC : Bool} (hev : ev A = .ok L)
    (hA : Spectrum B M A L Av l) (hl : ∀ b m, b < B → m < M → ∃ v, Eigenvector M (Av b) (l b m) v)
    (hB : LtiInput B N M Bm x vx) (hC : LtiReadout B M C k r) (hD : LtiFeed B N D x k d) (hz : InitState B M zi z)
    (hB0 : 0 < B) (hM : 0 < M) (hN : 0 < N) (hu : ∀ i, u = some i → 1 ≤ i) (hu' : ∀ i, u' = some i → 1 ≤ i)
    (hreal : C.isSome = true → realC = true → (∀ c, star c = c → re c = c) ∧ (∀ b i j, star (Av b i j) = Av b i j) ∧
      (∀ b i, star (z b i) = z b i) ∧ ∀ b t i, star (vx b t i) = vx b t i) :
    ((∀ b m, b < B → m < M → (∀ v, Eigenvector M (Av b) (l b m) v → v 0 ≠ 0) ∧ ∀ p, p < M → l b m = l b p → m = p) ∧
        diagStateSpace ev findEigenvectors re realC x none V' W' (some A) Bm C D zi none u = stateSpace A x Bm C D zi u' none) ∨
      ((∃ b m, b < B ∧ m < M ∧ ((∃ v, Eigenvector M (Av b) (l b m) v ∧ v 0 = 0) ∨ ∃ p, p < M ∧ p ≠ m ∧ l b m = l b p)) ∧
        Fails (diagStateSpace ev findEigenvectors re realC x none V' W' (some A) Bm C D zi none u)) := by
  have hcl : ∀ b, min b (B - 1) < B := fun b => by omega
  by_cases h : ∀ b m, b < B → m < M → (∀ v, Eigenvector M (Av b) (l b m) v → v 0 ≠ 0) ∧ ∀ p, p < M → l b m = l b p → m = p
  · refine Or.inl ⟨h, C22_from_matrix_partial hev (spectrum_clamp hA) (fun b m hm => hl _ m (hcl b) hm)
      (fun b m v hm hv => (h _ m (hcl b) hm).1 v hv) (fun b m p hm hp e => (h _ m (hcl b) hm).2 p hp e) hB hC hD hz hM hN hu hu' fun hc hr => ?_⟩
    obtain ⟨h1, h2, h3, h4⟩ := hreal hc hr
    exact ⟨h1, fun b => h2 _, h3, h4⟩
  · right
    push Not at h
    obtain ⟨b, m, hb, hm, h⟩ := h
    by_cases h0 : ∃ v, Eigenvector M (Av b) (l b m) v ∧ v 0 = 0
    · refine ⟨⟨b, m, hb, hm, Or.inl h0⟩, ?_⟩
      obtain ⟨v, hv, h0⟩ := h0
      unfold diagStateSpace diagStateSpaceWith
      refine fails_check fun _ => fails_check fun _ => ?_
      refine fails_check fun _ => fails_check fun _ => fails_check fun _ => fails_bind fun L' hL' => fails_left ?_
      rw [hev] at hL'
      cases hL'
      rw [show A.size (-1) = M by cases hA <;> rfl]
      exact completeBasis_zero hA hb hm hv h0
    · push Not at h0
      obtain ⟨p, hp, e, hne⟩ := h h0
      exact ⟨⟨b, m, hb, hm, Or.inr ⟨p, hp, fun h => hne h.symm, e⟩⟩, C22_repeated_eigenvalue hev hA hb hm hp hne e⟩

example (c : Nat → ℂ) (x : Nat → Nat → ℂ) := C22_from_matrix_exact (B := 3) (N := 5) (M := 2) (V' := none) (W' := none) (u := none) (u' := some 2)
  (ev := fun _ => .ok (t1 2 Witness.rotEig)) (re := id) (realC := false) rfl (.shared Witness.rot Witness.rotEig)
  (fun _ m _ => Witness.rot_eigenvector m) (.none (.scalar x)) (.vec c) (.none _ _) .zero (by decide) (by decide) (by decide) (by simp) (by simp)
  (by simp)

/-- A batch of eigenvalue lists without a basis is rejected, even if `A` is given. -/
theorem C22_rejects_batched_eigenvalues {B N M : Nat} (l : Nat → Nat → α) (x : Nat → Nat → α) (A Bm C D zi : Option (Tensor α))
    (out u : Option Int) (ev : Tensor α → Res (Tensor α)) (fe : Tensor α → Tensor α → Res (Tensor α)) (re : α → α) (realC : Bool) :
    Fails (diagStateSpace ev fe re realC (t2 B N x) (some (t2 B M l)) none none A Bm C D zi out u) := by
  unfold diagStateSpace diagStateSpaceWith
  refine fails_check fun _ => fails_check fun _ => fails_left ?_
  simp only [checkEigen, shape_t2, size_t2_0, if_true]
  exact fails_check fun h => by simp at h

/-- A real output matrix for a complex model: `A = i`, `zi = 1`, `C = 1` with a real dtype, two steps.  The model answers `1, i`;
the imaginary part is lost here (`state_space` itself does not lose it: PyTorch rejects the mixed dtypes there). -/
theorem C22_real_readout (ev : Tensor ℂ → Res (Tensor ℂ)) (fe : Tensor ℂ → Tensor ℂ → Res (Tensor ℂ)) :
    diagStateSpace ev fe (fun z => (z.re : ℂ)) true (t2 1 2 fun _ _ => 0) (some (t1 1 fun _ => Complex.I)) none none none none
        (some (t1 1 fun _ => 1)) none (some (t1 1 fun _ => 1)) none none ≠
      stateSpace (t2 1 1 fun _ _ => Complex.I) (t2 1 2 fun _ _ => 0) none (some (t1 1 fun _ => 1)) none (some (t1 1 fun _ => 1))
        none none := by
  obtain ⟨h, hh, e⟩ := C08_state_space_partial (B := 1) (N := 2) (M := 1) (u := none) (.shared fun _ _ => Complex.I)
    (.none (.scalar fun _ _ => (0 : ℂ))) (.vec fun _ => 1) (.none _ _) (.shared fun _ => 1) (by decide) (by decide) (by simp)
  rw [e]
  have key := diagRun_re (runner := linearRecurrence) (Av := fun _ _ _ => Complex.I) (u := ((1 : Nat) : Int)) (V := eye 1) (W := eye 1)
    (fun z => (z.re : ℂ)) true (B := 1) (N := 2) (M := 1)
    (.shared fun _ => Complex.I) (.shared fun i j => if i = j then 1 else 0) (.shared fun i j => if i = j then 1 else 0)
    (fun _ => ⟨fun i j hi hj => by simp [show i = 0 by omega, show j = 0 by omega], fun i j hi hj => by simp; omega⟩)
    (.none (.scalar fun _ _ => (0 : ℂ))) (.vec fun _ => 1) (.none _ _) (.shared fun _ => 1) (by decide) (by decide)
    (fun a i x => C01_linear_recurrence x _ (.full _) (.full _) (by decide) (by decide))
  have e2 : diagStateSpace ev fe (fun z => (z.re : ℂ)) true (t2 1 2 fun _ _ => 0) (some (t1 1 fun _ => Complex.I)) none none none none
        (some (t1 1 fun _ => 1)) none (some (t1 1 fun _ => 1)) none none =
      diagRun linearRecurrence (fun z => (z.re : ℂ)) true (t1 1 fun _ => Complex.I) (eye 1) (eye 1) (t2 1 2 fun _ _ => 0) none
        (some (t1 1 fun _ => 1)) none (some (t1 1 fun _ => 1)) none ((1 : Nat) : Int) 1 := by
    rw [show ((1 : Nat) : Int) = ((roundSqrt 2 : Nat) : Int) by decide +kernel]
    simp only [diagStateSpace, diagStateSpaceWith, checkEigen, completeBasis, absentOrShape, shape_t1, rank_t2, Option.all_none]
    rfl
  rw [e2, key]
  intro heq
  have h1 := congrArg Prod.fst (Except.ok.inj heq)
  have h2 := congrArg (fun t => t.get [0, 1]) h1
  simp only [signal, get_t2 (show 0 < 1 by decide) (show 1 < 2 by decide)] at h2
  simp [vecRec, (hh 0 0).1, (hh 0 0).2] at h2
  have h3 := congrArg Complex.im h2
  simp at h3

/-- Non-vacuity: `A = [[2, 1], [0, 3]]` with eigenvectors `(1, 0)`, `(1, 1)`, only `V` given, three batch items, initial state, output
matrix with two rows. -/
example (ev : Tensor ℚ → Res (Tensor ℚ)) (fe : Tensor ℚ → Tensor ℚ → Res (Tensor ℚ)) :
    diagStateSpace ev fe id true (t2 3 5 fun b t => (b : ℚ) * t) (some (t1 2 fun m => (m : ℚ) + 2))
        (some (t2 2 2 fun i j => if i = 0 ∨ j = 1 then 1 else 0)) none none none (some (t2 2 2 fun i j => (i : ℚ) + j)) none
        (some (t1 2 fun m => (m : ℚ) + 1)) none none =
      stateSpace (t2 2 2 fun i j => if i = 0 then (if j = 0 then 2 else 1) else if j = 0 then 0 else 3) (t2 3 5 fun b t => (b : ℚ) * t)
        none (some (t2 2 2 fun i j => (i : ℚ) + j)) none (some (t1 2 fun m => (m : ℚ) + 1)) (some 2) none :=
  C22_given_basis_partial (B := 3) (N := 5) (M := 2)
    (.shared (fun m => (m : ℚ) + 2) (fun i j => if i = 0 ∨ j = 1 then 1 else 0)
      (fun i j => if i = j then 1 else if i = 0 then -1 else 0))
    (.shared fun i j => if i = 0 then (if j = 0 then 2 else 1) else if j = 0 then 0 else 3)
    (fun _ => ⟨fun i j hi hj => by
        have h1 : i = 0 ∨ i = 1 := by omega
        have h2 : j = 0 ∨ j = 1 := by omega
        rcases h1 with rfl | rfl <;> rcases h2 with rfl | rfl <;> norm_num [Finset.sum_range_succ],
      fun i j hi hj => by
        have h1 : i = 0 ∨ i = 1 := by omega
        have h2 : j = 0 ∨ j = 1 := by omega
        rcases h1 with rfl | rfl <;> rcases h2 with rfl | rfl <;> norm_num [Finset.sum_range_succ]⟩)
    (Or.inr rfl) (Or.inl rfl) (Or.inl rfl) (by simp) (.none (.scalar fun b t => (b : ℚ) * t)) (.mat 2 (fun i j => (i : ℚ) + j) (by decide))
    (.none _ _) (.shared fun m => (m : ℚ) + 1) (by decide) (by decide) (by simp) (by simp)
    (fun _ _ => ⟨fun c _ => rfl, fun _ _ _ => rfl, fun _ _ => rfl, fun _ _ _ => rfl⟩)

/-- Non-vacuity, from the matrix: `[[0, 1], [-1, 0]]` with the eigenvalues `i`, `-i` from `eigvals`, complex output matrix. -/
example (c : Nat → ℂ) (x : Nat → Nat → ℂ) :
    diagStateSpace (fun _ => .ok (t1 2 fun m => if m = 0 then Complex.I else -Complex.I)) findEigenvectors (fun z => (z.re : ℂ)) false
        (t2 3 5 x) none none none (some (t2 2 2 fun i j => if i = j then 0 else if i = 0 then 1 else -1)) none (some (t1 2 c)) none none
        none none =
      stateSpace (t2 2 2 fun i j => if i = j then 0 else if i = 0 then 1 else -1) (t2 3 5 x) none (some (t1 2 c)) none none (some 3) none := by
  refine C22_from_matrix_partial rfl (.shared _ _) (fun b m hm => ?_) (fun b m v hm hv h0 => ?_) (fun b m p hm hp he => ?_)
    (.none (.scalar x)) (.vec c) (.none _ _) .zero (by decide) (by decide) (by simp) (by simp) (by simp)
  · refine ⟨fun i => if i = 0 then 1 else if m = 0 then Complex.I else -Complex.I, ⟨0, by decide, by simp⟩, fun i hi => ?_⟩
    have h1 : i = 0 ∨ i = 1 := by omega
    have h2 : m = 0 ∨ m = 1 := by omega
    rcases h1 with rfl | rfl <;> rcases h2 with rfl | rfl <;> simp [Finset.sum_range_succ]
  · obtain ⟨⟨i, hi, hi0⟩, he⟩ := hv
    have h1 : i = 0 ∨ i = 1 := by omega
    rcases h1 with rfl | rfl
    · exact hi0 h0
    · have := he 0 (by decide)
      simp [Finset.sum_range_succ, h0] at this
      exact hi0 this
  · have h1 : m = 0 ∨ m = 1 := by omega
    have h2 : p = 0 ∨ p = 1 := by omega
    rcases h1 with rfl | rfl <;> rcases h2 with rfl | rfl <;> first | rfl | (exfalso; have := congrArg Complex.im he; norm_num at this)

end Props
