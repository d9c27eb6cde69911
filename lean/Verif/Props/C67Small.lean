import Verif.Props.C67
import Verif.Props.C01
import Verif.Props.C02
import Verif.Props.C05
import Verif.Props.C06
import Verif.Props.C07
import Verif.Props.C24

/-!
# C67 for the recurrences and the matrix functions: exactly which calls return

These functions have few enough checks for an equivalence: the call returns if and only if the arguments have the documented shapes.
-/

namespace Props
open Torch Torch.Tensor Spec Phil

section
variable {α : Type} [CommRing α] [StarRing α]

omit [StarRing α] in
/-- A non-empty tensor with at most one axis, of size one or `B`. -/
theorem batchVals_of {B : Nat} {a : Tensor α} (h0 : 0 < a.numel) (hr : a.rank = 0 ∨ a.rank = 1)
    (hs : ¬ (a.rank = 1 ∧ a.size 0 > 1 ∧ a.size 0 ≠ B)) : ∃ v, BatchVals B a v := by
  rcases hr with hr | hr
  · have h : a.shape = [] := List.length_eq_zero_iff.1 hr
    rw [eq_t0 h]; exact ⟨_, .scalar _⟩
  · obtain ⟨n, h⟩ := shape_rank1 hr
    have e : a.size 0 = n := by simp [size, h]
    have e' : 0 < n := by simpa [numel, h] using h0
    rw [e] at hs
    by_cases h1 : n = 1
    · subst h1; rw [eq_t1 h]; exact ⟨_, .single _⟩
    · obtain rfl : n = B := by
        by_contra hc; exact hs ⟨hr, by omega, hc⟩
      rw [eq_t1 h]; exact ⟨_, .full _⟩

omit [StarRing α] in
theorem batchVals_shape {B : Nat} {a : Tensor α} {v : Nat → α} (h : BatchVals B a v) :
    a.shape = [] ∨ a.shape = [1] ∨ a.shape = [B] := by
  cases h <;> simp

/-- **C67, `lti.linear_recurrence`.** A call with a non-empty coefficient and a non-empty initial value returns if and only if the signal
is `(batch, N)` with `N > 0`, the coefficient and the initial value are numbers or have shape `(1,)` or `(batch,)`, and the unroll factor
is at least one. -/
theorem C67_lti_linear_recurrence_iff {a init x : Tensor α} {u : Int} (ha : 0 < a.numel) (hi : 0 < init.numel) :
    (∃ y, Lti.linearRecurrence a init x u = .ok y) ↔
      ∃ B N, x.shape = [B, N] ∧ 0 < N ∧ (∃ av, BatchVals B a av) ∧ (∃ iv, BatchVals B init iv) ∧ 1 ≤ u := by
  constructor
  · rintro ⟨y, h⟩
    by_cases hx : x.rank = 2
    case neg => exact (not_fails h (C01_rejects_shapes a init x u (Or.inl hx))).elim
    obtain ⟨B, N, hs⟩ := shape_rank2 hx
    have e0 : x.size 0 = B := by simp [size, hs]
    refine ⟨B, N, hs, ?_, ?_, ?_, ?_⟩
    · by_contra hN
      obtain rfl : N = 0 := by omega
      rw [eq_t2 hs] at h
      exact not_fails h (C01_rejects_empty _ _ _ _)
    · by_contra hc
      refine not_fails h (C01_rejects_shapes a init x u ?_)
      by_contra hd
      refine hc (batchVals_of ha (by omega) ?_)
      rw [← e0]; omega
    · by_contra hc
      refine not_fails h (C01_rejects_shapes a init x u ?_)
      by_contra hd
      refine hc (batchVals_of hi (by omega) ?_)
      rw [← e0]; omega
    · by_contra hc
      exact not_fails h (C01_rejects_unroll_factor _ _ _ _ (by omega))
  · rintro ⟨B, N, hs, hN, ⟨av, ha⟩, ⟨iv, hi⟩, hu⟩
    rw [eq_t2 hs]
    exact ⟨_, C01_linear_recurrence _ u ha hi hN hu⟩

example : ∃ y, Lti.linearRecurrence (t1 2 fun b => (b : ℤ)) (t0 3) (t2 2 7 fun b t => (b : ℤ) + t) 3 = .ok y :=
  (C67_lti_linear_recurrence_iff (by decide) (by decide)).2 ⟨2, 7, rfl, by decide, ⟨_, .full _⟩, ⟨_, .scalar _⟩, by decide⟩

/-- Three coefficients for two signals. -/
example : ¬ ∃ y, Lti.linearRecurrence (t1 3 fun b => (b : ℤ)) (t0 3) (t2 2 7 fun b t => (b : ℤ) + t) 3 = .ok y := by
  rw [C67_lti_linear_recurrence_iff (by decide) (by decide)]
  rintro ⟨B, N, hs, hN, ⟨av, ha⟩, _⟩
  have hs : [2, 7] = [B, N] := hs
  obtain ⟨rfl, rfl⟩ : 2 = B ∧ 7 = N := by simpa using hs
  have := batchVals_shape ha
  simp at this

/-- With an empty coefficient a single signal disappears: the output has no batch item. -/
theorem C67_linear_recurrence_accepts_empty :
    shape? (Lti.linearRecurrence (t1 0 fun _ => (0 : ℤ)) (t0 3) (t2 1 3 fun _ t => (t : ℤ)) 1) = some [0, 3] := by
  rfl

omit [StarRing α] in
theorem drive_length {B N M : Nat} {x : Tensor α} {v : Nat → Nat → Nat → α} (h : Drive B N M x v) : x.size 1 = N := by
  cases h <;> rfl

omit [StarRing α] in
theorem shape_snoc {a : Tensor α} (h : 1 ≤ a.rank) : ∃ l M, a.shape = l ++ [M] :=
  ⟨_, _, (List.dropLast_append_getLast (l := a.shape) (by intro e; rw [rank, e] at h; simp at h)).symm⟩

omit [StarRing α] in
theorem size_snoc {a : Tensor α} {l : List Nat} {M : Nat} (h : a.shape = l ++ [M]) : a.size (-1) = M := by
  simp [size, rank, h]

theorem lpv_recurrence_rejects_empty {B : Nat} (a init : Tensor α) (x : Nat → Nat → α) (u : Int) (ha : a.rank = 1) :
    Fails (Lpv.linearRecurrence a init (t2 B 0 x) u) := by
  unfold Lpv.linearRecurrence
  rw [Lpv.linearRecurrenceAux]
  refine fails_check fun _ => fails_check fun _ => fails_check fun h3 => fails_check fun _ => fails_check fun _ =>
    fails_bind fun _ _ => fails_check fun _ => ?_
  obtain ⟨n, hs⟩ := shape_rank1 ha
  obtain rfl : n = 0 := by
    have e : a.size 0 = n := by simp [size, hs]
    rw [e, size_t2_1] at h3
    by_contra hc; exact h3 ⟨ha, hc⟩
  rw [if_pos (by simp), eq_t1 hs]
  exact ⟨_, rfl⟩

/-- **C67 (partial), `lpv.linear_recurrence`.** A call with one coefficient sequence for all signals returns if and only if the signal is
`(batch, N)` with `N > 0`, the sequence has length `N`, the initial value is a number or has shape `(1,)` or `(batch,)`, and the unroll
factor is at least one.  Missing: sequences per signal, which are not checked (`C02_unchecked_length`,
`C67_lpv_linear_recurrence_accepts_rows`). -/
theorem C67_lpv_linear_recurrence_iff_partial {a init x : Tensor α} {u : Int} (ha : a.rank = 1) (hi : 0 < init.numel) :
    (∃ y, Lpv.linearRecurrence a init x u = .ok y) ↔
      ∃ B N, x.shape = [B, N] ∧ 0 < N ∧ a.shape = [N] ∧ (∃ iv, BatchVals B init iv) ∧ 1 ≤ u := by
  constructor
  · rintro ⟨y, h⟩
    by_cases hx : x.rank = 2
    case neg => exact (not_fails h (C02_rejects_shapes a init x u (Or.inl hx))).elim
    obtain ⟨B, N, hs⟩ := shape_rank2 hx
    have e0 : x.size 0 = B := by simp [size, hs]
    have e1 : x.size 1 = N := by simp [size, hs]
    refine ⟨B, N, hs, ?_, ?_, ?_, ?_⟩
    · by_contra hN
      obtain rfl : N = 0 := by omega
      rw [eq_t2 hs] at h
      exact not_fails h (lpv_recurrence_rejects_empty _ _ _ _ ha)
    · obtain ⟨n, hn⟩ := shape_rank1 ha
      have e : a.size 0 = n := by simp [size, hn]
      rw [hn]
      by_contra hc
      refine not_fails h (C02_rejects_shapes a init x u ?_)
      refine Or.inr (Or.inr (Or.inr (Or.inr (Or.inl ⟨ha, ?_⟩))))
      rw [e, e1]; rintro rfl; exact hc rfl
    · by_contra hc
      refine not_fails h (C02_rejects_shapes a init x u ?_)
      by_contra hd
      refine hc (batchVals_of hi (by omega) ?_)
      rw [← e0]; omega
    · by_contra hc
      exact not_fails h (C02_rejects_unroll_factor _ _ _ _ (by omega))
  · rintro ⟨B, N, hs, hN, ha, ⟨iv, hi⟩, hu⟩
    rw [eq_t2 hs, eq_t1 ha]
    exact ⟨_, C02_linear_recurrence _ u (.shared _) hi hN hu⟩

example : ∃ y, Lpv.linearRecurrence (t1 7 fun t => (t : ℤ)) (t0 3) (t2 2 7 fun b t => (b : ℤ) + t) 3 = .ok y :=
  (C67_lpv_linear_recurrence_iff_partial rfl (by decide)).2 ⟨2, 7, rfl, by decide, rfl, ⟨_, .scalar _⟩, by decide⟩

/-- An initial value for each of three signals, but two signals. -/
example : ¬ ∃ y, Lpv.linearRecurrence (t1 7 fun t => (t : ℤ)) (t1 3 fun b => (b : ℤ)) (t2 2 7 fun b t => (b : ℤ) + t) 3 = .ok y := by
  rw [C67_lpv_linear_recurrence_iff_partial rfl (by decide)]
  rintro ⟨B, N, hs, hN, _, ⟨iv, hi⟩, _⟩
  have hs : [2, 7] = [B, N] := hs
  obtain ⟨rfl, rfl⟩ : 2 = B ∧ 7 = N := by simpa using hs
  have := batchVals_shape hi
  simp at this

/-- The number of coefficient sequences is not checked either: one signal and three sequences give three outputs with unroll factor one
and raise with unroll factor two. -/
theorem C67_lpv_linear_recurrence_accepts_rows :
    shape? (Lpv.linearRecurrence (t2 3 4 fun _ _ => (1 : ℤ)) (t0 0) (t2 1 4 fun _ _ => 1) 1) = some [3, 4] ∧
      Fails (Lpv.linearRecurrence (t2 3 4 fun _ _ => (1 : ℤ)) (t0 0) (t2 1 4 fun _ _ => 1) 2) :=
  ⟨rfl, _, rfl⟩

omit [StarRing α] in
/-- **C67, `lti.state_space_recursion`.** For a state of at least one component, a call returns if and only if the state matrix is
square (one, or one per batch item), the signal is `(batch, N)` or `(batch, N, M)` with `N > 0`, the initial state is `(batch, M)`, the
unroll factor is at least one and the output index, if given, is in the range `-M, …, M - 1`. -/
theorem C67_lti_recursion_iff {A zi x : Tensor α} {u : Int} {o : Option Int} (hM : 0 < A.size (-1)) :
    (∃ y, Lti.stateSpaceRecursion A zi x u o = .ok y) ↔
      ∃ B N M, (∃ Av, MatVals B M M A Av) ∧ (∃ v, Drive B N M x v) ∧ zi.shape = [B, M] ∧ 0 < N ∧ 1 ≤ u ∧
        ∀ i, o = some i → -(M : Int) ≤ i ∧ i < M := by
  constructor
  · rintro ⟨y, h⟩
    obtain ⟨h1, h2, h3, h4, h5, h6, h7, h8, h9⟩ := ltiRecursion_ok h
    have hx := signal_of_rank h1
    obtain ⟨Av, hA⟩ := matVals_of h2 h3 h4
    obtain ⟨v, hv⟩ := drive_of hx h5
    have hN := lti_nonempty hx h
    obtain ⟨n, m, hs⟩ := shape_rank2 h6
    have e0 : zi.size 0 = n := by simp [size, hs]
    have e1 : zi.size 1 = m := by simp [size, hs]
    rw [← h7, e0] at hA hv
    rw [← h8, e1] at hA hv hM
    refine ⟨n, x.size 1, m, ⟨Av, hA⟩, ⟨v, hv⟩, hs, hN, h9, ?_⟩
    rintro i rfl
    by_contra hi
    rw [eq_t2 hs] at h
    exact not_fails h (C06_lti_out_of_range hA hv _ u i hM hN (by omega))
  · rintro ⟨B, N, M, ⟨Av, hA⟩, ⟨v, hv⟩, hz, hN, hu, ho⟩
    have hM : 0 < M := by
      have : A.size (-1) = M := by cases hA <;> rfl
      omega
    rw [eq_t2 hz]
    refine ⟨_, Lti.stateSpaceRecursion_layout hA hv _ u o ?_ hM hN hu⟩
    cases o with
    | none => trivial
    | some i => exact ho i rfl

example : ∃ y, Lti.stateSpaceRecursion (t2 3 3 fun i j => (i : ℤ) - j) (t2 2 3 fun b i => (b : ℤ) + i) (t2 2 7 fun b t => (b : ℤ) + t) 3
    (some (-3)) = .ok y :=
  (C67_lti_recursion_iff (by decide)).2 ⟨2, 7, 3, ⟨_, .shared _⟩, ⟨_, .scalar _⟩, rfl, by decide, by decide, by simp⟩

/-- An output index that is too large. -/
example : ¬ ∃ y, Lti.stateSpaceRecursion (t2 3 3 fun i j => (i : ℤ) - j) (t2 2 3 fun b i => (b : ℤ) + i)
    (t2 2 7 fun b t => (b : ℤ) + t) 3 (some 3) = .ok y := by
  rw [C67_lti_recursion_iff (by decide)]
  rintro ⟨B, N, M, _, _, hz, _, _, ho⟩
  have hz : [2, 3] = [B, M] := hz
  have := ho 3 rfl
  simp at hz
  omega

omit [StarRing α] in
/-- **C67, `lpv.state_space_recursion`.** As for `lti.state_space_recursion`, with one matrix per time step (for all batch items or for
each); for a non-empty batch. -/
theorem C67_lpv_recursion_iff {A zi x : Tensor α} {u : Int} {o : Option Int} (hM : 0 < A.size (-1)) (hB : 0 < x.size 0) :
    (∃ y, Lpv.stateSpaceRecursion A zi x u o = .ok y) ↔
      ∃ B N M, (∃ Av, MatSeq B N M M A Av) ∧ (∃ v, Drive B N M x v) ∧ zi.shape = [B, M] ∧ 0 < N ∧ 1 ≤ u ∧
        ∀ i, o = some i → -(M : Int) ≤ i ∧ i < M := by
  constructor
  · rintro ⟨y, h⟩
    obtain ⟨h1, h2, h3, h3', h4, h5, h6, h7, h8, h9⟩ := lpvRecursion_ok h
    have hx := signal_of_rank h1
    obtain ⟨Av, hA⟩ := matSeq_of h2 h3 h3' h4
    obtain ⟨v, hv⟩ := drive_of hx h5
    have hN := lpv_nonempty hx h
    obtain ⟨n, m, hs⟩ := shape_rank2 h6
    have e0 : zi.size 0 = n := by simp [size, hs]
    have e1 : zi.size 1 = m := by simp [size, hs]
    rw [← h7, e0] at hA hv
    rw [← h8, e1] at hA hv hM
    refine ⟨n, x.size 1, m, ⟨Av, hA⟩, ⟨v, hv⟩, hs, hN, h9, ?_⟩
    rintro i rfl
    by_contra hi
    rw [eq_t2 hs] at h
    exact not_fails h (C06_lpv_out_of_range hA hv _ u i hM hN (by omega))
  · rintro ⟨B, N, M, ⟨Av, hA⟩, ⟨v, hv⟩, hz, hN, hu, ho⟩
    have hM : 0 < M := by
      have : A.size (-1) = M := by cases hA <;> rfl
      omega
    have hB : 0 < B := by
      have : x.size 0 = B := by cases hv <;> rfl
      omega
    rw [eq_t2 hz]
    refine ⟨_, Lpv.stateSpaceRecursion_any hA hv _ u o ?_ hB hM hN hu⟩
    cases o with
    | none => trivial
    | some i => exact ho i rfl

example : ∃ y, Lpv.stateSpaceRecursion (t3 7 3 3 fun t i j => (i : ℤ) - j * t) (t2 2 3 fun b i => (b : ℤ) + i)
    (t2 2 7 fun b t => (b : ℤ) + t) 3 (some (-3)) = .ok y :=
  (C67_lpv_recursion_iff (by decide) (by decide)).2 ⟨2, 7, 3, ⟨_, .shared _⟩, ⟨_, .scalar _⟩, rfl, by decide, by decide, by simp⟩

/-- Six matrices for seven samples. -/
example : ¬ ∃ y, Lpv.stateSpaceRecursion (t3 6 3 3 fun t i j => (i : ℤ) - j * t) (t2 2 3 fun b i => (b : ℤ) + i)
    (t2 2 7 fun b t => (b : ℤ) + t) 3 none = .ok y := by
  rw [C67_lpv_recursion_iff (by decide) (by decide)]
  rintro ⟨B, N, M, ⟨Av, hA⟩, ⟨v, hv⟩, _⟩
  have h1 : 6 = N := (matSeq_dims hA).1
  have h2 := drive_length hv
  simp at h2
  omega

omit [StarRing α] in
/-- **C67, `companion`.** It returns for every tensor with at least one axis, and for no other. -/
theorem C67_companion_iff {a : Tensor α} : (∃ A, Mat.companion a = .ok A) ↔ 1 ≤ a.rank := by
  refine ⟨fun ⟨A, h⟩ => (ok_check h).1, fun h => ?_⟩
  obtain ⟨l, M, hs⟩ := shape_snoc h
  unfold Mat.companion
  rw [size_snoc hs]
  have hw : wrapDim (l.length + 1) (-1) = .ok l.length := by
    unfold wrapDim
    rw [if_neg (by omega), if_pos (by omega)]
    congr 1; omega
  have hm : M + M * (M - 1) = M * M := by
    cases M with
    | zero => rfl
    | succ M => simp only [Nat.add_sub_cancel]; ring
  obtain ⟨c, hc, hcs⟩ : ∃ c, cat2 (neg a) (zeros (a.shape.dropLast ++ [M * (M - 1)])) (-1) = .ok c ∧ c.shape = l ++ [M * M] := by
    have hn : (neg a).shape = l ++ [M] := hs
    have hz : (zeros (α := α) (a.shape.dropLast ++ [M * (M - 1)])).shape = l ++ [M * (M - 1)] := by
      show a.shape.dropLast ++ _ = _
      rw [hs, List.dropLast_concat]
    have hr : (neg a).rank = l.length + 1 := by rw [rank, hn]; simp
    refine ⟨_, bind_step (v := l.length) (by rw [hr]; exact hw) (check_step ⟨?_, ?_⟩ rfl), ?_⟩
    · rw [hr, rank, hz]; simp
    · rw [hn, hz, List.eraseIdx_append_of_length_le (le_refl _), List.eraseIdx_append_of_length_le (le_refl _)]
      simp
    · show (neg a).shape.set _ _ = _
      rw [hn, hz, List.set_append_right _ _ (le_refl _), List.getD_append_right _ _ _ _ (le_refl _),
        List.getD_append_right _ _ _ _ (le_refl _)]
      simp [hm]
  have hcr : c.rank = l.length + 1 := by rw [rank, hcs]; simp
  obtain ⟨d, hd⟩ : ∃ d, unflatten c (-1) [some M, some M] = .ok d := by
    refine ⟨_, bind_step (v := l.length) (by rw [hcr]; exact hw) (bind_step (v := [M, M]) ?_ rfl)⟩
    rw [hcs, List.getD_append_right _ _ _ _ (le_refl _)]
    simp [resolve]
  exact ⟨_, check_step h (bind_step hc (bind_step hd rfl))⟩

example : ∃ A, Mat.companion (t4 2 3 2 5 fun i j k m => (i : ℤ) + j * k - m) = .ok A :=
  C67_companion_iff.2 (by decide)

omit [StarRing α] in
/-- **C67, `vandermonde`.** It returns exactly for a list of poles and for batches of lists of length one. -/
theorem C67_vandermonde_iff {p : Tensor α} : (∃ V, Mat.vandermonde p = .ok V) ↔ p.rank = 1 ∨ (1 ≤ p.rank ∧ p.size (-1) = 1) := by
  constructor
  · rintro ⟨V, h⟩
    obtain ⟨h1, h⟩ := ok_check h
    by_cases h2 : p.size (-1) = 1
    · exact Or.inr ⟨h1, h2⟩
    · rw [if_neg h2] at h
      exact Or.inl (ok_check h).1
  · intro h
    have h1 : 1 ≤ p.rank := by omega
    unfold Mat.vandermonde
    by_cases h2 : p.size (-1) = 1
    · have hw : wrapDim (p.rank + 1) (-1) = .ok p.rank := by
        unfold wrapDim
        rw [if_neg (by omega), if_pos (by omega)]
        congr 1; omega
      exact ⟨_, check_step h1 ((if_pos h2).trans (bind_step (v := p.rank) hw rfl))⟩
    · obtain ⟨n, hs⟩ := shape_rank1 (h.resolve_right fun hc => h2 hc.2)
      rw [eq_t1 hs] at h2 ⊢
      exact ⟨_, C24_vandermonde _⟩

example : ∃ V, Mat.vandermonde (t2 4 1 fun b _ => (b : ℤ)) = .ok V := C67_vandermonde_iff.2 (by simp)

/-- Two lists of two poles. -/
example : ¬ ∃ V, Mat.vandermonde (t2 2 2 fun b k => (b : ℤ) + k) = .ok V := by
  rw [C67_vandermonde_iff]; simp

end
end Props
