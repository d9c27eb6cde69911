import Verif.Proof.LpvUnroll

/-!
# C09: `lpv.state_space` output equation

`LpvInput`, `LpvReadout`, `LpvFeed` (Spec/StateSpace.lean) list the documented shapes.  Full claim: every documented
shape is read as documented, also when sizes coincide.  This fails when the batch size equals the number of time steps
(see `C09_wrong_…`), and, through C07, for unroll factors `2 < u < N` with `u - 1` composite (or, for a one-dimensional state,
with three or more prime factors); `C09_exact` shows that this condition on the unroll factor is exact.
-/

namespace Props
open Torch Torch.Tensor Spec Phil
variable {α : Type} [CommRing α] [StarRing α]

/-- **C09.** `y_t = C_t h_t + D_t x_t`, `h_0 = zi`, `h_{t+1} = A_t h_t + B_t x_t`, and the final state `h_N` is returned
exactly when an initial state is given.  Missing: coinciding sizes and the unroll factors of C07. -/
theorem C09_state_space_partial {B N M : Nat} {A x : Tensor α} {Bm C D zi : Option (Tensor α)} {k : Option Nat}
    {Av : Nat → Nat → Nat → Nat → α} {v d : Nat → Nat → Nat → α} {r : Nat → Nat → (Nat → α) → Nat → α}
    {z : Nat → Nat → α} {u : Option Int} (hA : MatSeq B N M M A Av) (hB : LpvInput B N M Bm x v)
    (hC : LpvReadout B N M C k r) (hD : LpvFeed B N D x k d)
    (hz : InitState B M zi z) (hB0 : 0 < B) (hM : 0 < M) (hN : 0 < N) (hu : FilterUnroll M N u) :
    ∃ h : Nat → Nat → Nat → α,
      (∀ b i, h b 0 i = z b i ∧ ∀ t, h b (t + 1) i = ∑ k ∈ Finset.range M, Av b t i k * h b t k + v b t i) ∧
      Lpv.stateSpace A x Bm C D zi u none =
        .ok (signal k B N fun b t p => r b t (h b t) p + d b t p,
          if zi.isSome then some (t2 B M fun b m => h b N m) else none) := by
  refine ⟨fun b => vecRec M (Av b) (z b) (v b), fun b i => ⟨rfl, fun t => rfl⟩, ?_⟩
  refine Lpv.stateSpaceWith_eq hA hB hC hD hz hN _ (fun _ _ => rfl) fun Bx hBx => ?_
  exact Lpv.recOn_filter Av z hB0 hM hN hu hA hBx none trivial

/-- With an output index instead of an output matrix. -/
theorem C09_state_space_out_idx_partial {B N M : Nat} {A x : Tensor α} {Bm D zi : Option (Tensor α)}
    {Av : Nat → Nat → Nat → Nat → α} {v d : Nat → Nat → Nat → α} {z : Nat → Nat → α} {u : Option Int} {i : Int}
    (hA : MatSeq B N M M A Av) (hB : LpvInput B N M Bm x v) (hD : LpvFeed B N D x none d)
    (hz : InitState B M zi z) (hi : -(M : Int) ≤ i ∧ i < M) (hB0 : 0 < B) (hN : 0 < N) (hu : FilterUnroll M N u) :
    ∃ h : Nat → Nat → Nat → α,
      (∀ b i, h b 0 i = z b i ∧ ∀ t, h b (t + 1) i = ∑ k ∈ Finset.range M, Av b t i k * h b t k + v b t i) ∧
      Lpv.stateSpace A x Bm none D zi u (some i) =
        .ok (t2 B N fun b t => h b t (if i < 0 then (i + M).toNat else i.toNat) + d b t 0,
          if zi.isSome then some (t2 B M fun b m => h b N m) else none) := by
  refine ⟨fun b => vecRec M (Av b) (z b) (v b), fun b i => ⟨rfl, fun t => rfl⟩, ?_⟩
  refine Lpv.stateSpaceWith_idx hA hB hD hz hN hi _ (fun _ _ => rfl) (fun Bx hBx => ?_) fun Bx hBx => ?_
  · exact Lpv.recOn_filter Av z hB0 (by omega) hN hu hA hBx none trivial
  · exact Lpv.recOn_filter Av z hB0 (by omega) hN hu hA hBx (some i) hi

example := C09_state_space_out_idx_partial (B := 3) (N := 5) (M := 2) (u := some 3) (i := -1)
  (MatSeq.batched fun b t i k => (b : ℤ) + i * t - k)
  (LpvInput.batchVec (fun b k => (b : ℤ) - k) (fun b t => (b : ℤ) * t) (by decide)) (LpvFeed.scalar 7 _) (InitState.full fun b k => (b : ℤ) + k)
  (by decide) (by decide) (by decide) (by unfold FilterUnroll GoodUnroll FewPrimes; decide +kernel)

/-- Matrices that commute with each other, for instance constant or diagonal ones: `u - 1` may be a product of two primes. -/
theorem C09_state_space_commuting_partial {B N M : Nat} {A x : Tensor α} {Bm C D zi : Option (Tensor α)} {k : Option Nat}
    {Av : Nat → Nat → Nat → Nat → α} {v d : Nat → Nat → Nat → α} {r : Nat → Nat → (Nat → α) → Nat → α}
    {z : Nat → Nat → α} {u : Option Int} (hA : MatSeq B N M M A Av) (hB : LpvInput B N M Bm x v)
    (hC : LpvReadout B N M C k r) (hD : LpvFeed B N D x k d)
    (hz : InitState B M zi z) (hB0 : 0 < B) (hM : 0 < M) (hN : 0 < N)
    (hc : ∀ b s t i j, s < N → t < N → i < M → j < M →
      ∑ k ∈ Finset.range M, Av b s i k * Av b t k j = ∑ k ∈ Finset.range M, Av b t i k * Av b s k j)
    (hu : FewPrimes N u) :
    ∃ h : Nat → Nat → Nat → α,
      (∀ b i, h b 0 i = z b i ∧ ∀ t, h b (t + 1) i = ∑ k ∈ Finset.range M, Av b t i k * h b t k + v b t i) ∧
      Lpv.stateSpace A x Bm C D zi u none =
        .ok (signal k B N fun b t p => r b t (h b t) p + d b t p,
          if zi.isSome then some (t2 B M fun b m => h b N m) else none) := by
  refine ⟨fun b => vecRec M (Av b) (z b) (v b), fun b i => ⟨rfl, fun t => rfl⟩, ?_⟩
  refine Lpv.stateSpaceWith_eq hA hB hC hD hz hN _ (fun _ _ => rfl) fun Bx hBx => ?_
  refine Lpv.recOn_commuting z hB0 hM hN (fun b s t hs ht => ?_) hu hA hBx none trivial
  ext i j
  simp only [Matrix.mul_apply, mat, Matrix.of_apply]
  rw [Fin.sum_univ_eq_sum_range (fun k => Av b s i k * Av b t k j), Fin.sum_univ_eq_sum_range (fun k => Av b t i k * Av b s k j)]
  exact hc b s t i j hs ht i.2 j.2

/-- Multiples of one matrix, blocks of 7 of 12 samples (`6 = 2·3`). -/
example := C09_state_space_commuting_partial (B := 3) (N := 12) (M := 2) (u := some 7) (MatSeq.shared fun t _ _ => (t : ℤ) + 1)
  (LpvInput.none (Drive.scalar fun b t => (b : ℤ) * t)) LpvReadout.none (LpvFeed.none _ _) InitState.zero
  (by decide) (by decide) (by decide) (fun _ _ _ _ _ _ _ _ _ => Finset.sum_congr rfl fun _ _ => mul_comm _ _)
  (by unfold FewPrimes; decide +kernel)

/-- **The exact condition on the unroll factor**: over any nontrivial ring, `state_space` without further matrices gives the
same result as with `unroll_factor=1` for all state matrices and signals if and only if the factor is at most 2, at least `N`,
one more than a prime, or, for a one-dimensional state, one more than a product of two primes. -/
theorem C09_exact [Nontrivial α] {B N M : Nat} (u : Option Int) (hB : 0 < B) (hM : 0 < M) (hN : 0 < N) (hu : ∀ i, u = some i → 1 ≤ i) :
    (∀ (A : Nat → Nat → Nat → α) (x : Nat → Nat → α),
      Lpv.stateSpace (t3 N M M A) (t2 B N x) none none none none u none =
        Lpv.stateSpace (t3 N M M A) (t2 B N x) none none none none (some 1) none) ↔ FilterUnroll M N u := by
  constructor
  · intro h
    by_contra hc
    obtain ⟨h2, hlt, ⟨a, w, hw⟩, -⟩ := Lpv.filter_wrong (α := α) hM (Lpv.UnrollOk.getD hu hN) hc
    have e := h (fun t => comp (a t)) fun _ => Lpv.impulse w
    rw [Lpv.stateSpace_any (.shared _) (.none (.scalar _)) .none (.none _ _) .zero hB hM hN hu,
      Lpv.stateSpace_any (.shared _) (.none (.scalar _)) .none (.none _ _) .zero hB hM hN (u := some 1) (by simp [Lpv.UnrollOk])] at e
    have e' := congrArg (fun T => Tensor.get T [0, (u.getD (roundSqrt N)).toNat, 0]) (congrArg Prod.fst (Except.ok.inj e))
    simp only [signal, add_zero] at e'
    rw [get_t3 hB hlt hM, get_t3 hB hlt hM] at e'
    exact hw e'
  · intro hg A x
    obtain ⟨h, hh, e⟩ := C09_state_space_partial (MatSeq.shared A) (.none (.scalar x)) .none (.none _ _) .zero hB hM hN hg
    obtain ⟨h', hh', e'⟩ := C09_state_space_partial (u := some 1) (MatSeq.shared A) (.none (.scalar x)) .none (.none _ _) .zero hB hM hN
      (Or.inl ⟨by simp, Or.inl (by simp)⟩)
    have hs : ∀ b t i, h b t i = h' b t i := by
      intro b t
      induction t with
      | zero => intro i; rw [(hh b i).1, (hh' b i).1]
      | succ t ih => intro i; rw [(hh b i).2, (hh' b i).2]; simp only [ih]
    rw [e, e', show h = h' from funext fun b => funext fun t => funext fun i => hs b t i]

example := C09_exact (α := ℤ) (B := 3) (N := 20) (M := 2) (some 5) (by decide) (by decide) (by decide) (by simp)

/-- **C09 is false for a `(batch, time)` feedthrough when `batch = time`**: the documented shape `(batch, N)` is taken
for `(N, _)`, and the result has shape `(2, 2, 2)` instead of `(2, 2)`. -/
theorem C09_wrong_feedthrough :
    shape? ((Lpv.stateSpace (t3 2 1 1 fun _ _ _ => (1 : ℤ)) (t2 2 2 fun _ _ => 1) none (some (t1 1 fun _ => 1))
      (some (t2 2 2 fun b t => (b : ℤ) + 2 * t)) none none none).map Prod.fst) = some [2, 2, 2] := by
  decide +kernel

/-- **C09 is false for a `(batch, time, M)` output matrix when `batch = time`**: it is taken for `(N, _, M)`. -/
theorem C09_wrong_output :
    shape? ((Lpv.stateSpace (t3 2 1 1 fun _ _ _ => (1 : ℤ)) (t2 2 2 fun _ _ => 1) none
      (some (t3 2 2 1 fun b t _ => (b : ℤ) + 2 * t)) none none none none).map Prod.fst) = some [2, 2, 2] := by
  decide +kernel

/-- The same arguments with three time steps give the documented shape `(2, 3)`. -/
example : shape? ((Lpv.stateSpace (t3 3 1 1 fun _ _ _ => (1 : ℤ)) (t2 2 3 fun _ _ => 1) none
      (some (t3 2 3 1 fun b t _ => (b : ℤ) + 2 * t)) none none none none).map Prod.fst) = some [2, 3] := by
  decide +kernel

/-- An output matrix and an output index together are rejected. -/
theorem C09_rejects_C_and_out_idx (A x C : Tensor α) (Bm D zi : Option (Tensor α)) (u : Option Int) (i : Int) :
    Fails (Lpv.stateSpace A x Bm (some C) D zi u (some i)) := by
  unfold Lpv.stateSpace Lpv.stateSpaceWith
  exact fails_check fun _ => fails_check fun _ => fails_check fun _ => fails_check fun _ => fails_check fun h => by
    rcases h with h | h <;> cases h

/-- Non-vacuity: time-varying matrices everywhere, nine samples in blocks of three (the default). -/
example : ∃ h : Nat → Nat → Nat → ℤ,
    (∀ b i, h b 0 i = 0 ∧ ∀ t, h b (t + 1) i = ∑ k ∈ Finset.range 3, ((i : ℤ) - k * t + b) * h b t k +
      ((i : ℤ) + t) * ((b : ℤ) + t)) ∧
    Lpv.stateSpace (t4 2 9 3 3 fun b t i j => (i : ℤ) - j * t + b) (t2 2 9 fun b t => (b : ℤ) + t)
      (some (t2 9 3 fun t i => (i : ℤ) + t)) (some (t3 2 9 3 fun b t m => (b : ℤ) + t * m)) (some (t1 9 fun t => (t : ℤ)))
      none none none =
      .ok (t2 2 9 fun b t => ∑ m ∈ Finset.range 3, ((b : ℤ) + t * m) * h b t m + (t : ℤ) * ((b : ℤ) + t), none) :=
  C09_state_space_partial (MatSeq.batched _) (LpvInput.timeVec _ _) (LpvReadout.batchTimeVec _ (by decide))
    (LpvFeed.time _ _) InitState.zero (by decide) (by decide) (by decide)
    (Or.inl ⟨by decide +kernel, Or.inr (Or.inr (by
      rw [show (Option.none.getD ((roundSqrt 9 : Nat) : Int)).toNat - 1 = 2 by decide +kernel]; decide))⟩)

end Props
