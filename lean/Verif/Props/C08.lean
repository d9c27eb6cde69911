import Verif.Proof.StateSpace

/-!
# C08: `lti.state_space` output equation

`LtiInput`, `LtiReadout`, `LtiFeed`, `InitState` (Spec/StateSpace.lean) list the documented shapes.  Full claim: every
documented shape is read as documented.  This fails when sizes coincide (e.g. an `(M, F)` input matrix with
`M = F = batch` is taken for a `(batch, M)` one and rejected); the constructors exclude exactly these coincidences, and
the theorems `C08_ambiguous_…` show what happens there.
-/

namespace Props
open Torch Torch.Tensor Spec Phil
variable {α : Type} [CommRing α] [StarRing α]

/-- **C08.** `y_t = C h_t + D x_t`, `h_0 = zi`, `h_{t+1} = A h_t + B x_t`, and the final state `h_N` is returned exactly
when an initial state is given.  `u` is the unroll factor (`none` for the default).  Missing: coinciding sizes. -/
theorem C08_state_space_partial {B N M : Nat} {A x : Tensor α} {Bm C D zi : Option (Tensor α)} {k : Option Nat}
    {Av v d : Nat → Nat → Nat → α} {r : Nat → (Nat → α) → Nat → α} {z : Nat → Nat → α} {u : Option Int}
    (hA : MatVals B M M A Av) (hB : LtiInput B N M Bm x v) (hC : LtiReadout B M C k r) (hD : LtiFeed B N D x k d)
    (hz : InitState B M zi z) (hM : 0 < M) (hN : 0 < N) (hu : ∀ i, u = some i → 1 ≤ i) :
    ∃ h : Nat → Nat → Nat → α,
      (∀ b i, h b 0 i = z b i ∧ ∀ t, h b (t + 1) i = ∑ k ∈ Finset.range M, Av b i k * h b t k + v b t i) ∧
      Lti.stateSpace A x Bm C D zi u none =
        .ok (signal k B N fun b t p => r b (h b t) p + d b t p,
          if zi.isSome then some (t2 B M fun b m => h b N m) else none) := by
  refine ⟨fun b => vecRec M (fun _ => Av b) (z b) (v b), fun b i => ⟨rfl, fun t => rfl⟩, ?_⟩
  refine Lti.stateSpaceWith_eq hA hB hC hD hz hN _ (fun _ _ => rfl) fun Bx hBx => ?_
  refine Lti.stateSpaceRecursion_layout hA hBx z _ none trivial hM hN ?_
  cases u with
  | none => have := Lti.roundSqrt_pos hN; simp only [Option.getD_none]; omega
  | some i => exact hu i rfl

/-- With an output index instead of an output matrix, the output is that state component plus the feedthrough. -/
theorem C08_state_space_out_idx_partial {B N M : Nat} {A x : Tensor α} {Bm D zi : Option (Tensor α)}
    {Av v d : Nat → Nat → Nat → α} {z : Nat → Nat → α} {u : Option Int} {i : Int}
    (hA : MatVals B M M A Av) (hB : LtiInput B N M Bm x v) (hD : LtiFeed B N D x none d)
    (hz : InitState B M zi z) (hi : -(M : Int) ≤ i ∧ i < M) (hN : 0 < N) (hu : ∀ i, u = some i → 1 ≤ i) :
    ∃ h : Nat → Nat → Nat → α,
      (∀ b i, h b 0 i = z b i ∧ ∀ t, h b (t + 1) i = ∑ k ∈ Finset.range M, Av b i k * h b t k + v b t i) ∧
      Lti.stateSpace A x Bm none D zi u (some i) =
        .ok (t2 B N fun b t => h b t (if i < 0 then (i + M).toNat else i.toNat) + d b t 0,
          if zi.isSome then some (t2 B M fun b m => h b N m) else none) := by
  have hu' : 1 ≤ u.getD (roundSqrt N) := by
    cases u with
    | none => have := Lti.roundSqrt_pos hN; simp only [Option.getD_none]; omega
    | some i => exact hu i rfl
  refine ⟨fun b => vecRec M (fun _ => Av b) (z b) (v b), fun b i => ⟨rfl, fun t => rfl⟩, ?_⟩
  refine Lti.stateSpaceWith_idx hA hB hD hz hN hi _ (fun _ _ => rfl) (fun Bx hBx => ?_) fun Bx hBx => ?_
  · exact Lti.stateSpaceRecursion_layout hA hBx z _ none trivial (by omega) hN hu'
  · exact Lti.stateSpaceRecursion_layout hA hBx z _ (some i) hi (by omega) hN hu'

example := C08_state_space_out_idx_partial (B := 3) (N := 5) (M := 2) (u := some 2) (i := -1) (MatVals.batched fun b i k => (b : ℤ) + i - k)
  (LtiInput.batchVec (fun b k => (b : ℤ) - k) fun b t => (b : ℤ) * t) (LtiFeed.scalar 7 _) (InitState.full fun b k => (b : ℤ) + k)
  (by decide) (by decide) (by simp)

/-- An output matrix and an output index together are rejected. -/
theorem C08_rejects_C_and_out_idx (A x C : Tensor α) (Bm D zi : Option (Tensor α)) (u : Option Int) (i : Int) :
    Fails (Lti.stateSpace A x Bm (some C) D zi u (some i)) := by
  unfold Lti.stateSpace Lti.stateSpaceWith
  exact fails_check fun _ => fails_check fun _ => fails_check fun _ => fails_check fun _ => fails_check fun h => by
    rcases h with h | h <;> cases h

/-- Coinciding sizes: an input matrix of shape `(M, F)` is rejected when `M = F = batch`, although it is documented. -/
theorem C08_ambiguous_input (M N : Nat) (A : Tensor α) (g : Nat → Nat → α) (x : Nat → Nat → Nat → α)
    (C D zi : Option (Tensor α)) (u : Option Int) (o : Option Int) (hM : A.size (-1) = M) :
    Fails (Lti.stateSpace A (t3 M N M x) (some (t2 M M g)) C D zi u o) := by
  unfold Lti.stateSpace Lti.stateSpaceWith
  refine fails_check fun _ => fails_check fun _ => fails_check fun _ => fails_check fun _ => fails_check fun _ =>
    fails_bind fun _ _ => fails_left ?_
  rw [hM]
  simp only [size_t3_0, Lti.inputTerm, shape_t2, and_self, if_true]
  exact fails_check fun h => absurd h (by simp)

example := C08_ambiguous_input 3 5 (t2 3 3 fun i k => (i : ℤ) - k) (fun i k => (i : ℤ) + k) (fun b t k => (b : ℤ) + t * k) none none none none none
  (by simp)

/-- Coinciding sizes: an output matrix of shape `(P, M)` with `P = batch` is read as one output row per batch item. -/
theorem C08_ambiguous_output :
    Lti.stateSpace (t2 1 1 fun _ _ => (0 : ℤ)) (t3 2 1 1 fun _ _ _ => 0) none (some (t2 2 1 fun p _ => (p : ℤ) + 1)) none
      (some (t2 2 1 fun _ _ => 1)) none none ≠
      .ok (t3 2 1 2 fun _ _ p => (p : ℤ) + 1, some (t2 2 1 fun _ _ => 0)) := by
  intro h
  have h2 := congrArg (fun r => shape? (r.map Prod.fst)) h
  revert h2
  decide +kernel

/-- Non-vacuity: three-dimensional state, two batch items, matrix input and output, scalar initial state. -/
example : ∃ h : Nat → Nat → Nat → ℤ,
    (∀ b i, h b 0 i = (i : ℤ) ∧ ∀ t, h b (t + 1) i = ∑ k ∈ Finset.range 3, ((i : ℤ) - k) * h b t k +
      ∑ f ∈ Finset.range 2, ((i : ℤ) + f) * ((b : ℤ) + t * f)) ∧
    Lti.stateSpace (t2 3 3 fun i j => (i : ℤ) - j) (t3 2 7 2 fun b t f => (b : ℤ) + t * f)
      (some (t2 3 2 fun i f => (i : ℤ) + f)) (some (t2 4 3 fun p m => (p : ℤ) * m)) (some (t2 4 2 fun p f => (p : ℤ) - f))
      (some (t1 3 fun i => (i : ℤ))) none none =
      .ok (t3 2 7 4 fun b t p => ∑ m ∈ Finset.range 3, ((p : ℤ) * m) * h b t m +
        ∑ f ∈ Finset.range 2, ((p : ℤ) - f) * ((b : ℤ) + t * f), some (t2 2 3 fun b m => h b 7 m)) :=
  C08_state_space_partial (MatVals.shared _) (LtiInput.mat 2 _ _ (by decide)) (LtiReadout.mat 4 _ (by decide))
    (LtiFeed.mat 4 2 _ _ (by decide)) (InitState.shared _) (by decide) (by decide) (by simp)

end Props
