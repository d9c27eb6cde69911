import Verif.Spec.Intertwine
import Verif.Props.C08
import Verif.Props.C09

/-!
# C77: change of state coordinates

If a matrix `T` takes the states of one system to those of another (`T A = A' T`, `T B = B'`, `C = C' T`), both systems have the same
outputs from states that correspond.  `T` need be neither square nor invertible, and may vary with time.
-/

namespace Props
open Torch Torch.Tensor Spec Phil
variable {α : Type} [CommRing α] [StarRing α]

/-- **C77, `lti.state_space`**. -/
theorem C77_lti_state_space {B N M M' F P : Nat} {T A A' Bm Bm' C C' : Nat → Nat → Nat → α} (D : Nat → Nat → Nat → α) (z : Nat → Nat → α)
    (x : Nat → Nat → Nat → α) {k k' : Option Int}
    (h : ∀ b, b < B → Intertwines M M' F P (T b) (T b) (A b) (A' b) (Bm b) (Bm' b) (C b) (C' b))
    (hM : 0 < M) (hM' : 0 < M') (hN : 0 < N) (hk : ∀ i, k = some i → 1 ≤ i) (hk' : ∀ i, k' = some i → 1 ≤ i) :
    ∃ y zf,
      Lti.stateSpace (t3 B M M A) (t3 B N F x) (some (t3 B M F Bm)) (some (t3 B P M C)) (some (t3 B P F D)) (some (t2 B M z)) k none =
        .ok (t3 B N P y, some (t2 B M zf)) ∧
      Lti.stateSpace (t3 B M' M' A') (t3 B N F x) (some (t3 B M' F Bm')) (some (t3 B P M' C')) (some (t3 B P F D))
        (some (t2 B M' fun b m => ∑ l ∈ Finset.range M, T b m l * z b l)) k' none =
        .ok (t3 B N P y, some (t2 B M' fun b m => ∑ l ∈ Finset.range M, T b m l * zf b l)) := by
  obtain ⟨s, hs, e⟩ := C08_state_space_partial (B := B) (.batched A) (.batchMat F Bm x) (.batchMat P C) (.batchMat P F D x) (.full z) hM hN hk
  obtain ⟨s', hs', e'⟩ := C08_state_space_partial (B := B) (.batched A') (.batchMat F Bm' x) (.batchMat P C') (.batchMat P F D x)
    (.full fun b m => ∑ l ∈ Finset.range M, T b m l * z b l) hM' hN hk'
  have st : ∀ b, b < B → ∀ t m, m < M' → s' b t m = ∑ l ∈ Finset.range M, T b m l * s b t l := by
    intro b hb t
    induction t with
    | zero => intro m _; rw [(hs' b m).1]; exact Finset.sum_congr rfl fun l _ => by rw [(hs b l).1]
    | succ t ih =>
      intro m hm
      rw [(hs' b m).2, (h b hb).step (s := s b t) (x := x b t) ih m hm]
      exact Finset.sum_congr rfl fun l _ => by rw [(hs b l).2]
  refine ⟨fun b t p => ∑ m ∈ Finset.range M, C b p m * s b t m + ∑ f ∈ Finset.range F, D b p f * x b t f, fun b => s b N, e, ?_⟩
  refine e'.trans (Lti.ok_pair ?_ ?_)
  · rw [signal]
    refine t3_congr (α := α) rfl rfl rfl fun b t p hb _ hp => ?_
    rw [(h b hb).out (st b hb t) p hp]
  · exact congrArg some (t2_congr rfl rfl fun b m hb hm => st b hb N m hm)

/-- **C77, `lpv.state_space`**, with coordinates that may change from sample to sample. -/
theorem C77_lpv_state_space {B N M M' F P : Nat} {T A A' Bm Bm' C C' : Nat → Nat → Nat → Nat → α} (D : Nat → Nat → Nat → Nat → α)
    (z : Nat → Nat → α) (x : Nat → Nat → Nat → α) {k k' : Option Int}
    (h : ∀ b, b < B → ∀ t, t < N →
      Intertwines M M' F P (T b t) (T b (t + 1)) (A b t) (A' b t) (Bm b t) (Bm' b t) (C b t) (C' b t))
    (hB : 0 < B) (hM : 0 < M) (hM' : 0 < M') (hN : 0 < N) (hk : FilterUnroll M N k) (hk' : FilterUnroll M' N k') :
    ∃ y zf,
      Lpv.stateSpace (t4 B N M M A) (t3 B N F x) (some (t4 B N M F Bm)) (some (t4 B N P M C)) (some (t4 B N P F D)) (some (t2 B M z)) k none =
        .ok (t3 B N P y, some (t2 B M zf)) ∧
      Lpv.stateSpace (t4 B N M' M' A') (t3 B N F x) (some (t4 B N M' F Bm')) (some (t4 B N P M' C')) (some (t4 B N P F D))
        (some (t2 B M' fun b m => ∑ l ∈ Finset.range M, T b 0 m l * z b l)) k' none =
        .ok (t3 B N P y, some (t2 B M' fun b m => ∑ l ∈ Finset.range M, T b N m l * zf b l)) := by
  obtain ⟨s, hs, e⟩ := C09_state_space_partial (B := B) (.batched A) (.batchTimeMat F Bm x) (.batchTimeMat P C) (.batchTimeMat P F D x)
    (.full z) hB hM hN hk
  obtain ⟨s', hs', e'⟩ := C09_state_space_partial (B := B) (.batched A') (.batchTimeMat F Bm' x) (.batchTimeMat P C')
    (.batchTimeMat P F D x) (.full fun b m => ∑ l ∈ Finset.range M, T b 0 m l * z b l) hB hM' hN hk'
  have st : ∀ b, b < B → ∀ t, t ≤ N → ∀ m, m < M' → s' b t m = ∑ l ∈ Finset.range M, T b t m l * s b t l := by
    intro b hb t
    induction t with
    | zero => intro _ m _; rw [(hs' b m).1]; exact Finset.sum_congr rfl fun l _ => by rw [(hs b l).1]
    | succ t ih =>
      intro ht m hm
      rw [(hs' b m).2, (h b hb t ht).step (s := s b t) (x := x b t) (ih (by omega)) m hm]
      exact Finset.sum_congr rfl fun l _ => by rw [(hs b l).2]
  refine ⟨fun b t p => ∑ m ∈ Finset.range M, C b t p m * s b t m + ∑ f ∈ Finset.range F, D b t p f * x b t f, fun b => s b N, e, ?_⟩
  refine e'.trans (Lti.ok_pair ?_ ?_)
  · rw [signal]
    refine t3_congr (α := α) rfl rfl rfl fun b t p hb ht hp => ?_
    rw [(h b hb t ht).out (st b hb t (by omega)) p hp]
  · exact congrArg some (t2_congr rfl rfl fun b m hb hm => st b hb N le_rfl m hm)

/-- A system with two equal states summed into one. -/
example := C77_lti_state_space (B := 2) (N := 7) (M := 2) (M' := 1) (F := 1) (P := 1) (T := fun _ _ _ => (1 : ℤ))
  (A := fun _ i j => if i = j then 3 else 0) (A' := fun _ _ _ => 3) (Bm := fun _ i _ => i + 1) (Bm' := fun _ _ _ => 3)
  (C := fun _ _ _ => 5) (C' := fun _ _ _ => 5) (fun _ _ _ => 1) (fun b m => (b : ℤ) + m) (fun b t _ => (b : ℤ) * t) (k := some 2) (k' := none)
  (fun _ _ => ⟨by decide, by intro i _ f _; simp [Finset.sum_range_succ], by intro p _ j _; simp⟩) (by decide) (by decide) (by decide)
  (by simp) (by simp)

/-- Coordinates that change sign with every sample. -/
example := C77_lpv_state_space (B := 2) (N := 7) (M := 1) (M' := 1) (F := 1) (P := 1) (T := fun _ t _ _ => (-1 : ℤ) ^ t)
  (A := fun _ t _ _ => t) (A' := fun _ t _ _ => -t) (Bm := fun _ _ _ _ => 1) (Bm' := fun _ t _ _ => (-1) ^ (t + 1))
  (C := fun _ _ _ _ => 1) (C' := fun _ t _ _ => (-1) ^ t) (fun _ _ _ _ => 1) (fun b m => (b : ℤ) + m) (fun b t _ => (b : ℤ) * t)
  (k := some 2) (k' := some 3)
  (fun _ _ t _ => ⟨fun i _ j _ => by simp [pow_succ, mul_comm], fun i _ f _ => by simp, fun p _ j _ => by simp [← mul_pow]⟩)
  (by decide) (by decide) (by decide) (by decide)
  (by unfold FilterUnroll GoodUnroll FewPrimes; decide +kernel) (by unfold FilterUnroll GoodUnroll FewPrimes; decide +kernel)

end Props
