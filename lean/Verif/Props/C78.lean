import Verif.Spec.Connect
import Verif.Props.C08
import Verif.Props.C09

/-!
# C78: systems in series and side by side

Two state-space systems, one after the other or side by side, are one system whose matrices have blocks (Verif/Spec/Connect.lean).
-/

namespace Props
open Torch Torch.Tensor Spec Phil
variable {α : Type} [CommRing α] [StarRing α]

/-- **C78, `lti.state_space` in series**: passing the output of one system to another gives the output of the system with the blocks
`A = [[A₁, 0], [B₂ C₁, A₂]]`, `B = [[B₁], [B₂ D₁]]`, `C = [D₂ C₁, C₂]`, `D = D₂ D₁`; the states of both systems are its states. -/
theorem C78_lti_series {B N M₁ M₂ F Q P : Nat} (A₁ B₁ C₁ D₁ A₂ B₂ C₂ D₂ : Nat → Nat → Nat → α) (z₁ z₂ : Nat → Nat → α) (x : Nat → Nat → Nat → α)
    {k k₁ k₂ : Option Int} (hM₁ : 0 < M₁) (hM₂ : 0 < M₂) (hN : 0 < N)
    (hk : ∀ i, k = some i → 1 ≤ i) (hk₁ : ∀ i, k₁ = some i → 1 ≤ i) (hk₂ : ∀ i, k₂ = some i → 1 ≤ i) :
    ∃ v y f₁ f₂,
      Lti.stateSpace (t3 B M₁ M₁ A₁) (t3 B N F x) (some (t3 B M₁ F B₁)) (some (t3 B Q M₁ C₁)) (some (t3 B Q F D₁)) (some (t2 B (M₁) z₁)) k₁ none =
        .ok (t3 B N Q v, some (t2 B M₁ f₁)) ∧
      Lti.stateSpace (t3 B M₂ M₂ A₂) (t3 B N Q v) (some (t3 B M₂ Q B₂)) (some (t3 B P M₂ C₂)) (some (t3 B P Q D₂)) (some (t2 B (M₂) z₂)) k₂ none =
        .ok (t3 B N P y, some (t2 B M₂ f₂)) ∧
      Lti.stateSpace (t3 B (M₁ + M₂) (M₁ + M₂) (fun b => lowerBlocks M₁ (A₁ b) (matProd Q (B₂ b) (C₁ b)) (A₂ b))) (t3 B N F x)
        (some (t3 B (M₁ + M₂) F (fun b => above M₁ (B₁ b) (matProd Q (B₂ b) (D₁ b)))))
        (some (t3 B P (M₁ + M₂) (fun b => beside M₁ (matProd Q (D₂ b) (C₁ b)) (C₂ b))))
        (some (t3 B P F (fun b => matProd Q (D₂ b) (D₁ b)))) (some (t2 B (M₁ + M₂) fun b => joined M₁ (z₁ b) (z₂ b))) k none =
        .ok (t3 B N P y, some (t2 B (M₁ + M₂) fun b => joined M₁ (f₁ b) (f₂ b))) := by
  obtain ⟨s, hs, e⟩ := C08_state_space_partial (B := B) (.batched A₁) (.batchMat F B₁ x) (.batchMat Q C₁) (.batchMat Q F D₁ x) (.full z₁) hM₁ hN hk₁
  obtain ⟨r, hr, e'⟩ := C08_state_space_partial (B := B) (.batched A₂)
    (.batchMat Q B₂ fun b t q => ∑ k ∈ Finset.range M₁, C₁ b q k * s b t k + ∑ f ∈ Finset.range F, D₁ b q f * x b t f)
    (.batchMat P C₂) (.batchMat P Q D₂ _) (.full z₂) hM₂ hN hk₂
  obtain ⟨w, hw, e''⟩ := C08_state_space_partial (B := B) (M := M₁ + M₂) (.batched (fun b => lowerBlocks M₁ (A₁ b) (matProd Q (B₂ b) (C₁ b)) (A₂ b)))
    (.batchMat F (fun b => above M₁ (B₁ b) (matProd Q (B₂ b) (D₁ b))) x) (.batchMat P (fun b => beside M₁ (matProd Q (D₂ b) (C₁ b)) (C₂ b)))
    (.batchMat P F (fun b => matProd Q (D₂ b) (D₁ b)) x) (.full fun b => joined M₁ (z₁ b) (z₂ b)) (by omega) hN hk
  rw [signal, Option.isSome_some, if_pos rfl] at e e' e''
  have st : ∀ b t m, w b t m = joined M₁ (s b t) (r b t) m := by
    intro b t
    induction t with
    | zero =>
      intro m
      rw [(hw b m).1]; unfold joined
      split_ifs
      · exact (hs b m).1.symm
      · exact (hr b (m - M₁)).1.symm
    | succ t ih =>
      intro m
      rw [(hw b m).2, Finset.sum_congr rfl fun k _ => by rw [ih k]]
      rw [series_step]; unfold joined
      split_ifs
      · exact ((hs b m).2 t).symm
      · exact ((hr b (m - M₁)).2 t).symm
  refine ⟨_, _, fun b => s b N, fun b => r b N, e, e', e''.trans (Lti.ok_pair ?_ ?_)⟩
  · refine t3_congr (α := α) rfl rfl rfl fun b t p _ _ _ => ?_
    rw [Finset.sum_congr rfl fun k _ => by rw [st b t k], beside, sum_joined, sum_matProd, sum_matProd]
    simp only [mul_add, Finset.sum_add_distrib]
    ring
  · exact congrArg some (t2_congr rfl rfl fun b m _ _ => st b N m)

/-- **C78, `lti.state_space` side by side**: the sum of the outputs of two systems is the output of the system with the blocks
`A = [[A₁, 0], [0, A₂]]`, `B = [[B₁], [B₂]]`, `C = [C₁, C₂]`, `D = D₁ + D₂`. -/
theorem C78_lti_parallel {B N M₁ M₂ F P : Nat} (A₁ B₁ C₁ D₁ A₂ B₂ C₂ D₂ : Nat → Nat → Nat → α) (z₁ z₂ : Nat → Nat → α) (x : Nat → Nat → Nat → α)
    {k k₁ k₂ : Option Int} (hM₁ : 0 < M₁) (hM₂ : 0 < M₂) (hN : 0 < N)
    (hk : ∀ i, k = some i → 1 ≤ i) (hk₁ : ∀ i, k₁ = some i → 1 ≤ i) (hk₂ : ∀ i, k₂ = some i → 1 ≤ i) :
    ∃ y₁ y₂ f₁ f₂,
      Lti.stateSpace (t3 B M₁ M₁ A₁) (t3 B N F x) (some (t3 B M₁ F B₁)) (some (t3 B P M₁ C₁)) (some (t3 B P F D₁)) (some (t2 B (M₁) z₁)) k₁ none =
        .ok (t3 B N P y₁, some (t2 B M₁ f₁)) ∧
      Lti.stateSpace (t3 B M₂ M₂ A₂) (t3 B N F x) (some (t3 B M₂ F B₂)) (some (t3 B P M₂ C₂)) (some (t3 B P F D₂)) (some (t2 B (M₂) z₂)) k₂ none =
        .ok (t3 B N P y₂, some (t2 B M₂ f₂)) ∧
      Lti.stateSpace (t3 B (M₁ + M₂) (M₁ + M₂) (fun b => lowerBlocks M₁ (A₁ b) (fun _ _ => 0) (A₂ b))) (t3 B N F x)
        (some (t3 B (M₁ + M₂) F (fun b => above M₁ (B₁ b) (B₂ b))))
        (some (t3 B P (M₁ + M₂) (fun b => beside M₁ (C₁ b) (C₂ b))))
        (some (t3 B P F (fun b p f => D₁ b p f + D₂ b p f))) (some (t2 B (M₁ + M₂) fun b => joined M₁ (z₁ b) (z₂ b))) k none =
        .ok (t3 B N P fun b t p => y₁ b t p + y₂ b t p, some (t2 B (M₁ + M₂) fun b => joined M₁ (f₁ b) (f₂ b))) := by
  obtain ⟨s, hs, e⟩ := C08_state_space_partial (B := B) (.batched A₁) (.batchMat F B₁ x) (.batchMat P C₁) (.batchMat P F D₁ x) (.full z₁) hM₁ hN hk₁
  obtain ⟨r, hr, e'⟩ := C08_state_space_partial (B := B) (.batched A₂) (.batchMat F B₂ x) (.batchMat P C₂) (.batchMat P F D₂ x) (.full z₂) hM₂ hN hk₂
  obtain ⟨w, hw, e''⟩ := C08_state_space_partial (B := B) (M := M₁ + M₂) (.batched (fun b => lowerBlocks M₁ (A₁ b) (fun _ _ => 0) (A₂ b)))
    (.batchMat F (fun b => above M₁ (B₁ b) (B₂ b)) x) (.batchMat P (fun b => beside M₁ (C₁ b) (C₂ b)))
    (.batchMat P F (fun b p f => D₁ b p f + D₂ b p f) x) (.full fun b => joined M₁ (z₁ b) (z₂ b)) (by omega) hN hk
  rw [signal, Option.isSome_some, if_pos rfl] at e e' e''
  have st : ∀ b t m, w b t m = joined M₁ (s b t) (r b t) m := by
    intro b t
    induction t with
    | zero =>
      intro m
      rw [(hw b m).1]; unfold joined
      split_ifs
      · exact (hs b m).1.symm
      · exact (hr b (m - M₁)).1.symm
    | succ t ih =>
      intro m
      rw [(hw b m).2, Finset.sum_congr rfl fun k _ => by rw [ih k]]
      rw [parallel_step]; unfold joined
      split_ifs
      · exact ((hs b m).2 t).symm
      · exact ((hr b (m - M₁)).2 t).symm
  refine ⟨_, _, fun b => s b N, fun b => r b N, e, e', e''.trans (Lti.ok_pair ?_ ?_)⟩
  · refine t3_congr (α := α) rfl rfl rfl fun b t p _ _ _ => ?_
    rw [Finset.sum_congr rfl fun k _ => by rw [st b t k], beside, sum_joined]
    simp only [add_mul, Finset.sum_add_distrib]
    ring
  · exact congrArg some (t2_congr rfl rfl fun b m _ _ => st b N m)

/-- **C78, `lpv.state_space` in series**: passing the output of one system to another gives the output of the system with the blocks
`A = [[A₁, 0], [B₂ C₁, A₂]]`, `B = [[B₁], [B₂ D₁]]`, `C = [D₂ C₁, C₂]`, `D = D₂ D₁`; the states of both systems are its states. -/
theorem C78_lpv_series {B N M₁ M₂ F Q P : Nat} (A₁ B₁ C₁ D₁ A₂ B₂ C₂ D₂ : Nat → Nat → Nat → Nat → α) (z₁ z₂ : Nat → Nat → α) (x : Nat → Nat → Nat → α)
    {k k₁ k₂ : Option Int} (hB : 0 < B) (hM₁ : 0 < M₁) (hM₂ : 0 < M₂) (hN : 0 < N)
    (hk : FilterUnroll (M₁ + M₂) N k) (hk₁ : FilterUnroll M₁ N k₁) (hk₂ : FilterUnroll M₂ N k₂) :
    ∃ v y f₁ f₂,
      Lpv.stateSpace (t4 B N M₁ M₁ A₁) (t3 B N F x) (some (t4 B N M₁ F B₁)) (some (t4 B N Q M₁ C₁)) (some (t4 B N Q F D₁)) (some (t2 B (M₁) z₁)) k₁ none =
        .ok (t3 B N Q v, some (t2 B M₁ f₁)) ∧
      Lpv.stateSpace (t4 B N M₂ M₂ A₂) (t3 B N Q v) (some (t4 B N M₂ Q B₂)) (some (t4 B N P M₂ C₂)) (some (t4 B N P Q D₂)) (some (t2 B (M₂) z₂)) k₂ none =
        .ok (t3 B N P y, some (t2 B M₂ f₂)) ∧
      Lpv.stateSpace (t4 B N (M₁ + M₂) (M₁ + M₂) (fun b t => lowerBlocks M₁ (A₁ b t) (matProd Q (B₂ b t) (C₁ b t)) (A₂ b t))) (t3 B N F x)
        (some (t4 B N (M₁ + M₂) F (fun b t => above M₁ (B₁ b t) (matProd Q (B₂ b t) (D₁ b t)))))
        (some (t4 B N P (M₁ + M₂) (fun b t => beside M₁ (matProd Q (D₂ b t) (C₁ b t)) (C₂ b t))))
        (some (t4 B N P F (fun b t => matProd Q (D₂ b t) (D₁ b t)))) (some (t2 B (M₁ + M₂) fun b => joined M₁ (z₁ b) (z₂ b))) k none =
        .ok (t3 B N P y, some (t2 B (M₁ + M₂) fun b => joined M₁ (f₁ b) (f₂ b))) := by
  obtain ⟨s, hs, e⟩ := C09_state_space_partial (B := B) (.batched A₁) (.batchTimeMat F B₁ x) (.batchTimeMat Q C₁) (.batchTimeMat Q F D₁ x) (.full z₁) hB hM₁ hN hk₁
  obtain ⟨r, hr, e'⟩ := C09_state_space_partial (B := B) (.batched A₂)
    (.batchTimeMat Q B₂ fun b t q => ∑ k ∈ Finset.range M₁, C₁ b t q k * s b t k + ∑ f ∈ Finset.range F, D₁ b t q f * x b t f)
    (.batchTimeMat P C₂) (.batchTimeMat P Q D₂ _) (.full z₂) hB hM₂ hN hk₂
  obtain ⟨w, hw, e''⟩ := C09_state_space_partial (B := B) (M := M₁ + M₂) (.batched (fun b t => lowerBlocks M₁ (A₁ b t) (matProd Q (B₂ b t) (C₁ b t)) (A₂ b t)))
    (.batchTimeMat F (fun b t => above M₁ (B₁ b t) (matProd Q (B₂ b t) (D₁ b t))) x) (.batchTimeMat P (fun b t => beside M₁ (matProd Q (D₂ b t) (C₁ b t)) (C₂ b t)))
    (.batchTimeMat P F (fun b t => matProd Q (D₂ b t) (D₁ b t)) x) (.full fun b => joined M₁ (z₁ b) (z₂ b)) hB (by omega) hN hk
  rw [signal, Option.isSome_some, if_pos rfl] at e e' e''
  have st : ∀ b t m, w b t m = joined M₁ (s b t) (r b t) m := by
    intro b t
    induction t with
    | zero =>
      intro m
      rw [(hw b m).1]; unfold joined
      split_ifs
      · exact (hs b m).1.symm
      · exact (hr b (m - M₁)).1.symm
    | succ t ih =>
      intro m
      rw [(hw b m).2, Finset.sum_congr rfl fun k _ => by rw [ih k]]
      rw [series_step]; unfold joined
      split_ifs
      · exact ((hs b m).2 t).symm
      · exact ((hr b (m - M₁)).2 t).symm
  refine ⟨_, _, fun b => s b N, fun b => r b N, e, e', e''.trans (Lti.ok_pair ?_ ?_)⟩
  · refine t3_congr (α := α) rfl rfl rfl fun b t p _ _ _ => ?_
    rw [Finset.sum_congr rfl fun k _ => by rw [st b t k], beside, sum_joined, sum_matProd, sum_matProd]
    simp only [mul_add, Finset.sum_add_distrib]
    ring
  · exact congrArg some (t2_congr rfl rfl fun b m _ _ => st b N m)

/-- **C78, `lpv.state_space` side by side**: the sum of the outputs of two systems is the output of the system with the blocks
`A = [[A₁, 0], [0, A₂]]`, `B = [[B₁], [B₂]]`, `C = [C₁, C₂]`, `D = D₁ + D₂`. -/
theorem C78_lpv_parallel {B N M₁ M₂ F P : Nat} (A₁ B₁ C₁ D₁ A₂ B₂ C₂ D₂ : Nat → Nat → Nat → Nat → α) (z₁ z₂ : Nat → Nat → α) (x : Nat → Nat → Nat → α)
    {k k₁ k₂ : Option Int} (hB : 0 < B) (hM₁ : 0 < M₁) (hM₂ : 0 < M₂) (hN : 0 < N)
    (hk : FilterUnroll (M₁ + M₂) N k) (hk₁ : FilterUnroll M₁ N k₁) (hk₂ : FilterUnroll M₂ N k₂) :
    ∃ y₁ y₂ f₁ f₂,
      Lpv.stateSpace (t4 B N M₁ M₁ A₁) (t3 B N F x) (some (t4 B N M₁ F B₁)) (some (t4 B N P M₁ C₁)) (some (t4 B N P F D₁)) (some (t2 B (M₁) z₁)) k₁ none =
        .ok (t3 B N P y₁, some (t2 B M₁ f₁)) ∧
      Lpv.stateSpace (t4 B N M₂ M₂ A₂) (t3 B N F x) (some (t4 B N M₂ F B₂)) (some (t4 B N P M₂ C₂)) (some (t4 B N P F D₂)) (some (t2 B (M₂) z₂)) k₂ none =
        .ok (t3 B N P y₂, some (t2 B M₂ f₂)) ∧
      Lpv.stateSpace (t4 B N (M₁ + M₂) (M₁ + M₂) (fun b t => lowerBlocks M₁ (A₁ b t) (fun _ _ => 0) (A₂ b t))) (t3 B N F x)
        (some (t4 B N (M₁ + M₂) F (fun b t => above M₁ (B₁ b t) (B₂ b t))))
        (some (t4 B N P (M₁ + M₂) (fun b t => beside M₁ (C₁ b t) (C₂ b t))))
        (some (t4 B N P F (fun b t p f => D₁ b t p f + D₂ b t p f))) (some (t2 B (M₁ + M₂) fun b => joined M₁ (z₁ b) (z₂ b))) k none =
        .ok (t3 B N P fun b t p => y₁ b t p + y₂ b t p, some (t2 B (M₁ + M₂) fun b => joined M₁ (f₁ b) (f₂ b))) := by
  obtain ⟨s, hs, e⟩ := C09_state_space_partial (B := B) (.batched A₁) (.batchTimeMat F B₁ x) (.batchTimeMat P C₁) (.batchTimeMat P F D₁ x) (.full z₁) hB hM₁ hN hk₁
  obtain ⟨r, hr, e'⟩ := C09_state_space_partial (B := B) (.batched A₂) (.batchTimeMat F B₂ x) (.batchTimeMat P C₂) (.batchTimeMat P F D₂ x) (.full z₂) hB hM₂ hN hk₂
  obtain ⟨w, hw, e''⟩ := C09_state_space_partial (B := B) (M := M₁ + M₂) (.batched (fun b t => lowerBlocks M₁ (A₁ b t) (fun _ _ => 0) (A₂ b t)))
    (.batchTimeMat F (fun b t => above M₁ (B₁ b t) (B₂ b t)) x) (.batchTimeMat P (fun b t => beside M₁ (C₁ b t) (C₂ b t)))
    (.batchTimeMat P F (fun b t p f => D₁ b t p f + D₂ b t p f) x) (.full fun b => joined M₁ (z₁ b) (z₂ b)) hB (by omega) hN hk
  rw [signal, Option.isSome_some, if_pos rfl] at e e' e''
  have st : ∀ b t m, w b t m = joined M₁ (s b t) (r b t) m := by
    intro b t
    induction t with
    | zero =>
      intro m
      rw [(hw b m).1]; unfold joined
      split_ifs
      · exact (hs b m).1.symm
      · exact (hr b (m - M₁)).1.symm
    | succ t ih =>
      intro m
      rw [(hw b m).2, Finset.sum_congr rfl fun k _ => by rw [ih k]]
      rw [parallel_step]; unfold joined
      split_ifs
      · exact ((hs b m).2 t).symm
      · exact ((hr b (m - M₁)).2 t).symm
  refine ⟨_, _, fun b => s b N, fun b => r b N, e, e', e''.trans (Lti.ok_pair ?_ ?_)⟩
  · refine t3_congr (α := α) rfl rfl rfl fun b t p _ _ _ => ?_
    rw [Finset.sum_congr rfl fun k _ => by rw [st b t k], beside, sum_joined]
    simp only [add_mul, Finset.sum_add_distrib]
    ring
  · exact congrArg some (t2_congr rfl rfl fun b m _ _ => st b N m)

example := C78_lti_series (B := 2) (N := 7) (M₁ := 2) (M₂ := 3) (F := 1) (Q := 2) (P := 1) (fun _ i j => (i : ℤ) - j) (fun _ i _ => (i : ℤ))
  (fun b i j => (b : ℤ) + i * j) (fun _ _ _ => 1) (fun _ i j => (i : ℤ) + j) (fun _ _ j => (j : ℤ)) (fun _ _ j => (j : ℤ)) (fun _ _ _ => 2)
  (fun b m => (b : ℤ) + m) (fun b m => (b : ℤ) - m) (fun b t _ => (b : ℤ) * t) (k := none) (k₁ := some 2) (k₂ := some 3)
  (by decide) (by decide) (by decide) (by simp) (by simp) (by simp)

example := C78_lti_parallel (B := 2) (N := 7) (M₁ := 2) (M₂ := 3) (F := 1) (P := 1) (fun _ i j => (i : ℤ) - j) (fun _ i _ => (i : ℤ))
  (fun b i j => (b : ℤ) + i * j) (fun _ _ _ => 1) (fun _ i j => (i : ℤ) + j) (fun _ _ j => (j : ℤ)) (fun _ _ j => (j : ℤ)) (fun _ _ _ => 2)
  (fun b m => (b : ℤ) + m) (fun b m => (b : ℤ) - m) (fun b t _ => (b : ℤ) * t) (k := none) (k₁ := some 2) (k₂ := some 3)
  (by decide) (by decide) (by decide) (by simp) (by simp) (by simp)

example := C78_lpv_series (B := 2) (N := 7) (M₁ := 2) (M₂ := 3) (F := 1) (Q := 2) (P := 1) (fun _ t i j => (i : ℤ) - j * t)
  (fun _ _ i _ => (i : ℤ)) (fun b _ i j => (b : ℤ) + i * j) (fun _ _ _ _ => 1) (fun _ t i j => (i : ℤ) + j + t) (fun _ _ _ j => (j : ℤ))
  (fun _ _ _ j => (j : ℤ)) (fun _ _ _ _ => 2) (fun b m => (b : ℤ) + m) (fun b m => (b : ℤ) - m) (fun b t _ => (b : ℤ) * t)
  (k := some 1) (k₁ := some 2) (k₂ := some 3) (by decide) (by decide) (by decide) (by decide)
  (by unfold FilterUnroll GoodUnroll FewPrimes; decide +kernel) (by unfold FilterUnroll GoodUnroll FewPrimes; decide +kernel)
  (by unfold FilterUnroll GoodUnroll FewPrimes; decide +kernel)

example := C78_lpv_parallel (B := 2) (N := 7) (M₁ := 2) (M₂ := 3) (F := 1) (P := 1) (fun _ t i j => (i : ℤ) - j * t)
  (fun _ _ i _ => (i : ℤ)) (fun b _ i j => (b : ℤ) + i * j) (fun _ _ _ _ => 1) (fun _ t i j => (i : ℤ) + j + t) (fun _ _ _ j => (j : ℤ))
  (fun _ _ _ j => (j : ℤ)) (fun _ _ _ _ => 2) (fun b m => (b : ℤ) + m) (fun b m => (b : ℤ) - m) (fun b t _ => (b : ℤ) * t)
  (k := some 1) (k₁ := some 2) (k₂ := some 3) (by decide) (by decide) (by decide) (by decide)
  (by unfold FilterUnroll GoodUnroll FewPrimes; decide +kernel) (by unfold FilterUnroll GoodUnroll FewPrimes; decide +kernel)
  (by unfold FilterUnroll GoodUnroll FewPrimes; decide +kernel)

end Props
