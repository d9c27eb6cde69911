import Verif.Spec.Connect
import Verif.Props.C08
import Verif.Props.C09

/-!
# C85: inverse systems and feedback
-/

namespace Props
open Torch Torch.Tensor Spec Phil
variable {α : Type} [CommRing α]

/-- `E (D x) = x`. -/
theorem left_inverse {F P : Nat} {E D : Nat → Nat → α} (h : ∀ i j, i < F → j < F → matProd P E D i j = if i = j then 1 else 0) {x : Nat → α} {j : Nat}
    (hj : j < F) : ∑ q ∈ Finset.range P, E j q * ∑ f ∈ Finset.range F, D q f * x f = x j := by
  rw [← sum_matProd, Finset.sum_congr rfl fun f hf => by rw [h j f hj (Finset.mem_range.1 hf)]]
  simp [hj]

/-- One step of the state of the inverse system. -/
theorem inverse_state {M F P : Nat} (A B C D E : Nat → Nat → α) (s x : Nat → α) (m : Nat) :
    ∑ k ∈ Finset.range M, (A m k - matProd F B (matProd P E C) m k) * s k +
        ∑ q ∈ Finset.range P, matProd F B E m q * (∑ k ∈ Finset.range M, C q k * s k + ∑ f ∈ Finset.range F, D q f * x f) =
      ∑ k ∈ Finset.range M, A m k * s k + ∑ j ∈ Finset.range F, B m j * ∑ q ∈ Finset.range P, E j q * ∑ f ∈ Finset.range F, D q f * x f := by
  simp only [sub_mul, mul_add, Finset.sum_sub_distrib, Finset.sum_add_distrib]
  simp only [sum_matProd]
  ring

/-- The output of the inverse system. -/
theorem inverse_output {M F P : Nat} (C D E : Nat → Nat → α) (s x : Nat → α) (j : Nat) :
    ∑ k ∈ Finset.range M, -matProd P E C j k * s k +
        ∑ q ∈ Finset.range P, E j q * (∑ k ∈ Finset.range M, C q k * s k + ∑ f ∈ Finset.range F, D q f * x f) =
      ∑ q ∈ Finset.range P, E j q * ∑ f ∈ Finset.range F, D q f * x f := by
  simp only [neg_mul, mul_add, Finset.sum_neg_distrib, Finset.sum_add_distrib]
  rw [sum_matProd]
  ring

/-- One step of the state of the closed loop. -/
theorem feedback_state {M F P : Nat} (A B C G : Nat → Nat → α) (s x : Nat → α) (m : Nat) :
    ∑ k ∈ Finset.range M, (A m k + matProd F B (matProd P G C) m k) * s k + ∑ j ∈ Finset.range F, B m j * x j =
      ∑ k ∈ Finset.range M, A m k * s k +
        ∑ j ∈ Finset.range F, B m j * (x j + ∑ p ∈ Finset.range P, G j p * ∑ k ∈ Finset.range M, C p k * s k) := by
  simp only [add_mul, mul_add, Finset.sum_add_distrib]
  simp only [sum_matProd]
  ring

variable [StarRing α]

/-- **C85, `lti.state_space`, inverse**: let `E D = 1`. The system `(A - B E C, B E, -E C, E)`, started in the same state, turns the
output of `(A, B, C, D)` back into the signal, and ends in the same state. -/
theorem C85_lti_inverse {B N M F P : Nat} (A Bm C D E : Nat → Nat → Nat → α) (z : Nat → Nat → α) (x : Nat → Nat → Nat → α) {k k' : Option Int}
    (hM : 0 < M) (hN : 0 < N) (hk : ∀ i, k = some i → 1 ≤ i) (hk' : ∀ i, k' = some i → 1 ≤ i)
    (hE : ∀ b, b < B → ∀ i j, i < F → j < F → matProd P (E b) (D b) i j = if i = j then 1 else 0) :
    ∃ y f,
      Lti.stateSpace (t3 B M M A) (t3 B N F x) (some (t3 B M F Bm)) (some (t3 B P M C)) (some (t3 B P F D)) (some (t2 B M z)) k none =
        .ok (t3 B N P y, some (t2 B M f)) ∧
      Lti.stateSpace (t3 B M M fun b i j => A b i j - matProd F (Bm b) (matProd P (E b) (C b)) i j) (t3 B N P y)
        (some (t3 B M P fun b => matProd F (Bm b) (E b))) (some (t3 B F M fun b i j => -matProd P (E b) (C b) i j)) (some (t3 B F P E))
        (some (t2 B M z)) k' none = .ok (t3 B N F x, some (t2 B M f)) := by
  obtain ⟨s, hs, e⟩ := C08_state_space_partial (B := B) (.batched A) (.batchMat F Bm x) (.batchMat P C) (.batchMat P F D x) (.full z) hM hN hk
  obtain ⟨r, hr, e'⟩ := C08_state_space_partial (B := B) (.batched fun b i j => A b i j - matProd F (Bm b) (matProd P (E b) (C b)) i j)
    (.batchMat P (fun b => matProd F (Bm b) (E b))
      fun b t q => ∑ k ∈ Finset.range M, C b q k * s b t k + ∑ f ∈ Finset.range F, D b q f * x b t f)
    (.batchMat F fun b i j => -matProd P (E b) (C b) i j) (.batchMat F P E _) (.full z) hM hN hk'
  rw [signal, Option.isSome_some, if_pos rfl] at e e'
  have st : ∀ b, b < B → ∀ t, t ≤ N → ∀ m, r b t m = s b t m := by
    intro b hb t
    induction t with
    | zero => intro _ m; rw [(hr b m).1, (hs b m).1]
    | succ t ih =>
      intro ht m
      rw [(hr b m).2, (hs b m).2, Finset.sum_congr rfl fun k _ => by rw [ih (by omega) k], inverse_state]
      exact congrArg₂ (· + ·) rfl (Finset.sum_congr rfl fun j hj => by rw [left_inverse (hE b hb) (Finset.mem_range.1 hj)])
  refine ⟨_, fun b => s b N, e, e'.trans (Lti.ok_pair ?_ ?_)⟩
  · refine t3_congr (α := α) rfl rfl rfl fun b t j hb ht hj => ?_
    rw [Finset.sum_congr rfl fun k _ => by rw [st b hb t (by omega) k], inverse_output, left_inverse (hE b hb) hj]
  · exact congrArg some (t2_congr rfl rfl fun b m hb _ => st b hb N le_rfl m)

/-- **C85, `lti.state_space`, feedback**: the loop in which the system `(A, B, C)` is driven by the signal plus `G` times its own output
has exactly one solution, the output of `(A + B G C, B, C)`; the states are the same too. -/
theorem C85_lti_feedback {B N M F P : Nat} (A Bm C G : Nat → Nat → Nat → α) (z : Nat → Nat → α) (x : Nat → Nat → Nat → α) {k k' : Option Int}
    (hM : 0 < M) (hN : 0 < N) (hk : ∀ i, k = some i → 1 ≤ i) (hk' : ∀ i, k' = some i → 1 ≤ i) :
    ∃ y f,
      Lti.stateSpace (t3 B M M fun b i j => A b i j + matProd F (Bm b) (matProd P (G b) (C b)) i j) (t3 B N F x)
        (some (t3 B M F Bm)) (some (t3 B P M C)) none (some (t2 B M z)) k none = .ok (t3 B N P y, some (t2 B M f)) ∧
      Lti.stateSpace (t3 B M M A) (t3 B N F fun b t j => x b t j + ∑ p ∈ Finset.range P, G b j p * y b t p) (some (t3 B M F Bm))
        (some (t3 B P M C)) none (some (t2 B M z)) k' none = .ok (t3 B N P y, some (t2 B M f)) ∧
      ∀ v y' f', Lti.stateSpace (t3 B M M A) (t3 B N F v) (some (t3 B M F Bm)) (some (t3 B P M C)) none (some (t2 B M z)) k' none =
          .ok (t3 B N P y', f') →
        (∀ b t j, b < B → t < N → j < F → v b t j = x b t j + ∑ p ∈ Finset.range P, G b j p * y' b t p) →
        t3 B N P y' = t3 B N P y ∧ f' = some (t2 B M f) := by
  obtain ⟨s, hs, e⟩ := C08_state_space_partial (B := B) (.batched fun b i j => A b i j + matProd F (Bm b) (matProd P (G b) (C b)) i j)
    (.batchMat F Bm x) (.batchMat P C) (.none _ _) (.full z) hM hN hk
  rw [signal, Option.isSome_some, if_pos rfl] at e
  -- every solution of the loop has the states of the closed system
  have loop : ∀ v y' f', Lti.stateSpace (t3 B M M A) (t3 B N F v) (some (t3 B M F Bm)) (some (t3 B P M C)) none (some (t2 B M z)) k' none =
          .ok (t3 B N P y', f') →
        (∀ b t j, b < B → t < N → j < F → v b t j = x b t j + ∑ p ∈ Finset.range P, G b j p * y' b t p) →
        t3 B N P y' = t3 B N P (fun b t p => ∑ k ∈ Finset.range M, C b p k * s b t k + 0) ∧ f' = some (t2 B M fun b m => s b N m) := by
    intro v y' f' h hv
    obtain ⟨r, hr, e'⟩ := C08_state_space_partial (B := B) (.batched A) (.batchMat F Bm v) (.batchMat P C) (.none _ _) (.full z) hM hN hk'
    rw [signal, Option.isSome_some, if_pos rfl] at e'
    have ey := Prod.mk.inj (Except.ok.inj (h.symm.trans e'))
    have yv : ∀ b t p, b < B → t < N → p < P → y' b t p = ∑ k ∈ Finset.range M, C b p k * r b t k := fun b t p hb ht hp => by
      have := congrArg (fun T : Tensor α => T.get [b, t, p]) ey.1
      rwa [get_t3 hb ht hp, get_t3 hb ht hp, add_zero] at this
    have st : ∀ b, b < B → ∀ t, t ≤ N → ∀ m, r b t m = s b t m := by
      intro b hb t
      induction t with
      | zero => intro _ m; rw [(hr b m).1, (hs b m).1]
      | succ t ih =>
        intro ht m
        rw [(hr b m).2, (hs b m).2, ← Finset.sum_congr rfl fun k _ => by rw [ih (by omega) k], feedback_state]
        refine congrArg₂ (· + ·) rfl (Finset.sum_congr rfl fun j hj => ?_)
        rw [hv b t j hb (by omega) (Finset.mem_range.1 hj)]
        refine congrArg _ (congrArg₂ (· + ·) rfl (Finset.sum_congr rfl fun p hp => ?_))
        rw [yv b t p hb (by omega) (Finset.mem_range.1 hp), Finset.sum_congr rfl fun k _ => by rw [ih (by omega) k]]
    refine ⟨ey.1.trans (t3_congr (α := α) rfl rfl rfl fun b t p hb ht _ => ?_), ey.2.trans (congrArg some (t2_congr rfl rfl fun b m hb _ => st b hb N le_rfl m))⟩
    exact congrArg₂ (· + ·) (Finset.sum_congr rfl fun k _ => by rw [st b hb t (by omega) k]) rfl
  refine ⟨_, fun b => s b N, e, ?_, fun v y' f' h hv => loop v y' f' h hv⟩
  obtain ⟨r, hr, e'⟩ := C08_state_space_partial (B := B) (.batched A)
    (.batchMat F Bm fun b t j => x b t j + ∑ p ∈ Finset.range P, G b j p * (∑ k ∈ Finset.range M, C b p k * s b t k + 0))
    (.batchMat P C) (.none _ _) (.full z) hM hN hk'
  rw [signal, Option.isSome_some, if_pos rfl] at e'
  have st : ∀ b t m, r b t m = s b t m := by
    intro b t
    induction t with
    | zero => intro m; rw [(hr b m).1, (hs b m).1]
    | succ t ih =>
      intro m
      rw [(hr b m).2, (hs b m).2, Finset.sum_congr rfl fun k _ => by rw [ih k], feedback_state]
      simp only [add_zero]
  refine e'.trans (Lti.ok_pair (t3_congr (α := α) rfl rfl rfl fun b t p _ _ _ => ?_) (congrArg some (t2_congr rfl rfl fun b m _ _ => st b N m)))
  exact congrArg₂ (· + ·) (Finset.sum_congr rfl fun k _ => by rw [st b t k]) rfl

/-- **C85, `lpv.state_space`, inverse**: let `E D = 1` at all times. The system `(A - B E C, B E, -E C, E)`, started in the same state, turns the
output of `(A, B, C, D)` back into the signal, and ends in the same state. -/
theorem C85_lpv_inverse {B N M F P : Nat} (A Bm C D E : Nat → Nat → Nat → Nat → α) (z : Nat → Nat → α) (x : Nat → Nat → Nat → α) {k k' : Option Int} (hB : 0 < B)
    (hM : 0 < M) (hN : 0 < N) (hk : FilterUnroll M N k) (hk' : FilterUnroll M N k')
    (hE : ∀ b t, b < B → t < N → ∀ i j, i < F → j < F → matProd P (E b t) (D b t) i j = if i = j then 1 else 0) :
    ∃ y f,
      Lpv.stateSpace (t4 B N M M A) (t3 B N F x) (some (t4 B N M F Bm)) (some (t4 B N P M C)) (some (t4 B N P F D)) (some (t2 B M z)) k none =
        .ok (t3 B N P y, some (t2 B M f)) ∧
      Lpv.stateSpace (t4 B N M M fun b t i j => A b t i j - matProd F (Bm b t) (matProd P (E b t) (C b t)) i j) (t3 B N P y)
        (some (t4 B N M P fun b t => matProd F (Bm b t) (E b t))) (some (t4 B N F M fun b t i j => -matProd P (E b t) (C b t) i j)) (some (t4 B N F P E))
        (some (t2 B M z)) k' none = .ok (t3 B N F x, some (t2 B M f)) := by
  obtain ⟨s, hs, e⟩ := C09_state_space_partial (B := B) (.batched A) (.batchTimeMat F Bm x) (.batchTimeMat P C) (.batchTimeMat P F D x) (.full z) hB hM hN hk
  obtain ⟨r, hr, e'⟩ := C09_state_space_partial (B := B) (.batched fun b t i j => A b t i j - matProd F (Bm b t) (matProd P (E b t) (C b t)) i j)
    (.batchTimeMat P (fun b t => matProd F (Bm b t) (E b t))
      fun b t q => ∑ k ∈ Finset.range M, C b t q k * s b t k + ∑ f ∈ Finset.range F, D b t q f * x b t f)
    (.batchTimeMat F fun b t i j => -matProd P (E b t) (C b t) i j) (.batchTimeMat F P E _) (.full z) hB hM hN hk'
  rw [signal, Option.isSome_some, if_pos rfl] at e e'
  have st : ∀ b, b < B → ∀ t, t ≤ N → ∀ m, r b t m = s b t m := by
    intro b hb t
    induction t with
    | zero => intro _ m; rw [(hr b m).1, (hs b m).1]
    | succ t ih =>
      intro ht m
      rw [(hr b m).2, (hs b m).2, Finset.sum_congr rfl fun k _ => by rw [ih (by omega) k], inverse_state]
      exact congrArg₂ (· + ·) rfl (Finset.sum_congr rfl fun j hj => by rw [left_inverse (hE b t hb (by omega)) (Finset.mem_range.1 hj)])
  refine ⟨_, fun b => s b N, e, e'.trans (Lti.ok_pair ?_ ?_)⟩
  · refine t3_congr (α := α) rfl rfl rfl fun b t j hb ht hj => ?_
    rw [Finset.sum_congr rfl fun k _ => by rw [st b hb t (by omega) k], inverse_output, left_inverse (hE b t hb (by omega)) hj]
  · exact congrArg some (t2_congr rfl rfl fun b m hb _ => st b hb N le_rfl m)

/-- **C85, `lpv.state_space`, feedback**: the loop in which the system `(A, B, C)` is driven by the signal plus `G` times its own output
has exactly one solution, the output of `(A + B G C, B, C)`; the states are the same too. -/
theorem C85_lpv_feedback {B N M F P : Nat} (A Bm C G : Nat → Nat → Nat → Nat → α) (z : Nat → Nat → α) (x : Nat → Nat → Nat → α) {k k' : Option Int} (hB : 0 < B)
    (hM : 0 < M) (hN : 0 < N) (hk : FilterUnroll M N k) (hk' : FilterUnroll M N k') :
    ∃ y f,
      Lpv.stateSpace (t4 B N M M fun b t i j => A b t i j + matProd F (Bm b t) (matProd P (G b t) (C b t)) i j) (t3 B N F x)
        (some (t4 B N M F Bm)) (some (t4 B N P M C)) none (some (t2 B M z)) k none = .ok (t3 B N P y, some (t2 B M f)) ∧
      Lpv.stateSpace (t4 B N M M A) (t3 B N F fun b t j => x b t j + ∑ p ∈ Finset.range P, G b t j p * y b t p) (some (t4 B N M F Bm))
        (some (t4 B N P M C)) none (some (t2 B M z)) k' none = .ok (t3 B N P y, some (t2 B M f)) ∧
      ∀ v y' f', Lpv.stateSpace (t4 B N M M A) (t3 B N F v) (some (t4 B N M F Bm)) (some (t4 B N P M C)) none (some (t2 B M z)) k' none =
          .ok (t3 B N P y', f') →
        (∀ b t j, b < B → t < N → j < F → v b t j = x b t j + ∑ p ∈ Finset.range P, G b t j p * y' b t p) →
        t3 B N P y' = t3 B N P y ∧ f' = some (t2 B M f) := by
  obtain ⟨s, hs, e⟩ := C09_state_space_partial (B := B) (.batched fun b t i j => A b t i j + matProd F (Bm b t) (matProd P (G b t) (C b t)) i j)
    (.batchTimeMat F Bm x) (.batchTimeMat P C) (.none _ _) (.full z) hB hM hN hk
  rw [signal, Option.isSome_some, if_pos rfl] at e
  -- every solution of the loop has the states of the closed system
  have loop : ∀ v y' f', Lpv.stateSpace (t4 B N M M A) (t3 B N F v) (some (t4 B N M F Bm)) (some (t4 B N P M C)) none (some (t2 B M z)) k' none =
          .ok (t3 B N P y', f') →
        (∀ b t j, b < B → t < N → j < F → v b t j = x b t j + ∑ p ∈ Finset.range P, G b t j p * y' b t p) →
        t3 B N P y' = t3 B N P (fun b t p => ∑ k ∈ Finset.range M, C b t p k * s b t k + 0) ∧ f' = some (t2 B M fun b m => s b N m) := by
    intro v y' f' h hv
    obtain ⟨r, hr, e'⟩ := C09_state_space_partial (B := B) (.batched A) (.batchTimeMat F Bm v) (.batchTimeMat P C) (.none _ _) (.full z) hB hM hN hk'
    rw [signal, Option.isSome_some, if_pos rfl] at e'
    have ey := Prod.mk.inj (Except.ok.inj (h.symm.trans e'))
    have yv : ∀ b t p, b < B → t < N → p < P → y' b t p = ∑ k ∈ Finset.range M, C b t p k * r b t k := fun b t p hb ht hp => by
      have := congrArg (fun T : Tensor α => T.get [b, t, p]) ey.1
      rwa [get_t3 hb ht hp, get_t3 hb ht hp, add_zero] at this
    have st : ∀ b, b < B → ∀ t, t ≤ N → ∀ m, r b t m = s b t m := by
      intro b hb t
      induction t with
      | zero => intro _ m; rw [(hr b m).1, (hs b m).1]
      | succ t ih =>
        intro ht m
        rw [(hr b m).2, (hs b m).2, ← Finset.sum_congr rfl fun k _ => by rw [ih (by omega) k], feedback_state]
        refine congrArg₂ (· + ·) rfl (Finset.sum_congr rfl fun j hj => ?_)
        rw [hv b t j hb (by omega) (Finset.mem_range.1 hj)]
        refine congrArg _ (congrArg₂ (· + ·) rfl (Finset.sum_congr rfl fun p hp => ?_))
        rw [yv b t p hb (by omega) (Finset.mem_range.1 hp), Finset.sum_congr rfl fun k _ => by rw [ih (by omega) k]]
    refine ⟨ey.1.trans (t3_congr (α := α) rfl rfl rfl fun b t p hb ht _ => ?_), ey.2.trans (congrArg some (t2_congr rfl rfl fun b m hb _ => st b hb N le_rfl m))⟩
    exact congrArg₂ (· + ·) (Finset.sum_congr rfl fun k _ => by rw [st b hb t (by omega) k]) rfl
  refine ⟨_, fun b => s b N, e, ?_, fun v y' f' h hv => loop v y' f' h hv⟩
  obtain ⟨r, hr, e'⟩ := C09_state_space_partial (B := B) (.batched A)
    (.batchTimeMat F Bm fun b t j => x b t j + ∑ p ∈ Finset.range P, G b t j p * (∑ k ∈ Finset.range M, C b t p k * s b t k + 0))
    (.batchTimeMat P C) (.none _ _) (.full z) hB hM hN hk'
  rw [signal, Option.isSome_some, if_pos rfl] at e'
  have st : ∀ b t m, r b t m = s b t m := by
    intro b t
    induction t with
    | zero => intro m; rw [(hr b m).1, (hs b m).1]
    | succ t ih =>
      intro m
      rw [(hr b m).2, (hs b m).2, Finset.sum_congr rfl fun k _ => by rw [ih k], feedback_state]
      simp only [add_zero]
  refine e'.trans (Lti.ok_pair (t3_congr (α := α) rfl rfl rfl fun b t p _ _ _ => ?_) (congrArg some (t2_congr rfl rfl fun b m _ _ => st b N m)))
  exact congrArg₂ (· + ·) (Finset.sum_congr rfl fun k _ => by rw [st b t k]) rfl

/-- `D = [[1, 1], [0, 1]]`. -/
theorem shear_inverse : ∀ i j, i < 2 → j < 2 → matProd 2 (fun i j => if i = j then (1 : ℤ) else if i < j then -1 else 0)
    (fun i j => if i ≤ j then (1 : ℤ) else 0) i j = if i = j then 1 else 0 := by
  have h : ∀ i < 2, ∀ j < 2, matProd 2 (fun i j => if i = j then (1 : ℤ) else if i < j then -1 else 0)
    (fun i j => if i ≤ j then (1 : ℤ) else 0) i j = if i = j then 1 else 0 := by decide
  exact fun i j hi hj => h i hi j hj

example := C85_lti_inverse (B := 2) (N := 7) (M := 3) (F := 2) (P := 2) (fun b i j => (i : ℤ) - j * b) (fun _ i j => (i : ℤ) + j)
  (fun b i j => (b : ℤ) + i * j) (fun _ i j => if i ≤ j then 1 else 0) (fun _ i j => if i = j then 1 else if i < j then -1 else 0)
  (fun b m => (b : ℤ) + m) (fun b t j => (b : ℤ) * t + j) (k := none) (k' := some 2) (by decide) (by decide) (by simp) (by simp)
  (fun _ _ => shear_inverse)

example := C85_lti_feedback (B := 2) (N := 7) (M := 3) (F := 2) (P := 1) (fun b i j => (i : ℤ) - j * b) (fun _ i j => (i : ℤ) + j)
  (fun b i j => (b : ℤ) + i * j) (fun _ i _ => (i : ℤ) - 1) (fun b m => (b : ℤ) + m) (fun b t j => (b : ℤ) * t + j) (k := none) (k' := some 2)
  (by decide) (by decide) (by simp) (by simp)

example := C85_lpv_inverse (B := 2) (N := 7) (M := 3) (F := 2) (P := 2) (fun b t i j => (i : ℤ) - j * b + t) (fun _ t i j => (i : ℤ) + j * t)
  (fun b _ i j => (b : ℤ) + i * j) (fun _ _ i j => if i ≤ j then 1 else 0) (fun _ _ i j => if i = j then 1 else if i < j then -1 else 0)
  (fun b m => (b : ℤ) + m) (fun b t j => (b : ℤ) * t + j) (k := some 1) (k' := some 2) (by decide) (by decide) (by decide)
  (by unfold FilterUnroll GoodUnroll FewPrimes; decide +kernel) (by unfold FilterUnroll GoodUnroll FewPrimes; decide +kernel)
  (fun _ _ _ _ => shear_inverse)

example := C85_lpv_feedback (B := 2) (N := 7) (M := 3) (F := 2) (P := 1) (fun b t i j => (i : ℤ) - j * b + t) (fun _ t i j => (i : ℤ) + j * t)
  (fun b _ i j => (b : ℤ) + i * j) (fun _ t i _ => (i : ℤ) - t) (fun b m => (b : ℤ) + m) (fun b t j => (b : ℤ) * t + j) (k := some 1) (k' := some 2)
  (by decide) (by decide) (by decide)
  (by unfold FilterUnroll GoodUnroll FewPrimes; decide +kernel) (by unfold FilterUnroll GoodUnroll FewPrimes; decide +kernel)

end Props
