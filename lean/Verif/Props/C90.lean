import Verif.Props.C85
import Verif.Props.C07
import Verif.Props.C01
import Verif.Props.C02

/-!
# C90: running backwards

A recursion with invertible matrices `h' = A h + x` is run backwards by the recursion `h = A⁻¹ h' - A⁻¹ x`.
-/

namespace Props
open Torch Torch.Tensor Spec Phil
variable {α : Type} [CommRing α]

/-- The states before step `N`, the last first. -/
def backwards (N : Nat) (z : Nat → α) (h : Nat → Nat → α) : Nat → Nat → α := fun t => if t + 1 = N then z else h (N - 2 - t)

/-- The recursion with inverse matrices, started in the last state, visits the states backwards. -/
theorem reverse_run {N M : Nat} {A Ai : Nat → Nat → Nat → α} (z : Nat → α) (x : Nat → Nat → α)
    (h : ∀ t i j, t < N → i < M → j < M → matProd M (Ai t) (A t) i j = if i = j then 1 else 0) (n : Nat) :
    n ≤ N → ∀ m, m < M → vecRec M (fun t => Ai (N - 1 - t)) (vecRec M A z x N)
      (fun t m => -∑ k ∈ Finset.range M, Ai (N - 1 - t) m k * x (N - 1 - t) k) n m = vecRec M A z x (N - n) m := by
  induction n with
  | zero => intro _ m _; rfl
  | succ n ih =>
    intro hn m hm
    rw [vecRec]
    beta_reduce
    have g : ∀ k ∈ Finset.range M, Ai (N - 1 - n) m k * vecRec M (fun t => Ai (N - 1 - t)) (vecRec M A z x N)
          (fun t m => -∑ k ∈ Finset.range M, Ai (N - 1 - t) m k * x (N - 1 - t) k) n k =
        Ai (N - 1 - n) m k * ∑ j ∈ Finset.range M, A (N - 1 - n) k j * vecRec M A z x (N - 1 - n) j +
          Ai (N - 1 - n) m k * x (N - 1 - n) k := fun k hk => by
      rw [ih (by omega) k (Finset.mem_range.1 hk), show N - n = N - 1 - n + 1 by omega, vecRec, mul_add]
    rw [Finset.sum_congr rfl g, Finset.sum_add_distrib, left_inverse (h (N - 1 - n) · · (by omega)) hm, add_neg_cancel_right,
      show N - (n + 1) = N - 1 - n by omega]

/-- The list of states visited. -/
theorem reverse_states {N M : Nat} {A Ai : Nat → Nat → Nat → α} (z : Nat → α) (x : Nat → Nat → α)
    (h : ∀ t i j, t < N → i < M → j < M → matProd M (Ai t) (A t) i j = if i = j then 1 else 0) {t m : Nat} (ht : t < N) (hm : m < M) :
    vecRec M (fun t => Ai (N - 1 - t)) (vecRec M A z x (N - 1 + 1))
      (fun t m => -∑ k ∈ Finset.range M, Ai (N - 1 - t) m k * x (N - 1 - t) k) (t + 1) m =
        backwards N z (fun t => vecRec M A z x (t + 1)) t m := by
  rw [show N - 1 + 1 = N by omega, reverse_run z x h (t + 1) (by omega) m hm, backwards]
  split
  · rw [show N - (t + 1) = 0 by omega]; rfl
  · rw [show N - (t + 1) = N - 2 - t + 1 by omega]

/-- **C90, `lti.state_space_recursion`.** The inverse matrices, the last state and the signal `-A⁻¹ x` read backwards give the states
backwards, the initial state last. -/
theorem C90_recursion {B N M : Nat} {A Ai x : Tensor α} {Av Aiv xv : Nat → Nat → Nat → α} (hA : MatVals B M M A Av) (hAi : MatVals B M M Ai Aiv)
    (hx : Drive B N M x xv) (z : Nat → Nat → α) (u u' : Int) (hM : 0 < M) (hN : 0 < N) (hu : 1 ≤ u) (hu' : 1 ≤ u')
    (inv : ∀ b i j, b < B → i < M → j < M → ∑ k ∈ Finset.range M, Aiv b i k * Av b k j = if i = j then 1 else 0) :
    ∃ h : Nat → Nat → Nat → α, Lti.stateSpaceRecursion A (t2 B M z) x u none = .ok (t3 B N M h) ∧
      Lti.stateSpaceRecursion Ai (t2 B M fun b => h b (N - 1))
        (t3 B N M fun b t m => -∑ k ∈ Finset.range M, Aiv b m k * xv b (N - 1 - t) k) u' none =
        .ok (t3 B N M fun b => backwards N (z b) (h b)) :=
  ⟨fun b t => vecRec M (fun _ => Av b) (z b) (xv b) (t + 1), Lti.stateSpaceRecursion_layout hA hx z u none trivial hM hN hu,
    (Lti.stateSpaceRecursion_layout hAi (.full _) _ u' none trivial hM hN hu').trans (congrArg Except.ok
      (t3_congr (n := B) (m := N) (p := M) rfl rfl rfl fun b _ _ hb ht hm => reverse_states (Ai := fun _ => Aiv b) (A := fun _ => Av b) (z b) (xv b)
        (fun _ i j _ => inv b i j hb) ht hm))⟩

example := C90_recursion (B := 3) (N := 7) (M := 2) (.shared fun i j => if i ≤ j then (1 : ℤ) else 0) (.shared fun i j => if i = j then 1 else if i < j then -1 else 0)
  (.full fun b t k => (b : ℤ) + t * k) (fun b m => b - m) 2 3 (by decide) (by decide) (by decide) (by decide)
  (fun _ i j _ hi hj => by
    have : ∀ i, i < 2 → ∀ j, j < 2 → ∑ k ∈ Finset.range 2, (if i = k then (1 : ℤ) else if i < k then -1 else 0) * (if k ≤ j then 1 else 0) = if i = j then 1 else 0 := by
      decide
    exact this i hi j hj)

/-- **C90, `lpv.state_space_recursion`.** With the inverse matrices in reverse order, for the unroll factors of C07. -/
theorem C90_lpv_recursion {B N M : Nat} {A Ai x : Tensor α} {Av Aiv : Nat → Nat → Nat → Nat → α} {xv : Nat → Nat → Nat → α} (hA : MatSeq B N M M A Av)
    (hAi : MatSeq B N M M Ai fun b t => Aiv b (N - 1 - t)) (hx : Drive B N M x xv) (z : Nat → Nat → α) (u u' : Int) (hB : 0 < B) (hM : 0 < M)
    (hN : 0 < N) (hu : 1 ≤ u) (hu' : 1 ≤ u') (hP : u ≤ 2 ∨ (N : Int) ≤ u ∨ (u.toNat - 1).Prime)
    (hP' : u' ≤ 2 ∨ (N : Int) ≤ u' ∨ (u'.toNat - 1).Prime)
    (inv : ∀ b t i j, b < B → t < N → i < M → j < M → ∑ k ∈ Finset.range M, Aiv b t i k * Av b t k j = if i = j then 1 else 0) :
    ∃ h : Nat → Nat → Nat → α, Lpv.stateSpaceRecursion A (t2 B M z) x u none = .ok (t3 B N M h) ∧
      Lpv.stateSpaceRecursion Ai (t2 B M fun b => h b (N - 1))
        (t3 B N M fun b t m => -∑ k ∈ Finset.range M, Aiv b (N - 1 - t) m k * xv b (N - 1 - t) k) u' none =
        .ok (t3 B N M fun b => backwards N (z b) (h b)) :=
  ⟨_, C07_state_space_recursion_partial hA hx z u hB hM hN hu hP,
    (C07_state_space_recursion_partial hAi (.full _) _ u' hB hM hN hu' hP').trans (congrArg Except.ok
      (t3_congr rfl rfl rfl fun b _ _ hb ht hm => reverse_states (z b) (xv b) (fun t i j ht => inv b t i j hb ht) ht hm))⟩

example := C90_lpv_recursion (B := 3) (N := 7) (M := 2) (Av := fun _ t i j => if i = j then 1 else if i < j then (t : ℤ) else 0)
  (Aiv := fun _ t i j => if i = j then 1 else if i < j then -t else 0) (.batched _) (.batched _)
  (.full fun b t k => (b : ℤ) + t * k) (fun b m => b - m) 2 3 (by decide) (by decide) (by decide) (by decide) (by decide) (by decide)
  (Or.inr (Or.inr (by decide)))
  (fun _ t i j _ _ hi hj => by
    rcases (by omega : i = 0 ∨ i = 1) with rfl | rfl <;> rcases (by omega : j = 0 ∨ j = 1) with rfl | rfl <;> simp [Finset.sum_range_succ])

/-- The recursion with the inverse factors visits the values backwards. -/
theorem reverse_scalar {N : Nat} {a ai : Nat → α} (z : α) (x : Nat → α) (h : ∀ t, t < N → ai t * a t = 1) (n : Nat) (hn : n ≤ N) :
    scalarRec (fun t => ai (N - 1 - t)) (scalarRec a z x N) (fun t => -(ai (N - 1 - t) * x (N - 1 - t))) n = scalarRec a z x (N - n) := by
  induction n with
  | zero => rfl
  | succ n ih =>
    rw [scalarRec, ih (by omega), show N - n = N - 1 - n + 1 by omega, scalarRec, show N - (n + 1) = N - 1 - n by omega]
    linear_combination scalarRec a z x (N - 1 - n) * h (N - 1 - n) (by omega)

variable [StarRing α]

/-- **C90, `lti.linear_recurrence`.** -/
theorem C90_linear_recurrence {B N : Nat} {a ai init : Tensor α} {av aiv iv : Nat → α} (u u' : Int) (ha : BatchVals B a av) (hai : BatchVals B ai aiv)
    (hi : BatchVals B init iv) (x : Nat → Nat → α) (hN : 0 < N) (hu : 1 ≤ u) (hu' : 1 ≤ u') (inv : ∀ b, b < B → aiv b * av b = 1) :
    ∃ y : Nat → Nat → α, Lti.linearRecurrence a init (t2 B N x) u = .ok (t2 B N y) ∧
      Lti.linearRecurrence ai (t1 B fun b => y b (N - 1)) (t2 B N fun b t => -(aiv b * x b (N - 1 - t))) u' =
        .ok (t2 B N fun b t => if t + 1 = N then iv b else y b (N - 2 - t)) := by
  refine ⟨_, C01_linear_recurrence x u ha hi hN hu, (C01_linear_recurrence _ u' hai (.full _) hN hu').trans (congrArg Except.ok
    (t2_congr rfl rfl fun b t hb ht => ?_))⟩
  rw [show N - 1 + 1 = N by omega,
    reverse_scalar (ai := fun _ => aiv b) (a := fun _ => av b) (iv b) (x b) (fun _ _ => inv b hb) (t + 1) (by omega)]
  split
  · rw [show N - (t + 1) = 0 by omega]; rfl
  · rw [show N - (t + 1) = N - 2 - t + 1 by omega]

example := C90_linear_recurrence (B := 3) (N := 7) (av := fun b => if b = 1 then (-1 : ℤ) else 1) (aiv := fun b => if b = 1 then -1 else 1) 2 3
  (.full _) (.full _) (.full fun i => (i : ℤ) + 2) (fun i t => (i : ℤ) + t) (by decide) (by decide) (by decide) (fun b _ => by split <;> simp)

/-- **C90, `lpv.linear_recurrence`.** -/
theorem C90_lpv_linear_recurrence {B N : Nat} {a ai init : Tensor α} {av aiv : Nat → Nat → α} {iv : Nat → α} (u u' : Int) (ha : TimeVals B N a av)
    (hai : TimeVals B N ai fun b t => aiv b (N - 1 - t)) (hi : BatchVals B init iv) (x : Nat → Nat → α) (hN : 0 < N) (hu : 1 ≤ u) (hu' : 1 ≤ u')
    (inv : ∀ b t, b < B → t < N → aiv b t * av b t = 1) :
    ∃ y : Nat → Nat → α, Lpv.linearRecurrence a init (t2 B N x) u = .ok (t2 B N y) ∧
      Lpv.linearRecurrence ai (t1 B fun b => y b (N - 1)) (t2 B N fun b t => -(aiv b (N - 1 - t) * x b (N - 1 - t))) u' =
        .ok (t2 B N fun b t => if t + 1 = N then iv b else y b (N - 2 - t)) := by
  refine ⟨_, C02_linear_recurrence x u ha hi hN hu, (C02_linear_recurrence _ u' hai (.full _) hN hu').trans (congrArg Except.ok
    (t2_congr rfl rfl fun b t hb ht => ?_))⟩
  rw [show N - 1 + 1 = N by omega, reverse_scalar (iv b) (x b) (fun t ht => inv b t hb ht) (t + 1) (by omega)]
  split
  · rw [show N - (t + 1) = 0 by omega]; rfl
  · rw [show N - (t + 1) = N - 2 - t + 1 by omega]

example := C90_lpv_linear_recurrence (B := 3) (N := 7) (av := fun b t => if b = t then (-1 : ℤ) else 1) (aiv := fun b t => if b = t then -1 else 1) 2 3
  (.full _) (.full _) (.full fun i => (i : ℤ) + 2) (fun i t => (i : ℤ) + t) (by decide) (by decide) (by decide) (fun b t _ _ => by split <;> simp)

end Props
