import Verif.Proof.LtiDiagFilter
import Mathlib.Analysis.Complex.Basic

/-!
# Concrete matrices and poles for the instances shown beside the theorems

Nothing here is used in a proof of a property.
-/

namespace Witness
open Torch Torch.Tensor Spec Phil Phil.Lti

/-- `[[0, 1], [-1, 0]]`. -/
abbrev rot (i j : Nat) : ℂ := if i = j then 0 else if i = 0 then 1 else -1

/-- Its eigenvalues `i`, `-i`, which are also the poles of `1 / (1 + z⁻²)`. -/
abbrev rotEig (m : Nat) : ℂ := if m = 0 then Complex.I else -Complex.I

theorem rot_eigenvector (m : Nat) (hm : m < 2) : ∃ v, Eigenvector 2 rot (rotEig m) v := by
  refine ⟨fun i => if i = 0 then 1 else if m = 0 then Complex.I else -Complex.I, ⟨0, by decide, by simp⟩, fun i hi => ?_⟩
  have h1 : i = 0 ∨ i = 1 := by omega
  have h2 : m = 0 ∨ m = 1 := by omega
  rcases h1 with rfl | rfl <;> rcases h2 with rfl | rfl <;> simp [Finset.sum_range_succ, rot, rotEig]

theorem rot_first (m : Nat) (v : Nat → ℂ) (hv : Eigenvector 2 rot (rotEig m) v) : v 0 ≠ 0 := by
  intro h0
  obtain ⟨⟨i, hi, hi0⟩, he⟩ := hv
  have h1 : i = 0 ∨ i = 1 := by omega
  rcases h1 with rfl | rfl
  · exact hi0 h0
  · have := he 0 (by decide)
    simp [Finset.sum_range_succ, h0] at this
    exact hi0 this

theorem rotEig_inj (m p : Nat) (hm : m < 2) (hp : p < 2) (he : rotEig m = rotEig p) : m = p := by
  have h1 : m = 0 ∨ m = 1 := by omega
  have h2 : p = 0 ∨ p = 1 := by omega
  rcases h1 with rfl | rfl <;> rcases h2 with rfl | rfl <;> first | rfl | (exfalso; have := congrArg Complex.im he; norm_num [rotEig] at this)

theorem rotEig_ne (m : Nat) : rotEig m ≠ 0 := by
  unfold rotEig; split <;> simp

/-- `1 + z⁻²` has the distinct poles `i`, `-i`. -/
theorem rot_poles : DistinctPoles 2 (fun k => if k = 0 then 0 else 1) rotEig :=
  ⟨fun m hm => by unfold rotEig; split <;> simp [Finset.sum_range_succ], rotEig_inj⟩

/-- The poles `p` of a denominator as answer to a companion matrix or to a batch of `B` copies of it. -/
abbrev answer {α : Type} [Zero α] (B P : Nat) (p : Nat → α) : Tensor α → Res (Tensor α) :=
  fun A => .ok (if A.rank = 2 then t1 P p else t2 B P fun _ => p)

theorem answer_lists' {α : Type} [Field α] {B P : Nat} {A : Nat → Nat → α} {p : Nat → α}
    (h : ∀ c, (∃ m, m < P ∧ p m = c) ↔ ∃ v, Eigenvector P A c v) : ListsEigenvalues (answer B P p) B P (fun _ => A) := by
  intro T hT
  generalize hAv : (fun _ : Nat => A) = Av at hT
  cases hT with
  | shared g =>
    refine ⟨_, _, congrArg Except.ok (if_pos (rank_t2 _ _ _)), .shared _ _, fun b c => ?_⟩
    rw [← congrFun hAv 0]; exact h c
  | batched g =>
    refine ⟨_, _, congrArg Except.ok (if_neg (by simp)), .batched _ _, fun b c => ?_⟩
    rw [← congrFun hAv b]; exact h c

theorem answer_lists {α : Type} [Field α] {B P : Nat} (hP : 0 < P) {a p : Nat → α}
    (h : ∀ c, (∃ m, m < P ∧ p m = c) ↔ c ^ P + ∑ k ∈ Finset.range P, a k * c ^ (P - 1 - k) = 0) :
    ListsEigenvalues (answer B P p) B P (fun _ => comp a) :=
  answer_lists' fun c => ⟨fun hc => ⟨_, comp_eigenvector hP ((h c).1 hc)⟩, fun ⟨_, hv⟩ => (h c).2 (comp_eigen_root hv)⟩

theorem answer_listsT {α : Type} [Field α] {B P : Nat} (hP : 0 < P) {a p : Nat → α}
    (h : ∀ c, (∃ m, m < P ∧ p m = c) ↔ c ^ P + ∑ k ∈ Finset.range P, a k * c ^ (P - 1 - k) = 0) :
    ListsEigenvalues (answer B P p) B P (fun _ j k => comp a k j) :=
  answer_lists' fun c => ⟨fun hc => ⟨_, compT_eigenvector hP ((h c).1 hc)⟩, fun ⟨_, hv⟩ => (h c).2 (compT_eigen_root hv)⟩

theorem rot_roots (c : ℂ) : (∃ m, m < 2 ∧ rotEig m = c) ↔
    c ^ 2 + ∑ k ∈ Finset.range 2, (if k = 0 then (0 : ℂ) else 1) * c ^ (2 - 1 - k) = 0 := by
  refine ⟨?_, fun h => ?_⟩
  · rintro ⟨m, hm, rfl⟩
    exact rot_poles.1 m hm
  · simp [Finset.sum_range_succ] at h
    have h4 : c ^ 2 = Complex.I ^ 2 := by rw [Complex.I_sq]; linear_combination h
    rcases sq_eq_sq_iff_eq_or_eq_neg.1 h4 with rfl | rfl
    · exact ⟨0, by decide, rfl⟩
    · exact ⟨1, by decide, rfl⟩

theorem rot_lists (B : Nat) : ListsEigenvalues (answer B 2 rotEig) B 2 (fun _ => comp fun k => if k = 0 then (0 : ℂ) else 1) :=
  answer_lists (by decide) rot_roots

theorem rot_listsT (B : Nat) :
    ListsEigenvalues (answer B 2 rotEig) B 2 (fun _ j k => comp (fun k => star (if k = 0 then (0 : ℂ) else 1)) k j) := by
  have e : (fun k : Nat => star (if k = 0 then (0 : ℂ) else 1)) = fun k => if k = 0 then (0 : ℂ) else 1 := by
    funext k; split <;> simp
  rw [e]
  exact answer_listsT (by decide) rot_roots

/-- The denominator `1 - z⁻¹` written with two coefficients: the poles are `1` and `0`. -/
theorem zero_pole_lists (B : Nat) : ListsEigenvalues (answer B 2 fun m => if m = 0 then (1 : ℂ) else 0) B 2
    (fun _ => comp fun k => if k = 0 then (-1 : ℂ) else 0) := by
  refine answer_lists (by decide) fun c => ⟨?_, fun h => ?_⟩
  · rintro ⟨m, hm, rfl⟩
    split <;> simp
  · simp at h
    have h4 : c * (c - 1) = 0 := by linear_combination h
    rcases mul_eq_zero.1 h4 with h5 | h5
    · exact ⟨1, by decide, h5.symm⟩
    · exact ⟨0, by decide, (sub_eq_zero.1 h5).symm⟩

/-- `[[2, 1], [0, 3]]` has the eigenvectors `(1, 0)`, `(1, 1)` for `2`, `3`. -/
theorem two_three : Diagonalises 2 (fun i j => if i = 0 then (if j = 0 then (2 : ℚ) else 1) else if j = 0 then 0 else 3) (fun m => (m : ℚ) + 2)
    (fun i j => if i = 0 ∨ j = 1 then 1 else 0) (fun i j => if i = j then 1 else if i = 0 then -1 else 0) := by
  constructor
  all_goals
    intro i j hi hj
    have h1 : i = 0 ∨ i = 1 := by omega
    have h2 : j = 0 ∨ j = 1 := by omega
    rcases h1 with rfl | rfl <;> rcases h2 with rfl | rfl <;> norm_num [Finset.sum_range_succ]

end Witness
