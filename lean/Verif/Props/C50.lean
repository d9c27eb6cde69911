import Verif.Proof.ProtoUniqueSum
import Mathlib.Data.Complex.Basic

/-!
# C50: distinct roots and factors of a product
-/

namespace Props
open Torch Polynomial Phil.Proto Spec
variable {α : Type} [Field α] [DecidableEq α]

/-- **C50 (partial), distinct roots**: with `rtype="mean"` and a tolerance that separates the distinct roots, every pair of a root and its
flag `is_complex` is listed exactly once, with the number of its occurrences.  Missing: `rtype="min"`, the default, and `"max"` (see
`C50_rtype_raises`). -/
theorem C50_unique_roots_partial [CharZero α] {close : α → α → Bool} {p : List α} (hp : p ≠ [])
    (hclose : ∀ x ∈ p, ∀ y ∈ p, close x y = decide (x = y)) (flags : List Bool) (hf : flags.length = p.length) :
    ∃ u, uniqueRoots close .mean p (some flags) = .ok u ∧ (u.map fun x => (x.1, x.2.2)).Nodup ∧
      (∀ x ∈ u, x.2.1 = (p.zip flags).count (x.1, x.2.2)) ∧ ∀ y ∈ p.zip flags, ∃ x ∈ u, (x.1, x.2.2) = y := by
  obtain ⟨u, h1, h2, h3, h4⟩ := uniqueRoots_eq hp hclose (some flags) (by intro c hc; cases hc; exact hf)
  rw [Option.getD_some] at h3
  refine ⟨u, h1, h2, fun x hx => ?_, fun y hy => ?_⟩
  · rw [← h3.count_eq]
    obtain ⟨l1, l2, rfl⟩ := List.append_of_mem hx
    have hz : ∀ l : List (α × Nat × Bool), (∀ y ∈ l, (y.1, y.2.2) ≠ (x.1, x.2.2)) →
        (l.flatMap fun y => List.replicate y.2.1 (y.1, y.2.2)).count (x.1, x.2.2) = 0 := by
      intro l hl
      rw [List.count_eq_zero]
      intro hm
      obtain ⟨y, hy, hy'⟩ := List.mem_flatMap.1 hm
      exact hl y hy (List.eq_of_mem_replicate hy').symm
    rw [List.map_append, List.map_cons, List.nodup_append] at h2
    obtain ⟨_, h5, h6⟩ := h2
    rw [List.nodup_cons] at h5
    rw [List.flatMap_append, List.flatMap_cons, List.count_append, List.count_append, hz l1, hz l2, List.count_replicate_self]
    · omega
    · intro y hy he
      exact h5.1 (List.mem_map.2 ⟨y, hy, he⟩)
    · intro y hy he
      exact h6 _ (List.mem_map.2 ⟨y, hy, rfl⟩) _ (by simp) he
  · obtain ⟨x, hx, hx'⟩ := List.mem_flatMap.1 ((h3.mem_iff).2 hy)
    exact ⟨x, hx, (List.eq_of_mem_replicate hx').symm⟩

example := C50_unique_roots_partial (close := fun x y => decide (x = y)) (p := [2, 3, 2, (2 : ℚ)]) (by decide) (fun _ _ _ _ => rfl)
  [true, true, false, true] rfl

omit [DecidableEq α] in
/-- **C50 (partial), multiplicities**: with `rtype="mean"` the multiplicities sum to the number of roots, whatever the tolerance and
the flags. -/
theorem C50_multiplicities_partial {close : α → α → Bool} {p : List α} (hp : p ≠ []) (hclose : ∀ x ∈ p, close x x = true)
    (flags : Option (List Bool)) :
    ∃ u, uniqueRoots close .mean p flags = .ok u ∧ (u.map fun x => x.2.1).sum = p.length := uniqueRoots_sum hp hclose flags

example := C50_multiplicities_partial (close := fun x y => decide (|x - y| < (1 / 100 : ℚ))) (p := [2, 201 / 100, 3]) (by decide) (by simp) none

omit [DecidableEq α] in
/-- `rtype="min"`, the default, and `"max"` raise for every input: the code insists on complex roots, which `torch.min` and `torch.max` do
not accept. -/
theorem C50_rtype_raises (close : α → α → Bool) {rtype : RType} (h : rtype ≠ .mean) (p : List α) (flags : Option (List Bool)) :
    Fails (uniqueRoots close rtype p flags) := uniqueRoots_fails close h p flags

example := C50_rtype_raises (fun x y => decide (x = y)) (rtype := .min) (by decide) [2, 3, (2 : ℚ)] none

omit [DecidableEq α] in
/-- No roots at all raises. -/
theorem C50_empty_raises (close : α → α → Bool) (rtype : RType) (flags : Option (List Bool)) :
    Fails (uniqueRoots close rtype [] flags) := by
  by_cases h : rtype = .mean
  · subst h
    exact fails_of_isOk rfl
  · exact uniqueRoots_fails close h [] flags

/-- **C50, factors**: the denominator is the product of `(X - root)^multiplicity`, and the factor of a root times its own power is the
whole product. -/
theorem C50_factors (rm : List (α × Nat)) (h0 : rm ≠ []) (hm : ∀ x ∈ rm, 0 < x.2) :
    ∃ F D, computeFactors rm false = .ok (F, D) ∧ listPoly D = (rm.map fun x => (X - C x.1) ^ x.2).prod ∧
      List.Forall₂ (fun x f => listPoly f * (X - C x.1) ^ x.2 = listPoly D) rm F := by
  obtain ⟨F, D, h1, h2, h3⟩ := computeFactors_spec false rm h0
  refine ⟨F, D, h1, h3, ?_⟩
  have := facs_false rm hm 1
  rw [← h2, List.forall₂_map_right_iff] at this
  exact this.imp fun x f h => by rw [h, one_mul, h3]

example := C50_factors [((1 : ℚ), 2), (2, 1)] (by decide) (by decide)

/-- **C50, factors with powers**: for every root the factors without its powers `1, 2, …` up to the multiplicity. -/
theorem C50_factors_powers (rm : List (α × Nat)) (h0 : rm ≠ []) :
    ∃ F D, computeFactors rm true = .ok (F, D) ∧ listPoly D = (rm.map fun x => (X - C x.1) ^ x.2).prod ∧
      List.Forall₂ (fun x f => listPoly f * (X - C x.1) ^ x.2 = listPoly D)
        (rm.flatMap fun x => (List.range x.2).map fun s => (x.1, s + 1)) F := by
  obtain ⟨F, D, h1, h2, h3⟩ := computeFactors_spec true rm h0
  refine ⟨F, D, h1, h3, ?_⟩
  have := facs_true rm 1
  rw [← h2, List.forall₂_map_right_iff] at this
  exact this.imp fun x f h => by rw [h, one_mul, h3]

example := C50_factors_powers [((1 : ℚ), 2), (2, 1)] (by decide)

/-- Non-vacuity: `2, 3, 2, 2` with the third not flagged. -/
example : (uniqueRoots (fun x y => decide (x = y)) .mean [2, 3, 2, (2 : ℚ)] (some [true, true, false, true])).toOption =
    some [(2, 2, true), (3, 1, true), (2, 1, false)] := by decide +kernel

/-- Non-vacuity: `(X - 1)² (X - 2)`. -/
example : (computeFactors [((1 : ℚ), 2), (2, 1)] false).toOption = some ([[1, -2], [1, -2, 1]], [1, -4, 5, -2]) := by decide +kernel
example : (computeFactors [((1 : ℚ), 2), (2, 1)] true).toOption =
    some ([[1, -3, 2], [1, -2], [1, -2, 1]], [1, -4, 5, -2]) := by decide +kernel

end Props
