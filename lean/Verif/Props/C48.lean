import Verif.Proof.ProtoPoly
import Verif.Torch.Fails

/-!
# C48: polynomial arithmetic of the prototype

`listPoly l` is the polynomial with the coefficients `l`, highest degree first.
-/

namespace Props
open Torch Spec Polynomial Phil.Proto
variable {α : Type} [CommRing α] [DecidableEq α]

omit [DecidableEq α] in
/-- **C48**: sum, with the longer of the two lengths. -/
theorem C48_polyadd (a b : List α) :
    listPoly (polyadd a b) = listPoly a + listPoly b ∧ (polyadd a b).length = max a.length b.length := listPoly_polyadd a b

omit [DecidableEq α] in
/-- **C48**: difference, with the longer of the two lengths. -/
theorem C48_polysub (a b : List α) :
    listPoly (polysub a b) = listPoly a - listPoly b ∧ (polysub a b).length = max a.length b.length := listPoly_polysub a b

/-- **C48**: product; the coefficients returned are as many as the two degrees require. -/
theorem C48_polymul (a b : List α) :
    listPoly (polymul a b) = listPoly a * listPoly b ∧
      (polymul a b).length = (listPoly a).natDegree + (listPoly b).natDegree + 1 := by
  refine ⟨listPoly_polymul a b, ?_⟩
  rw [length_polymul, length_trim, length_trim]; omega

/-- **C48**: product of a non-empty sequence of polynomials. -/
theorem C48_polysmul (ps : List (List α)) (h : ps ≠ []) :
    ∃ r, polysmul ps = .ok r ∧ listPoly r = (ps.map listPoly).prod := polysmul_spec ps h

example := C48_polysmul [[(1 : ℤ), 1], [1, 2], [0, 1, 3]] (by decide)

/-- Without arguments `polysmul` calls itself without arguments: no bound on the depth of the recursion suffices. -/
theorem C48_polysmul_empty (fuel : Nat) : Fails (polysmulAux fuel ([] : List (List α))) := by
  induction fuel with
  | zero => exact fails_of_isOk rfl
  | succ fuel ih =>
    unfold polysmulAux
    rw [if_neg (by simp)]
    refine fails_left ?_
    rw [List.take_nil]
    exact ih

/-- **C48**: leading zeros are removed and nothing else: the polynomial is the same, and there are as many coefficients as its
degree requires. -/
theorem C48_trim_zeros (p : List α) :
    listPoly (trimZeros p) = listPoly p ∧ (trimZeros p).length = (listPoly p).natDegree + 1 ∧
      ∃ n, p ≠ [] → p = List.replicate n 0 ++ trimZeros p := by
  refine ⟨listPoly_trim p, length_trim p, ?_⟩
  unfold trimZeros
  split
  · exact ⟨0, fun _ => rfl⟩
  · split
    · rename_i h
      refine ⟨p.length - 1, fun hp => ?_⟩
      have h1 : 1 ≤ p.length := List.length_pos_iff.2 hp
      conv_lhs => rw [nonzero_nil h, show p.length = p.length - 1 + 1 by omega, List.replicate_add]
      rfl
    · rename_i i l h
      obtain ⟨h1, _, h3⟩ := nonzero_head h
      exact ⟨i, fun _ => by rw [← take_zeros (by omega) h3, List.take_append_drop]⟩

/-- **C48**: the `m`-th derivative; negative orders are rejected. -/
theorem C48_polyder (p : List α) (m : Int) :
    (0 ≤ m → ∃ r, polyder p m = .ok r ∧ listPoly r = derivative^[m.toNat] (listPoly p)) ∧ (m < 0 → Fails (polyder p m)) := by
  unfold polyder
  refine ⟨fun h => ⟨_, if_neg (by omega), listPoly_polyder _ _⟩, fun h => ?_⟩
  rw [if_pos h]
  exact fails_of_isOk rfl

/-- **C48 (partial)**: evaluation of a polynomial that is not constant, at one point and at a sequence of points.  Missing:
constants (see `C48_polyval_constant`). -/
theorem C48_polyval_partial (p : List α) (h : (listPoly p).natDegree ≠ 0) :
    (∀ x, polyval p (.scalar x) = .scalar ((listPoly p).eval x)) ∧
      ∀ xs, polyval p (.vec xs) = .vec (xs.map fun x => (listPoly p).eval x) :=
  ⟨fun x => polyval_scalar p x h, fun xs => polyval_vec p xs h⟩

example := C48_polyval_partial [(2 : ℤ), 3, -2] (by
  have h : (listPoly [(2 : ℤ), 3, -2]).natDegree = 2 := by
    rw [listPoly_cons, listPoly_cons, listPoly_singleton]
    simp only [List.length_cons, List.length_nil]
    compute_degree!
  omega)

/-- A constant is returned as one coefficient whatever the shape of the points; so evaluation at one point has a batch axis, and
evaluation at any number of points other than one has the wrong length. -/
theorem C48_polyval_constant (p : List α) (x : Val α) (h : (listPoly p).natDegree = 0) :
    polyval p x = .vec [(listPoly p).coeff 0] ∧ (∀ a, polyval p (.scalar a) ≠ .scalar ((listPoly p).eval a)) ∧
      ∀ xs : List α, xs.length ≠ 1 → polyval p (.vec xs) ≠ .vec (xs.map fun x => (listPoly p).eval x) := by
  refine ⟨polyval_const p x h, fun a => ?_, fun xs hxs => ?_⟩
  · rw [polyval_const p _ h]; simp
  · rw [polyval_const p _ h]
    intro he
    injection he with he
    exact hxs (by simpa using (congrArg List.length he).symm)

example := C48_polyval_constant [(7 : ℤ)] (.scalar 3) (by rw [listPoly_singleton, natDegree_C])

/-- Non-vacuity: `(0, 2, 3) * (1, 0, -1) = 2X³ + 3X² - 2X - 3` with value `21` at `2` and derivative `6X² + 6X - 2`. -/
example : polymul [0, 2, 3] [1, 0, -1] = [(2 : ℤ), 3, -2, -3] ∧ polyadd [0, 2, 3] [1, 0, -1, 5] = [(1 : ℤ), 0, 1, 8] ∧
    polysub [1, 1] [2, 1, 1] = [(-2 : ℤ), 0, 0] ∧ polyderNat [(2 : ℤ), 3, -2, -3] 1 = [6, 6, -2] ∧
    polyderNat [(2 : ℤ), 3, -2, -3] 2 = [12, 6] := by decide +kernel

example : polyval [(2 : ℤ), 3, -2, -3] (.scalar 2) = .scalar 21 := rfl
example : polyval [(2 : ℤ), 3, -2, -3] (.vec [2, 0]) = .vec [21, -3] := rfl
example : (match polysmul [[(1 : ℤ), 1], [1, 2], [0, 1, 3]] with | .ok r => r | .error _ => []) = [1, 6, 11, 6] := by decide +kernel

end Props
