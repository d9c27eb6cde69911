import Verif.Spec.Cast
import Verif.Torch.Loop
import Mathlib.Algebra.MvPolynomial.CommRing
import Mathlib.Algebra.DualNumber
import Mathlib.Algebra.Polynomial.Eval.Defs
import Mathlib.Analysis.RCLike.Basic
import Mathlib.Analysis.Calculus.Deriv.Basic

/-!
# Programs on tensors over any ring

What it means that the outputs of a program are polynomials in the entries of its arguments, and that running it on dual
numbers `v + ε d` computes derivatives.
-/

namespace Spec
open Torch Torch.Tensor

/-- A program with `n` tensors and `m` optional tensors as arguments, for numbers of any kind; its result is a list of
(optional) tensors. -/
abbrev Program (n m : Nat) := ∀ (R : Type) [CommRing R] [StarRing R], (Fin n → Tensor R) → (Fin m → Option (Tensor R)) →
  Res (List (Option (Tensor R)))

/-- The program commutes with every change of numbers that respects conjugation. -/
def Natural {n m : Nat} (F : Program n m) : Prop :=
  ∀ (R S : Type) [CommRing R] [CommRing S] [StarRing R] [StarRing S] (φ : R →+* S), (∀ a, φ (star a) = star (φ a)) →
    ∀ (t : Fin n → Tensor R) (o : Fin m → Option (Tensor R)),
      F S (fun i => cast φ (t i)) (fun j => (o j).map (cast φ)) = (F R t o).map (List.map (Option.map (cast φ)))

/-- One entry of one argument, or its conjugate. -/
structure Entry (n m : Nat) where
  /-- which argument -/
  arg : Fin n ⊕ Fin m
  /-- which entry -/
  index : List Nat
  /-- the conjugate of the entry -/
  conj : Bool

/-- The value of an entry for given arguments. -/
def Entry.value {n m : Nat} {R : Type} [CommRing R] [StarRing R] (t : Fin n → Tensor R) (o : Fin m → Option (Tensor R))
    (e : Entry n m) : R :=
  let v := match e.arg with
    | .inl i => (t i).get e.index
    | .inr j => match o j with
      | some z => z.get e.index
      | none => 0
  if e.conj then star v else v

/-- The arguments have the shapes `s` and `so`. -/
def HasShapes {n m : Nat} {R : Type} [CommRing R] (s : Fin n → List Nat) (so : Fin m → Option (List Nat)) (t : Fin n → Tensor R)
    (o : Fin m → Option (Tensor R)) : Prop :=
  (∀ i, (t i).shape = s i) ∧ ∀ j, (o j).map shape = so j

/-- For every choice of shapes, either the program raises on all arguments of these shapes, or there are polynomials with
integer coefficients, one for every entry of every result, that give its results on all arguments of these shapes over all
rings. -/
def GivenByPolynomials {n m : Nat} (F : Program n m) : Prop :=
  ∀ (s : Fin n → List Nat) (so : Fin m → Option (List Nat)),
    (∀ (R : Type) [CommRing R] [StarRing R] (t : Fin n → Tensor R) (o : Fin m → Option (Tensor R)), HasShapes s so t o →
      Fails (F R t o)) ∨
    ∃ P : List (Option (List Nat × (List Nat → MvPolynomial (Entry n m) ℤ))),
      ∀ (R : Type) [CommRing R] [StarRing R] (t : Fin n → Tensor R) (o : Fin m → Option (Tensor R)), HasShapes s so t o →
        ∃ ys, F R t o = .ok ys ∧ List.Forall₂ (Option.Rel fun p y => y.shape = p.1 ∧
          ∀ l, y.get l = MvPolynomial.aeval (Entry.value t o) (p.2 l)) P ys

/-- Conjugation of dual numbers. -/
noncomputable instance {R : Type} [CommRing R] [StarRing R] : StarRing (DualNumber R) where
  star := fun d => (star d.fst, star d.snd)
  star_involutive := fun d => TrivSqZeroExt.ext (star_star d.fst) (star_star d.snd)
  star_mul := fun d e => by
    refine TrivSqZeroExt.ext ?_ ?_
    · show star (d * e).fst = star e.fst * star d.fst
      rw [TrivSqZeroExt.fst_mul, star_mul]
    · show star (d * e).snd = star e.fst • star d.snd + MulOpposite.op (star d.fst) • star e.snd
      rw [TrivSqZeroExt.snd_mul, op_smul_eq_smul, op_smul_eq_smul, smul_eq_mul, smul_eq_mul, star_add, star_mul', star_mul', add_comm]
      rfl
  star_add := fun d e => TrivSqZeroExt.ext
    (show star (d.fst + e.fst) = star d.fst + star e.fst from star_add _ _)
    (show star (d.snd + e.snd) = star d.snd + star e.snd from star_add _ _)

/-- The point `v + h d` of the line through `v` in the direction `d`, for a tensor of dual numbers `v + ε d`. -/
def along {K : Type} [CommRing K] (h : K) (x : Tensor (DualNumber K)) : Tensor K where
  shape := x.shape
  get := fun l => (x.get l).fst + h * (x.get l).snd
  canon := by intro l hl; rw [x.canon l hl]; simp

/-- `y = v + ε d`: the tensors `Y h` have the shape of `y`, the value `v` at `h = 0`, and there the derivative `d`. -/
def HasTangent {K : Type} [RCLike K] (Y : ℝ → Tensor K) (y : Tensor (DualNumber K)) : Prop :=
  (∀ h, (Y h).shape = y.shape) ∧ ∀ l, (Y 0).get l = (y.get l).fst ∧ HasDerivAt (fun h => (Y h).get l) (y.get l).snd 0

/-- Running the program on dual numbers differentiates it: for arguments `v + ε d` the result is `y + ε d'`, where `y` is the
result at `v` and `d'` the derivative of the results along the line `v + h d` (on which the program returns everywhere); and if
it raises on the dual numbers, then it raises along the whole line. -/
def DualDifferentiates {n m : Nat} (F : Program n m) : Prop :=
  ∀ (K : Type) [RCLike K] (t : Fin n → Tensor (DualNumber K)) (o : Fin m → Option (Tensor (DualNumber K))),
    (∀ ys, F (DualNumber K) t o = .ok ys → ∃ Ys : List (Option (ℝ → Tensor K)),
      (∀ h : ℝ, F K (fun i => along (h : K) (t i)) (fun j => (o j).map (along (h : K))) = .ok (Ys.map (Option.map fun Y => Y h))) ∧
      List.Forall₂ (Option.Rel HasTangent) Ys ys) ∧
    (Fails (F (DualNumber K) t o) → ∀ h : ℝ, Fails (F K (fun i => along (h : K) (t i)) fun j => (o j).map (along (h : K))))

end Spec
