import Verif.Spec.Program
import Verif.Proof.Cast
import Mathlib.Algebra.MvPolynomial.Rename
import Mathlib.Analysis.Calculus.Deriv.Polynomial
import Mathlib.Analysis.Calculus.Deriv.Comp
import Mathlib.Analysis.Calculus.Deriv.Linear

/-! # Consequences of naturality: universal polynomials and derivatives -/

namespace Spec
open Torch Torch.Tensor
variable {n m : Nat}

/-- The conjugate entry. -/
def Entry.flip (e : Entry n m) : Entry n m := { e with conj := !e.conj }

theorem Entry.flip_flip (e : Entry n m) : e.flip.flip = e := by
  cases e; simp [Entry.flip]

/-- Conjugation of a polynomial exchanges the variables with their conjugates. -/
@[instance_reducible] noncomputable def starEntry (n m : Nat) : StarRing (MvPolynomial (Entry n m) ℤ) where
  star := MvPolynomial.rename Entry.flip
  star_involutive := fun p => by
    show MvPolynomial.rename _ (MvPolynomial.rename _ p) = p
    rw [MvPolynomial.rename_rename, show (Entry.flip ∘ Entry.flip : Entry n m → Entry n m) = id from funext Entry.flip_flip]
    exact MvPolynomial.rename_id_apply p
  star_mul := fun p q => by
    show MvPolynomial.rename _ (p * q) = MvPolynomial.rename _ q * MvPolynomial.rename _ p
    rw [map_mul, mul_comm]
  star_add := fun p q => map_add _ p q

section
variable {R : Type} [CommRing R] [StarRing R]

theorem value_flip (t : Fin n → Tensor R) (o : Fin m → Option (Tensor R)) (e : Entry n m) :
    Entry.value t o e.flip = star (Entry.value t o e) := by
  cases e with
  | mk a l c => cases c <;> simp [Entry.value, Entry.flip]

theorem aeval_star (t : Fin n → Tensor R) (o : Fin m → Option (Tensor R)) (p : MvPolynomial (Entry n m) ℤ) :
    MvPolynomial.aeval (Entry.value t o) (MvPolynomial.rename Entry.flip p) = star (MvPolynomial.aeval (Entry.value t o) p) := by
  rw [MvPolynomial.aeval_rename]
  induction p using MvPolynomial.induction_on with
  | C a => simp
  | add p q hp hq => rw [map_add, hp, hq, map_add, star_add]
  | mul_X p e hp => rw [map_mul, hp, map_mul, star_mul', MvPolynomial.aeval_X, MvPolynomial.aeval_X]; exact congrArg _ (value_flip t o e)

/-- The tensor of variables. -/
noncomputable def generic (a : Fin n ⊕ Fin m) (s : List Nat) : Tensor (MvPolynomial (Entry n m) ℤ) :=
  ofFn s fun l => MvPolynomial.X ⟨a, l, false⟩

theorem cast_generic (t : Fin n → Tensor R) (o : Fin m → Option (Tensor R)) (a : Fin n ⊕ Fin m) (X : Tensor R)
    (h : ∀ l, Entry.value t o ⟨a, l, false⟩ = X.get l) :
    cast (MvPolynomial.aeval (R := ℤ) (Entry.value t o)).toRingHom (generic a X.shape) = X := by
  refine tensor_ext' rfl fun l => ?_
  show MvPolynomial.aeval (Entry.value t o) (if inB l X.shape then _ else 0) = _
  split_ifs with hl
  · rw [MvPolynomial.aeval_X, h]
  · rw [map_zero, X.canon l (by simpa using hl)]

end

theorem Natural.polynomials {F : Program n m} (hF : Natural F) : GivenByPolynomials F := by
  intro s so
  let _ := starEntry n m
  have key : ∀ (R : Type) [CommRing R] [StarRing R] (t : Fin n → Tensor R) (o : Fin m → Option (Tensor R)), HasShapes s so t o →
      F R t o = (F (MvPolynomial (Entry n m) ℤ) (fun i => generic (.inl i) (s i)) fun j => (so j).map (generic (.inr j))).map
        (List.map (Option.map (cast (MvPolynomial.aeval (R := ℤ) (Entry.value t o)).toRingHom))) := by
    intro R _ _ t o h
    rw [← hF _ R _ (aeval_star t o)]
    congr 1
    · funext i
      rw [← h.1 i]
      exact (cast_generic t o _ _ fun l => rfl).symm
    · funext j
      rw [← h.2 j]
      cases e : o j with
      | none => rfl
      | some z =>
        refine congrArg some (cast_generic t o _ _ fun l => ?_).symm
        show (match o j with | some z => z.get l | none => 0) = _
        rw [e]
  cases e : F (MvPolynomial (Entry n m) ℤ) (fun i => generic (.inl i) (s i)) fun j => (so j).map (generic (.inr j)) with
  | error msg =>
    refine .inl fun R _ _ t o h => ?_
    rw [key R t o h, e]
    exact ⟨msg, rfl⟩
  | ok ps =>
    refine .inr ⟨ps.map (Option.map fun p => (p.shape, p.get)), fun R _ _ t o h => ⟨_, by rw [key R t o h, e]; rfl, ?_⟩⟩
    clear e
    induction ps with
    | nil => exact .nil
    | cons p ps ih =>
      refine .cons ?_ ih
      cases p with
      | none => exact .none
      | some p => exact .some ⟨rfl, fun l => rfl⟩

/-! ## Derivatives -/

/-- Conjugation of polynomials in one variable, which is fixed. -/
@[instance_reducible] noncomputable def starPoly (R : Type) [CommRing R] [StarRing R] : StarRing (Polynomial R) where
  star := Polynomial.map (starRingEnd R)
  star_involutive := fun p => by
    show Polynomial.map _ (Polynomial.map _ p) = p
    rw [Polynomial.map_map, show (starRingEnd R).comp (starRingEnd R) = RingHom.id R from RingHom.ext fun a => star_star a]
    exact Polynomial.map_id
  star_mul := fun p q => by
    show Polynomial.map _ (p * q) = Polynomial.map _ q * Polynomial.map _ p
    rw [Polynomial.map_mul, mul_comm]
  star_add := fun p q => Polynomial.map_add _

section
variable {R : Type} [CommRing R]

/-- `X` is replaced by `ε`. -/
noncomputable def toDual : Polynomial R →+* DualNumber R := Polynomial.eval₂RingHom (TrivSqZeroExt.inlHom R R) DualNumber.eps

theorem toDual_monomial (k : Nat) (a : R) : toDual (Polynomial.monomial k a) =
    (if k = 0 then a else 0, if k = 1 then a else 0) := by
  show Polynomial.eval₂ _ _ _ = _
  rw [Polynomial.eval₂_monomial]
  match k with
  | 0 => rw [pow_zero, mul_one]; rfl
  | 1 =>
    rw [pow_one]
    refine TrivSqZeroExt.ext ?_ ?_
    · simp [TrivSqZeroExt.inlHom]
    · simp [TrivSqZeroExt.inlHom]
  | k + 2 =>
    rw [pow_add, pow_two, DualNumber.eps_mul_eps, mul_zero, mul_zero]
    refine TrivSqZeroExt.ext ?_ ?_ <;> simp

theorem toDual_fst (p : Polynomial R) : (toDual p).fst = p.coeff 0 := by
  induction p using Polynomial.induction_on' with
  | add p q hp hq => rw [map_add, TrivSqZeroExt.fst_add, hp, hq, Polynomial.coeff_add]
  | monomial k a => rw [toDual_monomial, Polynomial.coeff_monomial]; rfl

theorem toDual_snd (p : Polynomial R) : (toDual p).snd = p.coeff 1 := by
  induction p using Polynomial.induction_on' with
  | add p q hp hq => rw [map_add, TrivSqZeroExt.snd_add, hp, hq, Polynomial.coeff_add]
  | monomial k a => rw [toDual_monomial, Polynomial.coeff_monomial]; rfl

theorem toDual_star [StarRing R] (p : Polynomial R) : toDual (p.map (starRingEnd R)) = star (toDual p) := by
  refine TrivSqZeroExt.ext ?_ ?_
  · show _ = star (toDual p).fst
    rw [toDual_fst, toDual_fst, Polynomial.coeff_map]; rfl
  · show _ = star (toDual p).snd
    rw [toDual_snd, toDual_snd, Polynomial.coeff_map]; rfl

/-- The tensor of polynomials `v + X d`. -/
noncomputable def lift (x : Tensor (DualNumber R)) : Tensor (Polynomial R) where
  shape := x.shape
  get := fun l => Polynomial.C (x.get l).fst + Polynomial.X * Polynomial.C (x.get l).snd
  canon := by intro l hl; rw [x.canon l hl]; simp

theorem cast_toDual_lift (x : Tensor (DualNumber R)) : cast toDual (lift x) = x := by
  refine tensor_ext' rfl fun l => ?_
  show toDual (Polynomial.C (x.get l).fst + Polynomial.X * Polynomial.C (x.get l).snd) = x.get l
  refine TrivSqZeroExt.ext ?_ ?_
  · rw [toDual_fst]; simp
  · rw [toDual_snd]; simp

theorem cast_eval_lift (h : R) (x : Tensor (DualNumber R)) : cast (Polynomial.evalRingHom h) (lift x) = along h x := by
  refine tensor_ext' rfl fun l => ?_
  show Polynomial.eval h (Polynomial.C (x.get l).fst + Polynomial.X * Polynomial.C (x.get l).snd) = _
  rw [Polynomial.eval_add, Polynomial.eval_mul, Polynomial.eval_C, Polynomial.eval_C, Polynomial.eval_X]
  rfl

end

theorem hasTangent_cast {K : Type} [RCLike K] (p : Tensor (Polynomial K)) :
    HasTangent (fun h : ℝ => cast (Polynomial.evalRingHom (h : K)) p) (cast toDual p) := by
  refine ⟨fun _ => rfl, fun l => ⟨?_, ?_⟩⟩
  · show Polynomial.eval ((0 : ℝ) : K) (p.get l) = (toDual (p.get l)).fst
    rw [toDual_fst, RCLike.ofReal_zero, Polynomial.coeff_zero_eq_eval_zero]
  · show HasDerivAt (fun h : ℝ => Polynomial.eval (h : K) (p.get l)) (toDual (p.get l)).snd 0
    rw [toDual_snd]
    have h1 : HasDerivAt (fun h : ℝ => (h : K)) 1 0 := by
      have := (RCLike.ofRealCLM (K := K)).hasDerivAt (x := (0 : ℝ))
      simpa using this
    have h2 := (p.get l).hasDerivAt ((0 : ℝ) : K)
    have h3 := HasDerivAt.scomp (0 : ℝ) h2 h1
    have e : (1 : K) • Polynomial.eval ((0 : ℝ) : K) (Polynomial.derivative (p.get l)) = (p.get l).coeff 1 := by
      rw [one_smul, RCLike.ofReal_zero, ← Polynomial.coeff_zero_eq_eval_zero, Polynomial.coeff_derivative]
      simp
    rw [e] at h3
    exact h3

theorem Natural.differentiates {F : Program n m} (hF : Natural F) : DualDifferentiates F := by
  intro K _ t o
  let _ := starPoly K
  have key : F (DualNumber K) t o = (F (Polynomial K) (fun i => lift (t i)) fun j => (o j).map lift).map
      (List.map (Option.map (Tensor.cast toDual))) := by
    rw [← hF (Polynomial K) (DualNumber K) toDual (fun p => toDual_star p)]
    simp only [cast_toDual_lift, Option.map_map]
    congr 1
    funext j
    rw [show (Tensor.cast toDual ∘ lift : Tensor (DualNumber K) → _) = id from funext cast_toDual_lift, Option.map_id]; rfl
  have key2 : ∀ h : ℝ, F K (fun i => along (h : K) (t i)) (fun j => (o j).map (along (h : K))) =
      (F (Polynomial K) (fun i => lift (t i)) fun j => (o j).map lift).map
        (List.map (Option.map (Tensor.cast (Polynomial.evalRingHom (h : K))))) := by
    intro h
    rw [← hF _ _ (Polynomial.evalRingHom (h : K)) ?_]
    · simp only [cast_eval_lift, Option.map_map]
      congr 1
      funext j
      rw [show (Tensor.cast (Polynomial.evalRingHom (h : K)) ∘ lift) = along (h : K) from funext (cast_eval_lift _)]
    · intro p
      show Polynomial.eval (h : K) (p.map (starRingEnd K)) = star (Polynomial.eval (h : K) p)
      have : (h : K) = starRingEnd K (h : K) := by simp
      conv_lhs => rw [this]
      rw [Polynomial.eval_map, Polynomial.eval₂_hom]
      rfl
  rw [key]
  simp only [key2]
  cases F (Polynomial K) (fun i => lift (t i)) fun j => (o j).map lift with
  | error msg => exact ⟨fun ys h => (nomatch h), fun _ h => ⟨msg, rfl⟩⟩
  | ok ps =>
    refine ⟨fun ys h => ?_, fun h => ?_⟩
    · cases h
      refine ⟨ps.map (Option.map fun p => fun h : ℝ => cast (Polynomial.evalRingHom (h : K)) p), fun h => ?_, ?_⟩
      · simp only [List.map_map, Except.map]
        congr 2
        funext p
        cases p <;> rfl
      · induction ps with
        | nil => exact .nil
        | cons p ps ih =>
          refine .cons ?_ ih
          cases p with
          | none => exact .none
          | some p => exact .some (hasTangent_cast p)
    · obtain ⟨_, h⟩ := h
      cases h

end Spec
