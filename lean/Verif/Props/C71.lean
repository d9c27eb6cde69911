import Verif.Proof.Program
import Verif.Proof.CastGrad
import Verif.Props.C11
import Verif.Props.C35
import Verif.Props.C36
import Verif.Props.C37
import Verif.Props.C69
import Mathlib.Analysis.Complex.Basic
import Mathlib.Analysis.Calculus.Deriv.Add
import Mathlib.Analysis.Calculus.Deriv.Mul

/-!
# C71: outputs are polynomials; running on dual numbers differentiates

Stated through `Spec.Program`: a function of the library as a program for numbers of any kind.  The required tensors are `t 0`,
`t 1`, …, the optional ones `o 0`, `o 1`, ….
-/

namespace Props
open Torch Torch.Tensor Spec Phil Phil.Grad

/-- The results of a function that returns a signal and an optional final state. -/
def outs {R : Type} [Zero R] (r : Res (Tensor R × Option (Tensor R))) : Res (List (Option (Tensor R))) := r.map fun p => [some p.1, p.2]

/-- The result of a function that returns one tensor. -/
def out1 {R : Type} [Zero R] (r : Res (Tensor R)) : Res (List (Option (Tensor R))) := r.map fun y => [some y]

/-- The results of a function that returns three gradients. -/
def out3 {R : Type} [Zero R] (r : Res (Option (Tensor R) × Option (Tensor R) × Option (Tensor R))) : Res (List (Option (Tensor R))) :=
  r.map fun p => [p.1, p.2.1, p.2.2]

section
variable {R S : Type} [CommRing R] [CommRing S] (φ : R →+* S)

theorem outs_cast (r : Res (Tensor R × Option (Tensor R))) :
    outs (r.map (castP φ)) = (outs r).map (List.map (Option.map (Tensor.cast φ))) := by
  cases r <;> rfl

theorem out1_cast (r : Res (Tensor R)) :
    out1 (r.map (Tensor.cast φ)) = (out1 r).map (List.map (Option.map (Tensor.cast φ))) := by
  cases r <;> rfl

theorem out3_cast (r : Res (Option (Tensor R) × Option (Tensor R) × Option (Tensor R))) :
    out3 (r.map (castG φ)) = (out3 r).map (List.map (Option.map (Tensor.cast φ))) := by
  cases r <;> rfl

end

/-- **C71, `lti.lfilter`**, every form and unroll factor. -/
theorem C71_lti_lfilter (form : Lti.Form) (u : Option Int) :
    GivenByPolynomials (n := 3) (m := 1) (fun _ _ _ t o => outs (Lti.lfilter (t 0) (t 1) (t 2) (o 0) form u)) ∧
      DualDifferentiates (n := 3) (m := 1) (fun _ _ _ t o => outs (Lti.lfilter (t 0) (t 1) (t 2) (o 0) form u)) := by
  have h : Natural (n := 3) (m := 1) (fun _ _ _ t o => outs (Lti.lfilter (t 0) (t 1) (t 2) (o 0) form u)) :=
    fun R S _ _ _ _ φ hφ t o => by beta_reduce; rw [← outs_cast, ← C69_lti_lfilter φ hφ]
  exact ⟨h.polynomials, h.differentiates⟩

/-- **C71, `lpv.lfilter`**, every form, backend and unroll factor; the external function must have the property of C69. -/
theorem C71_lpv_lfilter (lpc : ∀ (R : Type) [CommRing R] [StarRing R], Lpv.Lpc R)
    (hl : ∀ (R S : Type) [CommRing R] [StarRing R] [CommRing S] [StarRing S] (φ : R →+* S), (∀ a, φ (star a) = star (φ a)) →
      LpcNatural φ (lpc R) (lpc S)) (form : Lti.Form) (bk : Lpv.Backend) (u : Option Int) :
    GivenByPolynomials (n := 3) (m := 1) (fun R _ _ t o => outs (Lpv.lfilter (lpc R) (t 0) (t 1) (t 2) (o 0) form bk u)) ∧
      DualDifferentiates (n := 3) (m := 1) (fun R _ _ t o => outs (Lpv.lfilter (lpc R) (t 0) (t 1) (t 2) (o 0) form bk u)) := by
  have h : Natural (n := 3) (m := 1) (fun R _ _ t o => outs (Lpv.lfilter (lpc R) (t 0) (t 1) (t 2) (o 0) form bk u)) :=
    fun R S _ _ _ _ φ hφ t o => by
      beta_reduce; rw [← outs_cast, ← (C69_lpv_lfilter φ hφ (lpc R) (lpc S) (hl R S φ hφ) (t 0) (t 1) (t 2) (o 0) form bk u false).1]
  exact ⟨h.polynomials, h.differentiates⟩

/-- **C71, `lpv.allpole`.** -/
theorem C71_allpole (lpc : ∀ (R : Type) [CommRing R] [StarRing R], Lpv.Lpc R)
    (hl : ∀ (R S : Type) [CommRing R] [StarRing R] [CommRing S] [StarRing S] (φ : R →+* S), (∀ a, φ (star a) = star (φ a)) →
      LpcNatural φ (lpc R) (lpc S)) (transpose : Bool) :
    GivenByPolynomials (n := 2) (m := 1) (fun R _ _ t o => outs (Lpv.allpole (lpc R) (t 0) (t 1) (o 0) transpose)) ∧
      DualDifferentiates (n := 2) (m := 1) (fun R _ _ t o => outs (Lpv.allpole (lpc R) (t 0) (t 1) (o 0) transpose)) := by
  have h : Natural (n := 2) (m := 1) (fun R _ _ t o => outs (Lpv.allpole (lpc R) (t 0) (t 1) (o 0) transpose)) :=
    fun R S _ _ _ _ φ hφ t o => by
      beta_reduce; rw [← outs_cast, ← (C69_lpv_lfilter φ hφ (lpc R) (lpc S) (hl R S φ hφ) (t 0) (t 0) (t 1) (o 0) .df1 .ssm none transpose).2]
  exact ⟨h.polynomials, h.differentiates⟩

/-- **C71, `state_space`**, time-invariant and time-varying: arguments `A`, `x` and optionally `B`, `C`, `D`, `zi`. -/
theorem C71_state_space (u out : Option Int) :
    (GivenByPolynomials (n := 2) (m := 4) (fun _ _ _ t o => outs (Lti.stateSpace (t 0) (t 1) (o 0) (o 1) (o 2) (o 3) u out)) ∧
      DualDifferentiates (n := 2) (m := 4) (fun _ _ _ t o => outs (Lti.stateSpace (t 0) (t 1) (o 0) (o 1) (o 2) (o 3) u out))) ∧
    GivenByPolynomials (n := 2) (m := 4) (fun _ _ _ t o => outs (Lpv.stateSpace (t 0) (t 1) (o 0) (o 1) (o 2) (o 3) u out)) ∧
      DualDifferentiates (n := 2) (m := 4) (fun _ _ _ t o => outs (Lpv.stateSpace (t 0) (t 1) (o 0) (o 1) (o 2) (o 3) u out)) := by
  have h : Natural (n := 2) (m := 4) (fun _ _ _ t o => outs (Lti.stateSpace (t 0) (t 1) (o 0) (o 1) (o 2) (o 3) u out)) :=
    fun R S _ _ _ _ φ hφ t o => by beta_reduce; rw [← outs_cast, ← (C69_state_space φ hφ _ _ _ _ _ _ u out).1]
  have h' : Natural (n := 2) (m := 4) (fun _ _ _ t o => outs (Lpv.stateSpace (t 0) (t 1) (o 0) (o 1) (o 2) (o 3) u out)) :=
    fun R S _ _ _ _ φ hφ t o => by beta_reduce; rw [← outs_cast, ← (C69_state_space φ hφ _ _ _ _ _ _ u out).2]
  exact ⟨⟨h.polynomials, h.differentiates⟩, h'.polynomials, h'.differentiates⟩

/-- **C71, matrix recurrences**: arguments `A`, `zi`, `x`. -/
theorem C71_state_space_recursion (u : Int) (out : Option Int) :
    (GivenByPolynomials (n := 3) (m := 0) (fun _ _ _ t _ => out1 (Lti.stateSpaceRecursion (t 0) (t 1) (t 2) u out)) ∧
      DualDifferentiates (n := 3) (m := 0) (fun _ _ _ t _ => out1 (Lti.stateSpaceRecursion (t 0) (t 1) (t 2) u out))) ∧
    GivenByPolynomials (n := 3) (m := 0) (fun _ _ _ t _ => out1 (Lpv.stateSpaceRecursion (t 0) (t 1) (t 2) u out)) ∧
      DualDifferentiates (n := 3) (m := 0) (fun _ _ _ t _ => out1 (Lpv.stateSpaceRecursion (t 0) (t 1) (t 2) u out)) := by
  have h : Natural (n := 3) (m := 0) (fun _ _ _ t _ => out1 (Lti.stateSpaceRecursion (t 0) (t 1) (t 2) u out)) :=
    fun R S _ _ _ _ φ hφ t o => by beta_reduce; rw [← out1_cast, ← (C69_state_space_recursion φ _ _ _ u out).1]
  have h' : Natural (n := 3) (m := 0) (fun _ _ _ t _ => out1 (Lpv.stateSpaceRecursion (t 0) (t 1) (t 2) u out)) :=
    fun R S _ _ _ _ φ hφ t o => by beta_reduce; rw [← out1_cast, ← (C69_state_space_recursion φ _ _ _ u out).2]
  exact ⟨⟨h.polynomials, h.differentiates⟩, h'.polynomials, h'.differentiates⟩

/-- **C71, scalar recurrences**: arguments `a`, `init`, `x`. -/
theorem C71_linear_recurrence (u : Int) :
    (GivenByPolynomials (n := 3) (m := 0) (fun _ _ _ t _ => out1 (Lti.linearRecurrence (t 0) (t 1) (t 2) u)) ∧
      DualDifferentiates (n := 3) (m := 0) (fun _ _ _ t _ => out1 (Lti.linearRecurrence (t 0) (t 1) (t 2) u))) ∧
    GivenByPolynomials (n := 3) (m := 0) (fun _ _ _ t _ => out1 (Lpv.linearRecurrence (t 0) (t 1) (t 2) u)) ∧
      DualDifferentiates (n := 3) (m := 0) (fun _ _ _ t _ => out1 (Lpv.linearRecurrence (t 0) (t 1) (t 2) u)) := by
  have h : Natural (n := 3) (m := 0) (fun _ _ _ t _ => out1 (Lti.linearRecurrence (t 0) (t 1) (t 2) u)) :=
    fun R S _ _ _ _ φ hφ t o => by beta_reduce; rw [← out1_cast, ← (C69_linear_recurrence φ hφ _ _ _ u).1]
  have h' : Natural (n := 3) (m := 0) (fun _ _ _ t _ => out1 (Lpv.linearRecurrence (t 0) (t 1) (t 2) u)) :=
    fun R S _ _ _ _ φ hφ t o => by beta_reduce; rw [← out1_cast, ← (C69_linear_recurrence φ hφ _ _ _ u).2]
  exact ⟨⟨h.polynomials, h.differentiates⟩, h'.polynomials, h'.differentiates⟩

/-- **C71, `fir`**, time-invariant and time-varying: arguments `b`, `x` and optionally `zi`. -/
theorem C71_fir (transpose : Bool) :
    (GivenByPolynomials (n := 2) (m := 1) (fun _ _ _ t o => outs (Lti.fir (t 0) (t 1) (o 0) transpose)) ∧
      DualDifferentiates (n := 2) (m := 1) (fun _ _ _ t o => outs (Lti.fir (t 0) (t 1) (o 0) transpose))) ∧
    GivenByPolynomials (n := 2) (m := 1) (fun _ _ _ t o => outs (Lpv.fir (t 0) (t 1) (o 0) transpose)) ∧
      DualDifferentiates (n := 2) (m := 1) (fun _ _ _ t o => outs (Lpv.fir (t 0) (t 1) (o 0) transpose)) := by
  have h : Natural (n := 2) (m := 1) (fun _ _ _ t o => outs (Lti.fir (t 0) (t 1) (o 0) transpose)) :=
    fun R S _ _ _ _ φ hφ t o => by beta_reduce; rw [← outs_cast, ← (C69_fir φ hφ _ _ _ transpose).1]
  have h' : Natural (n := 2) (m := 1) (fun _ _ _ t o => outs (Lpv.fir (t 0) (t 1) (o 0) transpose)) :=
    fun R S _ _ _ _ φ hφ t o => by beta_reduce; rw [← outs_cast, ← (C69_fir φ hφ _ _ _ transpose).2]
  exact ⟨⟨h.polynomials, h.differentiates⟩, h'.polynomials, h'.differentiates⟩

/-- **C71, `comb_filter`**: arguments `a`, `x` and optionally `zi`. -/
theorem C71_comb_filter (ext : Bool) (delay u : Int) :
    GivenByPolynomials (n := 2) (m := 1) (fun _ _ _ t o => outs (Lti.combFilter ext (t 0) delay (t 1) (o 0) u)) ∧
      DualDifferentiates (n := 2) (m := 1) (fun _ _ _ t o => outs (Lti.combFilter ext (t 0) delay (t 1) (o 0) u)) := by
  have h : Natural (n := 2) (m := 1) (fun _ _ _ t o => outs (Lti.combFilter ext (t 0) delay (t 1) (o 0) u)) :=
    fun R S _ _ _ _ φ hφ t o => by beta_reduce; rw [← outs_cast, ← C69_comb_filter φ hφ ext _ _ delay _ u]
  exact ⟨h.polynomials, h.differentiates⟩

/-- **C71, second derivatives**: also the backward rules of the three recurrences (arguments `A`, `zi`, the output and its
gradient) are differentiated by dual numbers, whichever gradients are asked for, if the ops they call have the property of C69:
forward mode over reverse mode gives the second derivatives. -/
theorem C71_backward (op op2 : ∀ (R : Type) [CommRing R] [StarRing R], Tensor R → Tensor R → Tensor R → Res (Tensor R))
    (h : ∀ (R S : Type) [CommRing R] [StarRing R] [CommRing S] [StarRing S] (φ : R →+* S), (∀ a, φ (star a) = star (φ a)) →
      OpNatural φ (op R) (op S) ∧ OpNatural φ (op2 R) (op2 S)) (needs : Bool × Bool × Bool) :
    (GivenByPolynomials (n := 4) (m := 0) (fun R _ _ t _ => out3 (ltiRecurBackward (op R) needs (t 0) (t 1) (t 2) (t 3))) ∧
      DualDifferentiates (n := 4) (m := 0) (fun R _ _ t _ => out3 (ltiRecurBackward (op R) needs (t 0) (t 1) (t 2) (t 3)))) ∧
    (GivenByPolynomials (n := 4) (m := 0) (fun R _ _ t _ => out3 (ltiRecurNBackward (op R) (op2 R) needs (t 0) (t 1) (t 2) (t 3))) ∧
      DualDifferentiates (n := 4) (m := 0) (fun R _ _ t _ => out3 (ltiRecurNBackward (op R) (op2 R) needs (t 0) (t 1) (t 2) (t 3)))) ∧
    GivenByPolynomials (n := 4) (m := 0) (fun R _ _ t _ => out3 (recurNBackward (op R) (op2 R) needs (t 0) (t 1) (t 2) (t 3))) ∧
      DualDifferentiates (n := 4) (m := 0) (fun R _ _ t _ => out3 (recurNBackward (op R) (op2 R) needs (t 0) (t 1) (t 2) (t 3))) := by
  have h1 : Natural (n := 4) (m := 0) (fun R _ _ t _ => out3 (ltiRecurBackward (op R) needs (t 0) (t 1) (t 2) (t 3))) :=
    fun R S _ _ _ _ φ hφ t o => by
      beta_reduce; rw [← out3_cast, ← (C69_backward φ hφ (h R S φ hφ).1 (h R S φ hφ).2 needs _ _ _ _).1]
  have h2 : Natural (n := 4) (m := 0) (fun R _ _ t _ => out3 (ltiRecurNBackward (op R) (op2 R) needs (t 0) (t 1) (t 2) (t 3))) :=
    fun R S _ _ _ _ φ hφ t o => by
      beta_reduce; rw [← out3_cast, ← (C69_backward φ hφ (h R S φ hφ).1 (h R S φ hφ).2 needs _ _ _ _).2.1]
  have h3 : Natural (n := 4) (m := 0) (fun R _ _ t _ => out3 (recurNBackward (op R) (op2 R) needs (t 0) (t 1) (t 2) (t 3))) :=
    fun R S _ _ _ _ φ hφ t o => by
      beta_reduce; rw [← out3_cast, ← (C69_backward φ hφ (h R S φ hφ).1 (h R S φ hφ).2 needs _ _ _ _).2.2]
  exact ⟨⟨h1.polynomials, h1.differentiates⟩, ⟨h2.polynomials, h2.differentiates⟩, h3.polynomials, h3.differentiates⟩

/-! ## The custom forward-mode rules -/

/-- The values of a tensor of dual numbers. -/
def primal {R : Type} [CommRing R] (x : Tensor (DualNumber R)) : Tensor R where
  shape := x.shape
  get := fun l => (x.get l).fst
  canon := by intro l hl; rw [x.canon l hl]; rfl

/-- The tangents of a tensor of dual numbers. -/
def tangent {R : Type} [CommRing R] (x : Tensor (DualNumber R)) : Tensor R where
  shape := x.shape
  get := fun l => (x.get l).snd
  canon := by intro l hl; rw [x.canon l hl]; rfl

section
variable {α : Type} [CommRing α]

theorem primal_ofFn (s : List Nat) (f : List Nat → DualNumber α) : primal (ofFn s f) = ofFn s fun l => (f l).fst := by
  refine tensor_ext' rfl fun l => ?_
  show (if inB l s then f l else 0).fst = if inB l s then (f l).fst else 0
  split_ifs <;> rfl

theorem tangent_ofFn (s : List Nat) (f : List Nat → DualNumber α) : tangent (ofFn s f) = ofFn s fun l => (f l).snd := by
  refine tensor_ext' rfl fun l => ?_
  show (if inB l s then f l else 0).snd = if inB l s then (f l).snd else 0
  split_ifs <;> rfl

theorem scalarRec_dual (a : Nat → DualNumber α) (z : DualNumber α) (x : Nat → DualNumber α) (n : Nat) :
    (scalarRec a z x n).fst = scalarRec (fun t => (a t).fst) z.fst (fun t => (x t).fst) n ∧
      (scalarRec a z x n).snd = dScalarRec (fun t => (a t).fst) (fun t => (a t).snd) z.fst z.snd (fun t => (x t).fst)
        (fun t => (x t).snd) n := by
  induction n with
  | zero => exact ⟨rfl, rfl⟩
  | succ n ih =>
    constructor
    · show (a n * _ + x n).fst = _
      rw [TrivSqZeroExt.fst_add, TrivSqZeroExt.fst_mul, ih.1]; rfl
    · show (a n * _ + x n).snd = _
      rw [TrivSqZeroExt.snd_add, TrivSqZeroExt.snd_mul, ih.1, ih.2, op_smul_eq_smul, smul_eq_mul, smul_eq_mul,
        mul_comm (scalarRec _ _ _ n)]
      rfl

theorem vecRec_dual (M : Nat) (A : Nat → Nat → Nat → DualNumber α) (z : Nat → DualNumber α) (x : Nat → Nat → DualNumber α) (n i : Nat) :
    (vecRec M A z x n i).fst = vecRec M (fun t i k => (A t i k).fst) (fun i => (z i).fst) (fun t i => (x t i).fst) n i ∧
      (vecRec M A z x n i).snd = dVecRec M (fun t i k => (A t i k).fst) (fun t i k => (A t i k).snd) (fun i => (z i).fst)
        (fun i => (z i).snd) (fun t i => (x t i).fst) (fun t i => (x t i).snd) n i := by
  induction n generalizing i with
  | zero => exact ⟨rfl, rfl⟩
  | succ n ih =>
    have e1 : ∀ (f : Nat → DualNumber α), (∑ k ∈ Finset.range M, f k).fst = ∑ k ∈ Finset.range M, (f k).fst :=
      fun f => map_sum (TrivSqZeroExt.fstHom α α α) f _
    have e2 : ∀ (f : Nat → DualNumber α), (∑ k ∈ Finset.range M, f k).snd = ∑ k ∈ Finset.range M, (f k).snd :=
      fun f => map_sum (TrivSqZeroExt.sndHom α α) f _
    constructor
    · show (∑ k ∈ Finset.range M, A n i k * _ + x n i).fst = _
      rw [TrivSqZeroExt.fst_add, e1]
      simp only [TrivSqZeroExt.fst_mul, ih]
      rfl
    · show (∑ k ∈ Finset.range M, A n i k * _ + x n i).snd = _
      rw [TrivSqZeroExt.snd_add, e2]
      simp only [TrivSqZeroExt.snd_mul, ih, op_smul_eq_smul, smul_eq_mul, Finset.sum_add_distrib]
      show _ = _ + _ + _
      simp only [mul_comm (vecRec _ _ _ _ n _)]

/-- **C71, forward-mode rule of the scalar recurrence**: value and `jvp` rule together are the run on dual numbers, over any
ring; as the dual numbers are such a ring, forward mode may be nested to any order. -/
theorem C71_jvp_scalar {op : Op α} {op' : Op (DualNumber α)} (hop : IsScalarOp op) (hop' : IsScalarOp op') {B N : Nat}
    {A : Tensor (DualNumber α)} {a : Nat → DualNumber α} (hA : BatchVals B A a) (init : Nat → DualNumber α)
    (x : Nat → Nat → DualNumber α) :
    ∃ Y, op' A (t1 B init) (t2 B N x) = .ok Y ∧
      op (primal A) (primal (t1 B init)) (primal (t2 B N x)) = .ok (primal Y) ∧
      ltiRecurJvp op (primal A) (primal (t1 B init)) (primal Y) (some (tangent A)) (some (tangent (t1 B init)))
        (some (tangent (t2 B N x))) = .ok (tangent Y) := by
  have hp : BatchVals B (primal A) fun b => (a b).fst := by
    cases hA with
    | scalar c => rw [show primal (t0 c) = t0 c.fst from primal_ofFn _ _]; exact .scalar _
    | single g => rw [show primal (t1 1 g) = t1 1 fun i => (g i).fst from primal_ofFn _ _]; exact .single _
    | full g => rw [show primal (t1 B a) = t1 B fun i => (a i).fst from primal_ofFn _ _]; exact .full _
  have ht : BatchVals B (tangent A) fun b => (a b).snd := by
    cases hA with
    | scalar c => rw [show tangent (t0 c) = t0 c.snd from tangent_ofFn _ _]; exact .scalar _
    | single g => rw [show tangent (t1 1 g) = t1 1 fun i => (g i).snd from tangent_ofFn _ _]; exact .single _
    | full g => rw [show tangent (t1 B a) = t1 B fun i => (a i).snd from tangent_ofFn _ _]; exact .full _
  obtain ⟨out, e, e'⟩ := C35_jvp (N := N) hop hp (fun i => (init i).fst) (fun i t => (x i t).fst) (Or.inr ⟨_, rfl, ht⟩)
    (Or.inr rfl : _ ∨ some (t1 B fun i => (init i).snd) = _) (Or.inr rfl : _ ∨ some (t2 B N fun i t => (x i t).snd) = _)
  have eo : out = t2 B N fun b n => scalarRec (fun _ => (a b).fst) ((init b).fst) (fun t => (x b t).fst) (n + 1) :=
    Except.ok.inj (e.symm.trans (hop B N _ _ _ _ hp))
  refine ⟨_, hop' B N A a init x hA, ?_, ?_⟩
  · rw [show primal (t1 B init) = t1 B fun i => (init i).fst from primal_ofFn _ _,
      show primal (t2 B N x) = t2 B N fun i t => (x i t).fst from primal_ofFn _ _, e, eo]
    refine congrArg Except.ok (Eq.trans ?_ (primal_ofFn _ _).symm)
    simp only [(scalarRec_dual _ _ _ _).1]
    rfl
  · rw [show primal (t1 B init) = t1 B fun i => (init i).fst from primal_ofFn _ _,
      show tangent (t1 B init) = t1 B fun i => (init i).snd from tangent_ofFn _ _,
      show tangent (t2 B N x) = t2 B N fun i t => (x i t).snd from tangent_ofFn _ _,
      show primal (t2 B N fun b n => scalarRec (fun _ => a b) (init b) (x b) (n + 1)) = out by
        rw [eo]
        refine (primal_ofFn _ _).trans ?_
        simp only [(scalarRec_dual _ _ _ _).1]
        rfl, e']
    refine congrArg Except.ok (Eq.trans ?_ (tangent_ofFn _ _).symm)
    simp only [(scalarRec_dual _ _ _ _).2]
    rfl

/-- **C71, forward-mode rule of the time-invariant matrix recurrence.** -/
theorem C71_jvp_matrix {M : Nat} {op : Op α} {op' : Op (DualNumber α)} (hop : IsMatrixOp M op) (hop' : IsMatrixOp M op') {B N : Nat}
    {A : Tensor (DualNumber α)} {a : Nat → Nat → Nat → DualNumber α} (hA : MatVals B M M A a) (zi : Nat → Nat → DualNumber α)
    (x : Nat → Nat → Nat → DualNumber α) :
    ∃ Y, op' A (t2 B M zi) (t3 B N M x) = .ok Y ∧
      op (primal A) (primal (t2 B M zi)) (primal (t3 B N M x)) = .ok (primal Y) ∧
      ltiRecurNJvp op (primal A) (primal (t2 B M zi)) (primal Y) (some (tangent A)) (some (tangent (t2 B M zi)))
        (some (tangent (t3 B N M x))) = .ok (tangent Y) := by
  have hp : MatVals B M M (primal A) fun b i k => (a b i k).fst := by
    cases hA with
    | shared f => rw [show primal (t2 M M f) = t2 M M fun i k => (f i k).fst from primal_ofFn _ _]; exact .shared _
    | batched f => rw [show primal (t3 B M M a) = t3 B M M fun b i k => (a b i k).fst from primal_ofFn _ _]; exact .batched _
  have ht : MatVals B M M (tangent A) fun b i k => (a b i k).snd := by
    cases hA with
    | shared f => rw [show tangent (t2 M M f) = t2 M M fun i k => (f i k).snd from tangent_ofFn _ _]; exact .shared _
    | batched f => rw [show tangent (t3 B M M a) = t3 B M M fun b i k => (a b i k).snd from tangent_ofFn _ _]; exact .batched _
  obtain ⟨out, e, e'⟩ := C36_jvp (N := N) hop hp (fun i m => (zi i m).fst) (fun i t m => (x i t m).fst) (Or.inr ⟨_, rfl, ht⟩)
    (Or.inr rfl : _ ∨ some (t2 B M fun i m => (zi i m).snd) = _) (Or.inr rfl : _ ∨ some (t3 B N M fun i t m => (x i t m).snd) = _)
  have eo := Except.ok.inj (e.symm.trans (hop B N _ _ _ _ hp))
  have ey := hop' B N A a zi x hA
  refine ⟨_, ey, ?_, ?_⟩
  · rw [show primal (t2 B M zi) = t2 B M fun i m => (zi i m).fst from primal_ofFn _ _,
      show primal (t3 B N M x) = t3 B N M fun i t m => (x i t m).fst from primal_ofFn _ _, e, eo]
    refine congrArg Except.ok (Eq.trans ?_ (primal_ofFn _ _).symm)
    simp only [(vecRec_dual _ _ _ _ _ _).1]
    rfl
  · rw [show primal (t2 B M zi) = t2 B M fun i m => (zi i m).fst from primal_ofFn _ _,
      show tangent (t2 B M zi) = t2 B M fun i m => (zi i m).snd from tangent_ofFn _ _,
      show tangent (t3 B N M x) = t3 B N M fun i t m => (x i t m).snd from tangent_ofFn _ _,
      show primal (t3 B N M _) = out by
        rw [eo]
        refine (primal_ofFn _ _).trans ?_
        simp only [(vecRec_dual _ _ _ _ _ _).1]
        rfl, e']
    refine congrArg Except.ok (Eq.trans ?_ (tangent_ofFn _ _).symm)
    simp only [(vecRec_dual _ _ _ _ _ _).2]
    rfl

/-- **C71, forward-mode rule of the time-varying matrix recurrence.** -/
theorem C71_jvp_varying {M : Nat} {op : Op α} {op' : Op (DualNumber α)} (hop : IsVaryingOp M op) (hop' : IsVaryingOp M op') {B N : Nat}
    {A : Tensor (DualNumber α)} {a : Nat → Nat → Nat → Nat → DualNumber α} (hA : MatSeq B N M M A a) (zi : Nat → Nat → DualNumber α)
    (x : Nat → Nat → Nat → DualNumber α) :
    ∃ Y, op' A (t2 B M zi) (t3 B N M x) = .ok Y ∧
      op (primal A) (primal (t2 B M zi)) (primal (t3 B N M x)) = .ok (primal Y) ∧
      recurNJvp op (primal A) (primal (t2 B M zi)) (primal Y) (some (tangent A)) (some (tangent (t2 B M zi)))
        (some (tangent (t3 B N M x))) = .ok (tangent Y) := by
  have hp : MatSeq B N M M (primal A) fun b t i k => (a b t i k).fst := by
    cases hA with
    | shared f => rw [show primal (t3 N M M f) = t3 N M M fun t i k => (f t i k).fst from primal_ofFn _ _]; exact .shared _
    | batched f => rw [show primal (t4 B N M M a) = t4 B N M M fun b t i k => (a b t i k).fst from primal_ofFn _ _]; exact .batched _
  have ht : MatSeq B N M M (tangent A) fun b t i k => (a b t i k).snd := by
    cases hA with
    | shared f => rw [show tangent (t3 N M M f) = t3 N M M fun t i k => (f t i k).snd from tangent_ofFn _ _]; exact .shared _
    | batched f => rw [show tangent (t4 B N M M a) = t4 B N M M fun b t i k => (a b t i k).snd from tangent_ofFn _ _]; exact .batched _
  obtain ⟨out, e, e'⟩ := C37_jvp (N := N) hop hp (fun i m => (zi i m).fst) (fun i t m => (x i t m).fst) (Or.inr ⟨_, rfl, ht⟩)
    (Or.inr rfl : _ ∨ some (t2 B M fun i m => (zi i m).snd) = _) (Or.inr rfl : _ ∨ some (t3 B N M fun i t m => (x i t m).snd) = _)
  have eo := Except.ok.inj (e.symm.trans (hop B N _ _ _ _ hp))
  have ey := hop' B N A a zi x hA
  refine ⟨_, ey, ?_, ?_⟩
  · rw [show primal (t2 B M zi) = t2 B M fun i m => (zi i m).fst from primal_ofFn _ _,
      show primal (t3 B N M x) = t3 B N M fun i t m => (x i t m).fst from primal_ofFn _ _, e, eo]
    refine congrArg Except.ok (Eq.trans ?_ (primal_ofFn _ _).symm)
    simp only [(vecRec_dual _ _ _ _ _ _).1]
    rfl
  · rw [show primal (t2 B M zi) = t2 B M fun i m => (zi i m).fst from primal_ofFn _ _,
      show tangent (t2 B M zi) = t2 B M fun i m => (zi i m).snd from tangent_ofFn _ _,
      show tangent (t3 B N M x) = t3 B N M fun i t m => (x i t m).snd from tangent_ofFn _ _,
      show primal (t3 B N M _) = out by
        rw [eo]
        refine (primal_ofFn _ _).trans ?_
        simp only [(vecRec_dual _ _ _ _ _ _).1]
        rfl, e']
    refine congrArg Except.ok (Eq.trans ?_ (tangent_ofFn _ _).symm)
    simp only [(vecRec_dual _ _ _ _ _ _).2]
    rfl

end

/-! ## The derivatives of `lfilter` are filters -/

/-- **C71, derivatives of `lfilter`** (real data, every form).  Let `b`, `a`, `x` move along lines.  The derivative of the output
is the output of `lfilter` with numerator 1 and denominator `a` for the input
`Σ db_j x_{t-j} + Σ b_j dx_{t-j} - Σ da_k y_{t-k}`: the gradients of the coefficients come from delayed inputs and outputs filtered
by `1/a`. -/
theorem C71_lfilter_derivative {B N K P : Nat} {b a X : ℝ → Tensor ℝ} {bv db av da x dx : Nat → Nat → ℝ} {one : Tensor ℝ}
    {form : Lti.Form} {u : Option Int} (hb : ∀ h, Rows B K (b h) fun i j => bv i j + h * db i j)
    (ha : ∀ h, Rows B P (a h) fun i k => av i k + h * da i k) (hx : ∀ h, Sig N B (X h) fun i t => x i t + h * dx i t)
    (hone : Rows B 1 one fun _ _ => 1) (hf : form = .df1 ∨ form = .df2 ∨ form = .tdf1 ∨ form = .tdf2)
    (hB : 0 < B) (hK : 0 < K) (hP : 0 < P) (hN : 0 < N) (hu : ∀ i, u = some i → 1 ≤ i) :
    ∃ (Y : ℝ → Nat → Int → ℝ) (D : Nat → Int → ℝ),
      (∀ h, Lti.lfilter (b h) (a h) (X h) none form u = .ok (packed (allFlat (X h) (b h) (a h) none) B N fun i t => Y h i t, none)) ∧
      (∀ i (t : Nat), HasDerivAt (fun h => Y h i t) (D i t) 0) ∧
      ∀ r : Tensor ℝ, Sig N B r (fun i t => (∑ j ∈ Finset.range K, (db i j * causal (x i) ((t : Int) - j) + bv i j * causal (dx i) ((t : Int) - j))) -
          ∑ k ∈ Finset.range P, da i k * Y 0 i ((t : Int) - (k + 1))) →
        Lti.lfilter one (a 0) r none form u = .ok (packed (allFlat r one (a 0) none) B N fun i t => D i t, none) := by
  have key := fun h => C11_lfilter (form := form) (u := u) (hb h) (ha h) (hx h) hf hB hK (by omega) hN hu
  choose Y h1 h2 h3 using key
  -- the derivative as a solution of the difference equation
  obtain ⟨D, hD0, hD⟩ : ∃ D : Nat → Int → ℝ, (∀ i n, n < 0 → D i n = 0) ∧ ∀ i (n : Int), D i n =
      causal (fun t : Nat => (∑ j ∈ Finset.range K, (db i j * causal (x i) ((t : Int) - j) + bv i j * causal (dx i) ((t : Int) - j))) -
          ∑ k ∈ Finset.range P, da i k * Y 0 i ((t : Int) - (k + 1))) n - ∑ k ∈ Finset.range P, av i k * D i (n - (k + 1)) := by
    obtain ⟨D, g1, g2, -⟩ := C11_lfilter (B := B) (N := 1) (K := 1) (form := .df2) (u := none) (.batched fun _ _ => (1 : ℝ))
      (.batched av) (.batched B fun i (t : Nat) => (∑ j ∈ Finset.range K, (db i j * causal (x i) ((t : Int) - j) +
        bv i j * causal (dx i) ((t : Int) - j))) - ∑ k ∈ Finset.range P, da i k * Y 0 i ((t : Int) - (k + 1)))
      (by simp) hB (by decide) (P := P) (by omega) (by decide) (by simp)
    refine ⟨D, g1, fun i n => ?_⟩
    rw [g2, Finset.sum_range_one, one_mul, Nat.cast_zero, sub_zero]
  refine ⟨Y, D, h3, ?_, fun r hr => ?_⟩
  · intro i t
    have main : ∀ (m : Nat) (n : Int), n < m → HasDerivAt (fun h => Y h i n) (D i n) 0 := by
      intro m
      induction m with
      | zero =>
        intro n hn
        simp only [h1 _ i n hn, hD0 i n hn]
        exact hasDerivAt_const _ _
      | succ m ih =>
        intro n hn
        by_cases hneg : n < 0
        · exact ih n (by omega)
        · have e : (fun h => Y h i n) = fun h => (∑ j ∈ Finset.range K, (bv i j + h * db i j) * (causal (x i) (n - j) + h * causal (dx i) (n - j))) -
              ∑ k ∈ Finset.range P, (av i k + h * da i k) * Y h i (n - (k + 1)) := by
            funext h
            rw [h2 h i n]
            refine congrArg₂ (· - ·) (Finset.sum_congr rfl fun j _ => ?_) rfl
            congr 1
            unfold causal
            split_ifs <;> simp
          have line : ∀ c d : ℝ, HasDerivAt (fun h : ℝ => c + h * d) d 0 := by
            intro c d
            have := ((hasDerivAt_id (0 : ℝ)).mul_const d).const_add c
            simpa using this
          rw [e, hD i n]
          have hs1 := HasDerivAt.fun_sum (u := Finset.range K) (x := (0 : ℝ)) fun j _ =>
            (line (bv i j) (db i j)).mul (line (causal (x i) (n - j)) (causal (dx i) (n - j)))
          have hs2 := HasDerivAt.fun_sum (u := Finset.range P) (x := (0 : ℝ)) fun k _ =>
            (line (av i k) (da i k)).mul (ih (n - (k + 1)) (by omega))
          refine (hs1.sub hs2).congr_deriv ?_
          obtain ⟨t, rfl⟩ : ∃ t : Nat, n = t := ⟨n.toNat, by omega⟩
          rw [show ∀ f : Nat → ℝ, causal f (t : Int) = f t from fun f => by simp [causal]]
          simp only [zero_mul, add_zero, Finset.sum_add_distrib]
          ring
    exact main (t + 1) t (by omega)
  · have h0 := ha 0
    simp only [zero_mul, add_zero] at h0
    obtain ⟨D', g1, g2, g3⟩ := C11_lfilter (form := form) (u := u) hone h0 hr hf hB (by decide) (by omega) hN hu
    have : D' = D := by
      funext i
      refine C11_unique (K := 1) (P := P) (b := fun _ => 1) (a := av i) (g1 i) (hD0 i) (fun n _ => g2 i n) fun n _ => ?_
      rw [hD i n, Finset.sum_range_one, one_mul, Nat.cast_zero, sub_zero]
    rw [g3, this]

/-! ## Instances -/

/-- The run on dual numbers returns: two taps, one pole at `-1/2` moved with speed 1, five samples. -/
example : ∃ ys, outs (Lti.lfilter (t1 2 fun _ => (1 : DualNumber ℝ)) (t1 1 fun _ => (TrivSqZeroExt.inl (1 / 2) + DualNumber.eps : DualNumber ℝ)) (t1 5 fun _ => 1) none .df2 none) =
    .ok ys := by
  obtain ⟨y, -, -, h⟩ := Lti.lfilter_diff (form := .df2) (u := none) (B := 1) (N := 5) (K := 2) (P := 1) (.shared fun _ => (1 : DualNumber ℝ))
    (.shared fun _ => (TrivSqZeroExt.inl (1 / 2) + DualNumber.eps : DualNumber ℝ)) (.flat fun _ => 1) (by simp) (Or.inl rfl) (by decide) (by decide) (by decide) (by decide)
    (by simp)
  exact ⟨_, by rw [h]; rfl⟩

example := C71_lpv_lfilter (fun _ _ _ => Lpv.refLpc) (fun _ _ _ _ _ _ φ _ => Lpv.refLpc_natural φ) .tdf2 .ssm none

example := C71_allpole (fun _ _ _ => Lpv.refLpc) (fun _ _ _ _ _ _ φ _ => Lpv.refLpc_natural φ) true

example := C71_backward (fun _ _ _ A z x => Lti.stateSpaceRecursion A z x 2 none) (fun _ _ _ A z x => Lti.stateSpaceRecursion A z x 1 none)
  (fun _ _ _ _ _ _ φ _ => ⟨fun A z x => Lti.stateSpaceRecursion_cast φ A z x 2 none, fun A z x => Lti.stateSpaceRecursion_cast φ A z x 1 none⟩)
  (true, true, false)

example := C71_jvp_scalar (B := 3) (N := 7) (Host.ltiRecurCpu_isScalarOp C38_alternating_case) (Host.ltiRecurCpu_isScalarOp C38_alternating_case)
  (.full fun i => (((i : ℤ) + 2, 1) : DualNumber ℤ)) (fun i => ((i : ℤ), 0)) (fun i t => ((i : ℤ) + t, 3))

example := C71_jvp_matrix (B := 3) (N := 7) (M := 2) (Host.ltiRecurNCpu_isMatrixOp C38_alternating_case 2)
  (Host.ltiRecurNCpu_isMatrixOp C38_alternating_case 2) (.batched fun i j k => (((i : ℤ) + j * k, 1) : DualNumber ℤ))
  (fun i m => ((i : ℤ), m)) (fun i t m => ((i : ℤ) + t, m))

example := C71_jvp_varying (B := 3) (N := 7) (M := 2) (Host.recurNCpu_isVaryingOp C38_alternating_case 2)
  (Host.recurNCpu_isVaryingOp C38_alternating_case 2) (.shared fun t j k => (((t : ℤ) + j * k, 1) : DualNumber ℤ))
  (fun i m => ((i : ℤ), m)) (fun i t m => ((i : ℤ) + t, m))

/-- One pole at `-1/2`, moved with speed 1; the signal is constant and does not move. -/
example := C71_lfilter_derivative (B := 2) (N := 5) (K := 1) (P := 1) (b := fun h => t1 1 fun _ => 1 + h * 0) (a := fun h => t1 1 fun _ => 1 / 2 + h * 1)
  (X := fun h => t2 2 5 fun i t => (i : ℝ) + t + h * 0) (bv := fun _ _ => 1) (db := fun _ _ => 0) (av := fun _ _ => 1 / 2) (da := fun _ _ => 1)
  (x := fun i t => (i : ℝ) + t) (dx := fun _ _ => 0) (one := t1 1 fun _ => 1) (form := .tdf2) (u := none)
  (fun h => .shared _) (fun h => .shared _) (fun h => .batched 2 _) (.shared _) (by simp) (by decide) (by decide) (by decide) (by decide) (by simp)

end Props
