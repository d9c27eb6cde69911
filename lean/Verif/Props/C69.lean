import Verif.Proof.CastUse
import Verif.Proof.CastField
import Verif.Proof.CastGrad
import Verif.Props.C14
import Mathlib.Analysis.Complex.Basic

/-!
# C69: change of numbers

`cast φ x` is `x` with every entry `a` replaced by `φ a`, for a ring homomorphism `φ` that respects complex conjugation (`star`): real
numbers read as complex ones, a polynomial with a number put in for the variable, the derivative carried along as a dual number, or
complex conjugation itself.

Full claim: every function gives on converted arguments the converted result: the same shape, the same exception if there is one, and
the entries `φ y`.  This holds for all arguments, well-shaped or not, and for every unroll factor.

The consequences drawn: real arguments read as complex ones (`C69_real_as_complex`), conjugated arguments (`C69_conjugate`), arguments
with entries in a subring, e.g. integers (`C69_subring`).
-/

namespace Props
open Torch Torch.Tensor Spec Phil

section
variable {α β : Type} [CommRing α] [CommRing β] [StarRing α] [StarRing β] (φ : α →+* β) (hφ : ∀ a, φ (star a) = star (φ a))
include hφ

/-- **C69, scalar recurrences.** -/
theorem C69_linear_recurrence (a init x : Tensor α) (u : Int) :
    Lti.linearRecurrence (cast φ a) (cast φ init) (cast φ x) u = (Lti.linearRecurrence a init x u).map (cast φ) ∧
      Lpv.linearRecurrence (cast φ a) (cast φ init) (cast φ x) u = (Lpv.linearRecurrence a init x u).map (cast φ) :=
  ⟨Lti.linearRecurrence_cast φ hφ a init x u, Lpv.linearRecurrence_cast φ hφ a init x u⟩

omit [StarRing α] [StarRing β] hφ in
/-- **C69, matrix recurrences.** -/
theorem C69_state_space_recursion (A zi x : Tensor α) (u : Int) (out : Option Int) :
    Lti.stateSpaceRecursion (cast φ A) (cast φ zi) (cast φ x) u out = (Lti.stateSpaceRecursion A zi x u out).map (cast φ) ∧
      Lpv.stateSpaceRecursion (cast φ A) (cast φ zi) (cast φ x) u out = (Lpv.stateSpaceRecursion A zi x u out).map (cast φ) :=
  ⟨Lti.stateSpaceRecursion_cast φ A zi x u out, Lpv.stateSpaceRecursion_cast φ A zi x u out⟩

/-- **C69, `state_space`**, time-invariant and time-varying. -/
theorem C69_state_space (A x : Tensor α) (B C D zi : Option (Tensor α)) (u out : Option Int) :
    Lti.stateSpace (cast φ A) (cast φ x) (B.map (cast φ)) (C.map (cast φ)) (D.map (cast φ)) (zi.map (cast φ)) u out =
        (Lti.stateSpace A x B C D zi u out).map (castP φ) ∧
      Lpv.stateSpace (cast φ A) (cast φ x) (B.map (cast φ)) (C.map (cast φ)) (D.map (cast φ)) (zi.map (cast φ)) u out =
        (Lpv.stateSpace A x B C D zi u out).map (castP φ) :=
  ⟨Lti.stateSpace_cast φ hφ A x B C D zi u out, Lpv.stateSpace_cast φ hφ A x B C D zi u out⟩

/-- **C69, `comb_filter`**, with and without the extension. -/
theorem C69_comb_filter (ext : Bool) (a x : Tensor α) (delay : Int) (zi : Option (Tensor α)) (u : Int) :
    Lti.combFilter ext (cast φ a) delay (cast φ x) (zi.map (cast φ)) u = (Lti.combFilter ext a delay x zi u).map (castP φ) :=
  Lti.combFilter_cast φ hφ ext a x delay zi u

/-- **C69, `fir`**, time-invariant and time-varying. -/
theorem C69_fir (b x : Tensor α) (zi : Option (Tensor α)) (transpose : Bool) :
    Lti.fir (cast φ b) (cast φ x) (zi.map (cast φ)) transpose = (Lti.fir b x zi transpose).map (castP φ) ∧
      Lpv.fir (cast φ b) (cast φ x) (zi.map (cast φ)) transpose = (Lpv.fir b x zi transpose).map (castP φ) :=
  ⟨Lti.fir_cast φ hφ b x zi transpose, Lpv.fir_cast φ hφ b x zi transpose⟩

/-- **C69, `lti.lfilter`**, every form. -/
theorem C69_lti_lfilter (b a x : Tensor α) (zi : Option (Tensor α)) (form : Lti.Form) (u : Option Int) :
    Lti.lfilter (cast φ b) (cast φ a) (cast φ x) (zi.map (cast φ)) form u = (Lti.lfilter b a x zi form u).map (castP φ) :=
  Lti.lfilter_cast φ hφ b a x zi form u

/-- **C69, `allpole` and `lpv.lfilter`**, every form and backend.  The external function `sample_wise_lpc` must have the property
itself. -/
theorem C69_lpv_lfilter (lpc : Lpv.Lpc α) (lpc' : Lpv.Lpc β) (hl : LpcNatural φ lpc lpc') (b a x : Tensor α) (zi : Option (Tensor α))
    (form : Lti.Form) (bk : Lpv.Backend) (u : Option Int) (transpose : Bool) :
    Lpv.lfilter lpc' (cast φ b) (cast φ a) (cast φ x) (zi.map (cast φ)) form bk u =
        (Lpv.lfilter lpc b a x zi form bk u).map (castP φ) ∧
      Lpv.allpole lpc' (cast φ a) (cast φ x) (zi.map (cast φ)) transpose = (Lpv.allpole lpc a x zi transpose).map (castP φ) :=
  ⟨Lpv.lfilter_cast φ hφ lpc lpc' hl b a x zi form bk u, Lpv.allpole_cast φ hφ lpc lpc' hl a x zi transpose⟩

omit [StarRing α] [StarRing β] hφ in
/-- **C69, helpers**: `lfiltic`, `companion`, `diag_shift`, `matrices_cumdot`. -/
theorem C69_helpers (b a y : Tensor α) (x : Option (Tensor α)) (offset : Nat) (discardEnd : Bool) :
    Lti.lfiltic (cast φ b) (cast φ a) (cast φ y) (x.map (cast φ)) = (Lti.lfiltic b a y x).map (cast φ) ∧
      Mat.companion (cast φ a) = (Mat.companion a).map (cast φ) ∧
      Lpv.diagShift (cast φ b) offset discardEnd = (Lpv.diagShift b offset discardEnd).map (cast φ) ∧
      Mat.matricesCumdot (cast φ a) = (Mat.matricesCumdot a).map (cast φ) :=
  ⟨Lti.lfiltic_cast φ b a y x, Mat.companion_cast φ a, Lpv.diagShift_cast φ b offset discardEnd, Mat.matricesCumdot_cast φ a⟩

/-- **C69, backward rules** of the three recurrences, whichever gradients are asked for; the op called has the property itself. -/
theorem C69_backward {op op2 : Tensor α → Tensor α → Tensor α → Res (Tensor α)}
    {op' op2' : Tensor β → Tensor β → Tensor β → Res (Tensor β)} (h : OpNatural φ op op') (h2 : OpNatural φ op2 op2')
    (needs : Bool × Bool × Bool) (A zi y g : Tensor α) :
    Grad.ltiRecurBackward op' needs (cast φ A) (cast φ zi) (cast φ y) (cast φ g) =
        (Grad.ltiRecurBackward op needs A zi y g).map (castG φ) ∧
      Grad.ltiRecurNBackward op' op2' needs (cast φ A) (cast φ zi) (cast φ y) (cast φ g) =
        (Grad.ltiRecurNBackward op op2 needs A zi y g).map (castG φ) ∧
      Grad.recurNBackward op' op2' needs (cast φ A) (cast φ zi) (cast φ y) (cast φ g) =
        (Grad.recurNBackward op op2 needs A zi y g).map (castG φ) :=
  ⟨Grad.ltiRecurBackward_cast φ hφ h needs A zi y g, Grad.ltiRecurNBackward_cast φ hφ h h2 needs A zi y g,
    Grad.recurNBackward_cast φ hφ h h2 needs A zi y g⟩

omit [StarRing α] [StarRing β] hφ in
/-- **C69, forward-mode rules.** -/
theorem C69_jvp {op : Tensor α → Tensor α → Tensor α → Res (Tensor α)} {op' : Tensor β → Tensor β → Tensor β → Res (Tensor β)}
    (h : OpNatural φ op op') (A zi y : Tensor α) (dA dz dx : Option (Tensor α)) :
    Grad.ltiRecurJvp op' (cast φ A) (cast φ zi) (cast φ y) (dA.map (cast φ)) (dz.map (cast φ)) (dx.map (cast φ)) =
        (Grad.ltiRecurJvp op A zi y dA dz dx).map (cast φ) ∧
      Grad.ltiRecurNJvp op' (cast φ A) (cast φ zi) (cast φ y) (dA.map (cast φ)) (dz.map (cast φ)) (dx.map (cast φ)) =
        (Grad.ltiRecurNJvp op A zi y dA dz dx).map (cast φ) ∧
      Grad.recurNJvp op' (cast φ A) (cast φ zi) (cast φ y) (dA.map (cast φ)) (dz.map (cast φ)) (dx.map (cast φ)) =
        (Grad.recurNJvp op A zi y dA dz dx).map (cast φ) :=
  ⟨Grad.ltiRecurJvp_cast φ h A zi y dA dz dx, Grad.ltiRecurNJvp_cast φ h A zi y dA dz dx, Grad.recurNJvp_cast φ h A zi y dA dz dx⟩

end

section
variable {α β : Type} [Field α] [Field β] (φ : α →+* β)

/-- **C69, `lfilter_zi` and `filtfilt`**, which solve linear equations, and `polydiv`, which divides. -/
theorem C69_filtfilt [StarRing α] [StarRing β] (hφ : ∀ a, φ (star a) = star (φ a)) (b a x : Tensor α) (bz : Option (Tensor α))
    (transpose : Bool) (padmode : Option Lti.PadMode) (padlen : Option Int) (form : Lti.Form) (u : Option Int) :
    Lti.lfilterZi (cast φ a) (bz.map (cast φ)) transpose = (Lti.lfilterZi a bz transpose).map (cast φ) ∧
      Lti.filtfilt (cast φ b) (cast φ a) (cast φ x) padmode padlen form u = (Lti.filtfilt b a x padmode padlen form u).map (cast φ) :=
  ⟨Lti.lfilterZi_cast φ hφ a bz transpose, Lti.filtfilt_cast φ hφ b a x padmode padlen form u⟩

/-- **C69, `polydiv`.** -/
theorem C69_polydiv (u v : Tensor α) :
    Poly.polydiv (cast φ u) (cast φ v) = (Poly.polydiv u v).map (Prod.map (cast φ) (cast φ)) :=
  Poly.polydiv_cast φ u v

end

/-- The real numbers in the complex numbers respect conjugation. -/
theorem ofReal_star (r : ℝ) : Complex.ofRealHom (star r) = star (Complex.ofRealHom r) := (Complex.conj_ofReal r).symm

/-- Integers as real numbers. -/
example := C69_lti_lfilter (Int.castRingHom ℝ) (fun _ => rfl) (t1 2 fun i => (i : ℤ) + 1) (t1 1 fun _ => 3) (t1 5 fun t => (t : ℤ)) none
  .df2 none

/-- The function that stands for `sample_wise_lpc` in the examples has the property. -/
example := C69_lpv_lfilter Complex.ofRealHom ofReal_star Lpv.refLpc Lpv.refLpc (Lpv.refLpc_natural _) (t2 5 2 fun t i => (t : ℝ) + i)
  (t2 5 1 fun t _ => (t : ℝ)) (t1 5 fun t => (t : ℝ)) none .df2 .torchlpc none false

/-- The matrix recurrence as the op called by the backward rules. -/
example := C69_backward Complex.ofRealHom ofReal_star (op := fun A z x => Lti.stateSpaceRecursion A z x 2 none)
  (op' := fun A z x => Lti.stateSpaceRecursion A z x 2 none) (op2 := fun A z x => Lti.stateSpaceRecursion A z x 1 none)
  (op2' := fun A z x => Lti.stateSpaceRecursion A z x 1 none) (fun A z x => Lti.stateSpaceRecursion_cast _ A z x 2 none)
  (fun A z x => Lti.stateSpaceRecursion_cast _ A z x 1 none) (true, false, true) (t2 2 2 fun i j => (i : ℝ) - j) (t2 1 2 fun _ m => (m : ℝ))
  (t3 1 4 2 fun _ t m => (t : ℝ) + m) (t3 1 4 2 fun _ t m => (t : ℝ) * m)

/-- The same for the forward-mode rules. -/
example := C69_jvp Complex.ofRealHom (op := fun A z x => Lti.stateSpaceRecursion A z x 2 none)
  (op' := fun A z x => Lti.stateSpaceRecursion A z x 2 none) (fun A z x => Lti.stateSpaceRecursion_cast _ A z x 2 none)
  (t2 2 2 fun i j => (i : ℝ) - j) (t2 1 2 fun _ m => (m : ℝ)) (t3 1 4 2 fun _ t m => (t : ℝ) + m) (some (t2 2 2 fun _ _ => 1)) none none

/-- **C69, real arguments read as complex ones** give the same (real) results, or the same exception. -/
theorem C69_real_as_complex (b a x : Tensor ℝ) (zi : Option (Tensor ℝ)) (A : Tensor ℝ) (B C D : Option (Tensor ℝ)) (form : Lti.Form)
    (u out : Option Int) (padmode : Option Lti.PadMode) (padlen : Option Int) (ext : Bool) (delay : Int) (v : Int) :
    Lti.lfilter (cast Complex.ofRealHom b) (cast Complex.ofRealHom a) (cast Complex.ofRealHom x) (zi.map (cast Complex.ofRealHom)) form u =
        (Lti.lfilter b a x zi form u).map (castP Complex.ofRealHom) ∧
      Lti.filtfilt (cast Complex.ofRealHom b) (cast Complex.ofRealHom a) (cast Complex.ofRealHom x) padmode padlen form u =
        (Lti.filtfilt b a x padmode padlen form u).map (cast Complex.ofRealHom) ∧
      Lti.stateSpace (cast Complex.ofRealHom A) (cast Complex.ofRealHom x) (B.map (cast Complex.ofRealHom))
          (C.map (cast Complex.ofRealHom)) (D.map (cast Complex.ofRealHom)) (zi.map (cast Complex.ofRealHom)) u out =
        (Lti.stateSpace A x B C D zi u out).map (castP Complex.ofRealHom) ∧
      Lpv.stateSpace (cast Complex.ofRealHom A) (cast Complex.ofRealHom x) (B.map (cast Complex.ofRealHom))
          (C.map (cast Complex.ofRealHom)) (D.map (cast Complex.ofRealHom)) (zi.map (cast Complex.ofRealHom)) u out =
        (Lpv.stateSpace A x B C D zi u out).map (castP Complex.ofRealHom) ∧
      Lti.combFilter ext (cast Complex.ofRealHom a) delay (cast Complex.ofRealHom x) (zi.map (cast Complex.ofRealHom)) v =
        (Lti.combFilter ext a delay x zi v).map (castP Complex.ofRealHom) :=
  ⟨C69_lti_lfilter _ ofReal_star b a x zi form u, (C69_filtfilt _ ofReal_star b a x none true padmode padlen form u).2,
    (C69_state_space _ ofReal_star A x B C D zi u out).1, (C69_state_space _ ofReal_star A x B C D zi u out).2,
    C69_comb_filter _ ofReal_star ext a x delay zi v⟩

section
variable {α : Type} [CommRing α] [StarRing α]

/-- Conjugation is a change of numbers. -/
theorem conj_eq_cast (x : Tensor α) : conj x = cast (starRingEnd α) x :=
  tensor_ext' rfl fun l => by
    show (if inB l x.shape then star (x.get l) else 0) = star (x.get l)
    split_ifs with h
    · rfl
    · rw [x.canon l (by simpa using h), star_zero]

/-- Conjugation of an optional tensor. -/
theorem conj_option (z : Option (Tensor α)) : z.map conj = z.map (cast (starRingEnd α)) := by
  cases z with
  | none => rfl
  | some z => exact congrArg some (conj_eq_cast z)

/-- Conjugation of a result. -/
theorem conj_result (r : Res (Tensor α × Option (Tensor α))) :
    r.map (fun p => (conj p.1, p.2.map conj)) = r.map (castP (starRingEnd α)) := by
  cases r with
  | error e => rfl
  | ok p => exact congrArg Except.ok (Prod.ext (conj_eq_cast p.1) (conj_option p.2))

/-- **C69, conjugated arguments** give the conjugated result. -/
theorem C69_conjugate (b a x A : Tensor α) (B C D zi : Option (Tensor α)) (form : Lti.Form) (u out : Option Int) (ext : Bool)
    (delay v : Int) :
    Lti.lfilter (conj b) (conj a) (conj x) (zi.map conj) form u =
        (Lti.lfilter b a x zi form u).map (fun p => (conj p.1, p.2.map conj)) ∧
      Lti.stateSpace (conj A) (conj x) (B.map conj) (C.map conj) (D.map conj) (zi.map conj) u out =
        (Lti.stateSpace A x B C D zi u out).map (fun p => (conj p.1, p.2.map conj)) ∧
      Lpv.stateSpace (conj A) (conj x) (B.map conj) (C.map conj) (D.map conj) (zi.map conj) u out =
        (Lpv.stateSpace A x B C D zi u out).map (fun p => (conj p.1, p.2.map conj)) ∧
      Lti.combFilter ext (conj a) delay (conj x) (zi.map conj) v =
        (Lti.combFilter ext a delay x zi v).map (fun p => (conj p.1, p.2.map conj)) := by
  have hφ : ∀ a : α, starRingEnd α (star a) = star (starRingEnd α a) := fun _ => rfl
  simp only [conj_eq_cast, conj_option]
  exact ⟨C69_lti_lfilter _ hφ b a x zi form u, (C69_state_space _ hφ A x B C D zi u out).1, (C69_state_space _ hφ A x B C D zi u out).2,
    C69_comb_filter _ hφ ext a x delay zi v⟩

/-- **C69, subrings**: if all entries of the arguments lie in a subring that is closed under conjugation (the integers, the rational
numbers, the real numbers among the complex ones), then so do those of the results. -/
theorem C69_subring (S : Subring α) (hS : ∀ a ∈ S, star a ∈ S) {b a x : Tensor α} {zi : Option (Tensor α)} (hb : ∀ l, b.get l ∈ S)
    (ha : ∀ l, a.get l ∈ S) (hx : ∀ l, x.get l ∈ S) (hz : ∀ z, zi = some z → ∀ l, z.get l ∈ S) {form : Lti.Form} {u : Option Int}
    {y : Tensor α} {zf : Option (Tensor α)} (h : Lti.lfilter b a x zi form u = .ok (y, zf)) :
    (∀ l, y.get l ∈ S) ∧ ∀ z, zf = some z → ∀ l, z.get l ∈ S := by
  obtain ⟨b, rfl⟩ := exists_cast S b hb
  obtain ⟨a, rfl⟩ := exists_cast S a ha
  obtain ⟨x, rfl⟩ := exists_cast S x hx
  obtain ⟨zi, rfl⟩ := exists_cast_option S zi hz
  let _ := starSubring S hS
  rw [C69_lti_lfilter S.subtype (fun _ => rfl) b a x zi form u] at h
  cases hr : Lti.lfilter b a x zi form u with
  | error e => rw [hr] at h; cases h
  | ok p =>
    rw [hr] at h
    obtain ⟨y', z'⟩ := p
    cases h
    refine ⟨fun l => (y'.get l).2, ?_⟩
    rintro z hz l
    cases z' with
    | none => cases hz
    | some z' =>
      cases hz
      exact (z'.get l).2

/-- Integer coefficients, signal and state, as real numbers: the output of the filter and its final state are integers. -/
example : ∃ y zf, Lti.lfilter (t1 3 fun j => (j : ℝ)) (t1 2 fun k => (k : ℝ) + 1) (t2 2 5 fun i t => (t : ℝ) - i)
      (some (t2 2 2 fun i m => (i : ℝ) + m)) .df2 none = .ok (y, some zf) ∧
    (∀ l, y.get l ∈ (Int.castRingHom ℝ).range) ∧ ∀ l, zf.get l ∈ (Int.castRingHom ℝ).range := by
  obtain ⟨w, -, -, h⟩ := C14_df2 (b := t1 3 fun j => (j : ℝ)) (a := t1 2 fun k => (k : ℝ) + 1) (X := t2 2 5 fun i t => (t : ℝ) - i)
    (zi := t2 2 2 fun i m => (i : ℝ) + m) (u := none) (.shared _) (.shared _) (.batched 2 _) (.full _) (by decide) (by decide) (by decide)
    (by simp)
  have e1 : ∀ n (f : Nat → ℝ), (∀ i, f i ∈ (Int.castRingHom ℝ).range) → ∀ l, (t1 n f).get l ∈ (Int.castRingHom ℝ).range := by
    intro n f hf l
    show (if inB l [n] then f _ else 0) ∈ _
    split_ifs
    · exact hf _
    · exact zero_mem _
  have e2 : ∀ m n (f : Nat → Nat → ℝ), (∀ i j, f i j ∈ (Int.castRingHom ℝ).range) → ∀ l, (t2 m n f).get l ∈ (Int.castRingHom ℝ).range := by
    intro m n f hf l
    show (if inB l [m, n] then f _ _ else 0) ∈ _
    split_ifs
    · exact hf _ _
    · exact zero_mem _
  have hi : ∀ i : Nat, (i : ℝ) ∈ (Int.castRingHom ℝ).range := fun i => ⟨i, by simp⟩
  have r := C69_subring (Int.castRingHom ℝ).range (fun _ h => h) (e1 _ _ hi) (e1 _ _ fun k => add_mem (hi k) (one_mem _))
    (e2 _ _ _ fun i t => sub_mem (hi t) (hi i)) (by rintro z ⟨⟩; exact e2 _ _ _ fun i m => add_mem (hi i) (hi m)) h
  exact ⟨_, _, h, r.1, r.2 _ rfl⟩

/-- **C69, subrings, `state_space`.** -/
theorem C69_subring_state_space (S : Subring α) (hS : ∀ a ∈ S, star a ∈ S) {A x : Tensor α} {B C D zi : Option (Tensor α)}
    (hA : ∀ l, A.get l ∈ S) (hx : ∀ l, x.get l ∈ S) (hB : ∀ z, B = some z → ∀ l, z.get l ∈ S) (hC : ∀ z, C = some z → ∀ l, z.get l ∈ S)
    (hD : ∀ z, D = some z → ∀ l, z.get l ∈ S) (hz : ∀ z, zi = some z → ∀ l, z.get l ∈ S) {u out : Option Int} {y : Tensor α}
    {zf : Option (Tensor α)}
    (h : Lti.stateSpace A x B C D zi u out = .ok (y, zf) ∨ Lpv.stateSpace A x B C D zi u out = .ok (y, zf)) :
    (∀ l, y.get l ∈ S) ∧ ∀ z, zf = some z → ∀ l, z.get l ∈ S := by
  obtain ⟨A, rfl⟩ := exists_cast S A hA
  obtain ⟨x, rfl⟩ := exists_cast S x hx
  obtain ⟨B, rfl⟩ := exists_cast_option S B hB
  obtain ⟨C, rfl⟩ := exists_cast_option S C hC
  obtain ⟨D, rfl⟩ := exists_cast_option S D hD
  obtain ⟨zi, rfl⟩ := exists_cast_option S zi hz
  let _ := starSubring S hS
  have key : ∀ r : Res (Tensor S × Option (Tensor S)), r.map (castP S.subtype) = .ok (y, zf) →
      (∀ l, y.get l ∈ S) ∧ ∀ z, zf = some z → ∀ l, z.get l ∈ S := by
    intro r hr
    cases r with
    | error e => cases hr
    | ok p =>
      obtain ⟨y', z'⟩ := p
      cases hr
      refine ⟨fun l => (y'.get l).2, ?_⟩
      rintro z hz l
      cases z' with
      | none => cases hz
      | some z' =>
        cases hz
        exact (z'.get l).2
  rcases h with h | h
  · rw [(C69_state_space S.subtype (fun _ => rfl) A x B C D zi u out).1] at h
    exact key _ h
  · rw [(C69_state_space S.subtype (fun _ => rfl) A x B C D zi u out).2] at h
    exact key _ h

/-- A state-space model with integer matrices, as rational numbers. -/
example : ∃ y zf, Lti.stateSpace (t2 2 2 fun i j => (i : ℚ) - j) (t2 1 3 fun _ t => (t : ℚ)) (some (t1 2 fun i => (i : ℚ)))
      (some (t1 2 fun i => (i : ℚ))) none none none none = .ok (y, zf) ∧ ∀ l, y.get l ∈ (Int.castRingHom ℚ).range := by
  have hs : shape? ((Lti.stateSpace (t2 2 2 fun i j => (i : ℚ) - j) (t2 1 3 fun _ t => (t : ℚ)) (some (t1 2 fun i => (i : ℚ)))
      (some (t1 2 fun i => (i : ℚ))) none none none none).map Prod.fst) = some [1, 3] := by decide +kernel
  have e1 : ∀ n (f : Nat → ℚ), (∀ i, f i ∈ (Int.castRingHom ℚ).range) → ∀ l, (t1 n f).get l ∈ (Int.castRingHom ℚ).range := by
    intro n f hf l
    show (if inB l [n] then f _ else 0) ∈ _
    split_ifs
    · exact hf _
    · exact zero_mem _
  have e2 : ∀ m n (f : Nat → Nat → ℚ), (∀ i j, f i j ∈ (Int.castRingHom ℚ).range) → ∀ l, (t2 m n f).get l ∈ (Int.castRingHom ℚ).range := by
    intro m n f hf l
    show (if inB l [m, n] then f _ _ else 0) ∈ _
    split_ifs
    · exact hf _ _
    · exact zero_mem _
  have hi : ∀ i : Nat, (i : ℚ) ∈ (Int.castRingHom ℚ).range := fun i => ⟨i, by simp⟩
  cases h : Lti.stateSpace (t2 2 2 fun i j => (i : ℚ) - j) (t2 1 3 fun _ t => (t : ℚ)) (some (t1 2 fun i => (i : ℚ)))
      (some (t1 2 fun i => (i : ℚ))) none none none none with
  | error e => rw [h] at hs; cases hs
  | ok p =>
    exact ⟨p.1, p.2, rfl, (C69_subring_state_space (y := p.1) (zf := p.2) (Int.castRingHom ℚ).range (fun _ h => h)
      (e2 _ _ _ fun i j => sub_mem (hi i) (hi j)) (e2 _ _ _ fun _ t => hi t) (by rintro z ⟨⟩; exact e1 _ _ hi)
      (by rintro z ⟨⟩; exact e1 _ _ hi) (by rintro z ⟨⟩) (by rintro z ⟨⟩) (.inl h)).1⟩

end

end Props
