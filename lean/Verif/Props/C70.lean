import Verif.Proof.ShapeOnly
import Verif.Proof.CastField
import Verif.Proof.CastGrad
import Verif.Props.C16
import Verif.Props.C38
import Mathlib.Analysis.Complex.Basic

/-!
# C70: shapes decide

Full claim: whether a call raises, which exception it raises, and the shapes of what it returns are decided by the shapes of the
arguments (and the non-tensor arguments).  The values of the entries play no part, nor does it matter what kind of numbers they are: the
two calls compared may even work on different kinds of numbers `α` and `β`, real and complex ones say.  In particular nothing is ever
branched on a value, so that tracing a function for one input (`torch.jit.trace`, `torch.compile`, CUDA graphs) is right for all inputs
of the shape.

`lfilter_zi` and `filtfilt` are no such functions: they solve linear equations, which raises if the matrix is singular
(`C70_lfilter_zi_values`).
-/

namespace Props
open Torch Torch.Tensor Spec Phil
variable {α β : Type} [CommRing α] [CommRing β] [StarRing α] [StarRing β]

/-- **C70, scalar recurrences.** -/
theorem C70_linear_recurrence {a init x : Tensor α} {a' init' x' : Tensor β} (ha : a.shape = a'.shape) (hi : init.shape = init'.shape)
    (hx : x.shape = x'.shape) (u : Int) :
    (Lti.linearRecurrence a init x u).map shape = (Lti.linearRecurrence a' init' x' u).map shape ∧
      (Lpv.linearRecurrence a init x u).map shape = (Lpv.linearRecurrence a' init' x' u).map shape := by
  constructor <;> refine map_shape_of ?_
  · rw [← Lti.linearRecurrence_cast _ toZero_star, ← Lti.linearRecurrence_cast _ toZero_star, cast_toZero ha, cast_toZero hi, cast_toZero hx]
  · rw [← Lpv.linearRecurrence_cast _ toZero_star, ← Lpv.linearRecurrence_cast _ toZero_star, cast_toZero ha, cast_toZero hi, cast_toZero hx]

omit [StarRing α] [StarRing β] in
/-- **C70, matrix recurrences.** -/
theorem C70_state_space_recursion {A zi x : Tensor α} {A' zi' x' : Tensor β} (hA : A.shape = A'.shape) (hz : zi.shape = zi'.shape)
    (hx : x.shape = x'.shape) (u : Int) (out : Option Int) :
    (Lti.stateSpaceRecursion A zi x u out).map shape = (Lti.stateSpaceRecursion A' zi' x' u out).map shape ∧
      (Lpv.stateSpaceRecursion A zi x u out).map shape = (Lpv.stateSpaceRecursion A' zi' x' u out).map shape := by
  constructor <;> refine map_shape_of ?_
  · rw [← Lti.stateSpaceRecursion_cast, ← Lti.stateSpaceRecursion_cast, cast_toZero hA, cast_toZero hz, cast_toZero hx]
  · rw [← Lpv.stateSpaceRecursion_cast, ← Lpv.stateSpaceRecursion_cast, cast_toZero hA, cast_toZero hz, cast_toZero hx]

/-- **C70, `state_space`.** -/
theorem C70_state_space {A x : Tensor α} {B C D zi : Option (Tensor α)} {A' x' : Tensor β} {B' C' D' zi' : Option (Tensor β)}
    (hA : A.shape = A'.shape) (hx : x.shape = x'.shape) (hB : B.map shape = B'.map shape) (hC : C.map shape = C'.map shape)
    (hD : D.map shape = D'.map shape) (hz : zi.map shape = zi'.map shape) (u out : Option Int) :
    (Lti.stateSpace A x B C D zi u out).map shapes = (Lti.stateSpace A' x' B' C' D' zi' u out).map shapes ∧
      (Lpv.stateSpace A x B C D zi u out).map shapes = (Lpv.stateSpace A' x' B' C' D' zi' u out).map shapes := by
  constructor <;> refine map_shapes_of ?_
  · rw [← Lti.stateSpace_cast _ toZero_star, ← Lti.stateSpace_cast _ toZero_star, cast_toZero hA, cast_toZero hx, cast_toZero_option hB,
      cast_toZero_option hC, cast_toZero_option hD, cast_toZero_option hz]
  · rw [← Lpv.stateSpace_cast _ toZero_star, ← Lpv.stateSpace_cast _ toZero_star, cast_toZero hA, cast_toZero hx, cast_toZero_option hB,
      cast_toZero_option hC, cast_toZero_option hD, cast_toZero_option hz]

/-- **C70, `comb_filter`.** -/
theorem C70_comb_filter {a x : Tensor α} {zi : Option (Tensor α)} {a' x' : Tensor β} {zi' : Option (Tensor β)} (ha : a.shape = a'.shape)
    (hx : x.shape = x'.shape) (hz : zi.map shape = zi'.map shape) (ext : Bool) (delay u : Int) :
    (Lti.combFilter ext a delay x zi u).map shapes = (Lti.combFilter ext a' delay x' zi' u).map shapes := by
  refine map_shapes_of ?_
  rw [← Lti.combFilter_cast _ toZero_star, ← Lti.combFilter_cast _ toZero_star, cast_toZero ha, cast_toZero hx, cast_toZero_option hz]

/-- **C70, `fir`.** -/
theorem C70_fir {b x : Tensor α} {zi : Option (Tensor α)} {b' x' : Tensor β} {zi' : Option (Tensor β)} (hb : b.shape = b'.shape)
    (hx : x.shape = x'.shape) (hz : zi.map shape = zi'.map shape) (transpose : Bool) :
    (Lti.fir b x zi transpose).map shapes = (Lti.fir b' x' zi' transpose).map shapes ∧
      (Lpv.fir b x zi transpose).map shapes = (Lpv.fir b' x' zi' transpose).map shapes := by
  constructor <;> refine map_shapes_of ?_
  · rw [← Lti.fir_cast _ toZero_star, ← Lti.fir_cast _ toZero_star, cast_toZero hb, cast_toZero hx, cast_toZero_option hz]
  · rw [← Lpv.fir_cast _ toZero_star, ← Lpv.fir_cast _ toZero_star, cast_toZero hb, cast_toZero hx, cast_toZero_option hz]

/-- **C70, `lti.lfilter`**, every form. -/
theorem C70_lti_lfilter {b a x : Tensor α} {zi : Option (Tensor α)} {b' a' x' : Tensor β} {zi' : Option (Tensor β)}
    (hb : b.shape = b'.shape) (ha : a.shape = a'.shape) (hx : x.shape = x'.shape) (hz : zi.map shape = zi'.map shape) (form : Lti.Form)
    (u : Option Int) :
    (Lti.lfilter b a x zi form u).map shapes = (Lti.lfilter b' a' x' zi' form u).map shapes := by
  refine map_shapes_of ?_
  rw [← Lti.lfilter_cast _ toZero_star, ← Lti.lfilter_cast _ toZero_star, cast_toZero hb, cast_toZero ha, cast_toZero hx,
    cast_toZero_option hz]

/-- **C70, `lpv.lfilter` and `allpole`**, every form and backend; the external function must have the property itself. -/
theorem C70_lpv_lfilter {lpc : Lpv.Lpc α} {lpc' : Lpv.Lpc β} (hl : LpcShape lpc lpc') {b a x : Tensor α} {zi : Option (Tensor α)}
    {b' a' x' : Tensor β} {zi' : Option (Tensor β)} (hb : b.shape = b'.shape) (ha : a.shape = a'.shape) (hx : x.shape = x'.shape)
    (hz : zi.map shape = zi'.map shape) (form : Lti.Form) (bk : Lpv.Backend) (u : Option Int) (transpose : Bool) :
    (Lpv.lfilter lpc b a x zi form bk u).map shapes = (Lpv.lfilter lpc' b' a' x' zi' form bk u).map shapes ∧
      (Lpv.allpole lpc a x zi transpose).map shapes = (Lpv.allpole lpc' a' x' zi' transpose).map shapes := by
  obtain ⟨lpc0, h1, h2⟩ := hl.natural
  constructor <;> refine map_shapes_of ?_
  · rw [← Lpv.lfilter_cast _ toZero_star lpc lpc0 h1, ← Lpv.lfilter_cast _ toZero_star lpc' lpc0 h2, cast_toZero hb, cast_toZero ha,
      cast_toZero hx, cast_toZero_option hz]
  · rw [← Lpv.allpole_cast _ toZero_star lpc lpc0 h1, ← Lpv.allpole_cast _ toZero_star lpc' lpc0 h2, cast_toZero ha, cast_toZero hx,
      cast_toZero_option hz]

omit [StarRing α] [StarRing β] in
/-- **C70, helpers**: `lfiltic`, `companion`, `diag_shift`, `matrices_cumdot`. -/
theorem C70_helpers {b a y : Tensor α} {x : Option (Tensor α)} {b' a' y' : Tensor β} {x' : Option (Tensor β)} (hb : b.shape = b'.shape)
    (ha : a.shape = a'.shape) (hy : y.shape = y'.shape) (hx : x.map shape = x'.map shape) (offset : Nat) (discardEnd : Bool) :
    (Lti.lfiltic b a y x).map shape = (Lti.lfiltic b' a' y' x').map shape ∧
      (Mat.companion a).map shape = (Mat.companion a').map shape ∧
      (Lpv.diagShift b offset discardEnd).map shape = (Lpv.diagShift b' offset discardEnd).map shape ∧
      (Mat.matricesCumdot a).map shape = (Mat.matricesCumdot a').map shape := by
  refine ⟨map_shape_of ?_, map_shape_of ?_, map_shape_of ?_, map_shape_of ?_⟩
  · rw [← Lti.lfiltic_cast, ← Lti.lfiltic_cast, cast_toZero hb, cast_toZero ha, cast_toZero hy, cast_toZero_option hx]
  · rw [← Mat.companion_cast, ← Mat.companion_cast, cast_toZero ha]
  · rw [← Lpv.diagShift_cast, ← Lpv.diagShift_cast, cast_toZero hb]
  · rw [← Mat.matricesCumdot_cast, ← Mat.matricesCumdot_cast, cast_toZero ha]

/-- **C70, backward rules**; the op called must have the property itself. -/
theorem C70_backward {op op2 : Tensor α → Tensor α → Tensor α → Res (Tensor α)}
    {op' op2' : Tensor β → Tensor β → Tensor β → Res (Tensor β)} (h : OpShape op op') (h2 : OpShape op2 op2')
    {A zi y g : Tensor α} {A' zi' y' g' : Tensor β} (hA : A.shape = A'.shape) (hz : zi.shape = zi'.shape) (hy : y.shape = y'.shape)
    (hg : g.shape = g'.shape) (needs : Bool × Bool × Bool) :
    (Grad.ltiRecurBackward op needs A zi y g).map gradShapes = (Grad.ltiRecurBackward op' needs A' zi' y' g').map gradShapes ∧
      (Grad.ltiRecurNBackward op op2 needs A zi y g).map gradShapes =
        (Grad.ltiRecurNBackward op' op2' needs A' zi' y' g').map gradShapes ∧
      (Grad.recurNBackward op op2 needs A zi y g).map gradShapes = (Grad.recurNBackward op' op2' needs A' zi' y' g').map gradShapes := by
  obtain ⟨op0, e, e'⟩ := h.natural
  obtain ⟨op20, e2, e2'⟩ := h2.natural
  refine ⟨map_gradShapes_of ?_, map_gradShapes_of ?_, map_gradShapes_of ?_⟩
  · rw [← Grad.ltiRecurBackward_cast _ toZero_star e, ← Grad.ltiRecurBackward_cast _ toZero_star e', cast_toZero hA, cast_toZero hz,
      cast_toZero hy, cast_toZero hg]
  · rw [← Grad.ltiRecurNBackward_cast _ toZero_star e e2, ← Grad.ltiRecurNBackward_cast _ toZero_star e' e2', cast_toZero hA,
      cast_toZero hz, cast_toZero hy, cast_toZero hg]
  · rw [← Grad.recurNBackward_cast _ toZero_star e e2, ← Grad.recurNBackward_cast _ toZero_star e' e2', cast_toZero hA,
      cast_toZero hz, cast_toZero hy, cast_toZero hg]

omit [StarRing α] [StarRing β] in
/-- Sizes are read off the shape. -/
theorem size_of_shape {x : Tensor α} {y : Tensor β} (h : x.shape = y.shape) (d : Int) : x.size d = y.size d := by
  unfold Tensor.size rank
  rw [h]

omit [StarRing α] [StarRing β] in
/-- The function that stands for `sample_wise_lpc` in the examples has the property. -/
theorem refLpc_shape : LpcShape (Lpv.refLpc : Lpv.Lpc α) (Lpv.refLpc : Lpv.Lpc β) := by
  intro x a zi x' a' zi' hx ha hz
  unfold Lpv.refLpc
  rw [size_of_shape hx, size_of_shape hx, size_of_shape ha]
  rfl

/-- A real filter and a complex filter. -/
example := C70_lti_lfilter (b := t1 2 fun i => (i : ℝ) + 1) (a := t2 3 1 fun i _ => (i : ℝ)) (x := t1 5 fun t => (t : ℝ))
  (zi := some (t1 1 fun _ => 2)) (b' := t1 2 fun _ => Complex.I) (a' := t2 3 1 fun _ _ => 1) (x' := t1 5 fun _ => 0)
  (zi' := some (t1 1 fun _ => Complex.I)) rfl rfl rfl rfl .tdf2 none

/-- Two calls that raise: the state is of the wrong length. -/
example := C70_lti_lfilter (b := t1 2 fun i => (i : ℝ) + 1) (a := t1 1 fun _ => (3 : ℝ)) (x := t1 5 fun t => (t : ℝ))
  (zi := some (t1 4 fun _ => 2)) (b' := t1 2 fun _ => Complex.I) (a' := t1 1 fun _ => 1) (x' := t1 5 fun _ => 0)
  (zi' := some (t1 4 fun _ => Complex.I)) rfl rfl rfl rfl .df2 none

example := C70_linear_recurrence (a := t1 2 fun i => (i : ℝ)) (init := t0 1) (x := t2 2 5 fun _ t => (t : ℝ)) (a' := t1 2 fun _ => (7 : ℤ))
  (init' := t0 0) (x' := t2 2 5 fun _ _ => 0) rfl rfl rfl 2

example := C70_state_space_recursion (A := t2 2 2 fun i j => (i : ℝ) - j) (zi := t2 1 2 fun _ m => (m : ℝ)) (x := t2 1 7 fun _ t => (t : ℝ))
  (A' := t2 2 2 fun _ _ => (0 : ℤ)) (zi' := t2 1 2 fun _ _ => 5) (x' := t2 1 7 fun _ _ => 0) rfl rfl rfl 3 (some 0)

example := C70_state_space (A := t2 2 2 fun i j => (i : ℝ) - j) (x := t2 1 7 fun _ t => (t : ℝ)) (B := none) (C := some (t1 2 fun i => (i : ℝ)))
  (D := some (t0 1)) (zi := none) (A' := t2 2 2 fun _ _ => (0 : ℤ)) (x' := t2 1 7 fun _ _ => 0) (B' := none) (C' := some (t1 2 fun _ => 0))
  (D' := some (t0 0)) (zi' := none) rfl rfl rfl rfl rfl rfl (some 3) none

example := C70_comb_filter (a := t0 (2 : ℝ)) (x := t2 2 7 fun _ t => (t : ℝ)) (zi := none) (a' := t0 (0 : ℤ)) (x' := t2 2 7 fun _ _ => 1)
  (zi' := none) rfl rfl rfl true 3 1

example := C70_fir (b := t2 2 3 fun _ j => (j : ℝ)) (x := t2 2 7 fun _ t => (t : ℝ)) (zi := some (t2 2 2 fun _ _ => 0))
  (b' := t2 2 3 fun _ _ => (0 : ℤ)) (x' := t2 2 7 fun _ _ => 1) (zi' := some (t2 2 2 fun _ _ => 4)) rfl rfl rfl true

example := C70_lpv_lfilter refLpc_shape (b := t2 5 2 fun t i => (t : ℝ) + i) (a := t2 5 1 fun t _ => (t : ℝ)) (x := t1 5 fun t => (t : ℝ))
  (zi := none) (b' := t2 5 2 fun _ _ => (0 : ℤ)) (a' := t2 5 1 fun _ _ => 1) (x' := t1 5 fun _ => 3) (zi' := none) rfl rfl rfl rfl .df2
  .torchlpc none false

example := C70_helpers (b := t1 3 fun j => (j : ℝ)) (a := t1 2 fun j => (j : ℝ)) (y := t1 2 fun _ => (1 : ℝ)) (x := none)
  (b' := t1 3 fun _ => (0 : ℤ)) (a' := t1 2 fun _ => 0) (y' := t1 2 fun _ => 0) (x' := none) rfl rfl rfl rfl 1 true

example := C70_backward (op := fun A z x => Lti.stateSpaceRecursion A z x 2 none) (op' := fun A z x => Lti.stateSpaceRecursion A z x 2 none)
  (op2 := fun A z x => Lti.stateSpaceRecursion A z x 1 none) (op2' := fun A z x => Lti.stateSpaceRecursion A z x 1 none)
  (fun _ _ _ _ _ _ h1 h2 h3 => (C70_state_space_recursion h1 h2 h3 2 none).1)
  (fun _ _ _ _ _ _ h1 h2 h3 => (C70_state_space_recursion h1 h2 h3 1 none).1)
  (A := t2 2 2 fun i j => (i : ℝ) - j) (zi := t2 1 2 fun _ m => (m : ℝ)) (y := t3 1 4 2 fun _ t m => (t : ℝ) + m)
  (g := t3 1 4 2 fun _ t m => (t : ℝ) * m) (A' := t2 2 2 fun _ _ => (0 : ℤ)) (zi' := t2 1 2 fun _ _ => 1) (y' := t3 1 4 2 fun _ _ _ => 2)
  (g' := t3 1 4 2 fun _ _ _ => 3) rfl rfl rfl rfl (true, true, true)

/-- **C70, exception**: `lfilter_zi` raises for the coefficients `[-1]` (a pole at one) and not for `[0]`. -/
theorem C70_lfilter_zi_values : Fails (Lti.lfilterZi (t1 1 fun _ => (-1 : ℚ)) none false) ∧
    ∃ zi, Lti.lfilterZi (t1 1 fun _ => (0 : ℚ)) none false = .ok zi := by
  constructor
  · exact Lti.lfilterZi_df2_fails (B := 1) (i := 0) (.shared fun _ => (-1 : ℚ)) (by decide) (by decide) (by norm_num)
  · obtain ⟨zi, z, e, -, -⟩ := Lti.lfilterZi_df2 (B := 1) (P := 1) (b := none) (.shared fun _ => (0 : ℚ)) (by decide) (by simp)
    exact ⟨zi, e⟩

end Props
