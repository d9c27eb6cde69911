import Mathlib.Algebra.Star.Basic
import Mathlib.Algebra.Field.Rat
import Mathlib.Tactic.FieldSimp
import Mathlib.Tactic.Ring
import Mathlib.Tactic.Positivity
import Mathlib.Tactic.Linarith
import Mathlib.Algebra.CharZero.Defs

/-!
# The numbers `a + b i` with rational `a`, `b`

A field in which concrete cases with complex numbers can be computed.
-/

namespace Spec

/-- `re + im · i`. -/
@[ext] structure QI where
  re : ℚ
  im : ℚ
  deriving DecidableEq

namespace QI

instance : Add QI := ⟨fun x y => ⟨x.re + y.re, x.im + y.im⟩⟩
instance : Zero QI := ⟨⟨0, 0⟩⟩
instance : One QI := ⟨⟨1, 0⟩⟩
instance : Neg QI := ⟨fun x => ⟨-x.re, -x.im⟩⟩
instance : Mul QI := ⟨fun x y => ⟨x.re * y.re - x.im * y.im, x.re * y.im + x.im * y.re⟩⟩
instance : NatCast QI := ⟨fun n => ⟨n, 0⟩⟩
instance : IntCast QI := ⟨fun n => ⟨n, 0⟩⟩
instance : Inv QI := ⟨fun x => ⟨x.re / (x.re ^ 2 + x.im ^ 2), -x.im / (x.re ^ 2 + x.im ^ 2)⟩⟩
instance : Star QI := ⟨fun x => ⟨x.re, -x.im⟩⟩

@[simp] theorem add_re (x y : QI) : (x + y).re = x.re + y.re := rfl
@[simp] theorem add_im (x y : QI) : (x + y).im = x.im + y.im := rfl
@[simp] theorem zero_re : (0 : QI).re = 0 := rfl
@[simp] theorem zero_im : (0 : QI).im = 0 := rfl
@[simp] theorem one_re : (1 : QI).re = 1 := rfl
@[simp] theorem one_im : (1 : QI).im = 0 := rfl
@[simp] theorem neg_re (x : QI) : (-x).re = -x.re := rfl
@[simp] theorem neg_im (x : QI) : (-x).im = -x.im := rfl
@[simp] theorem mul_re (x y : QI) : (x * y).re = x.re * y.re - x.im * y.im := rfl
@[simp] theorem mul_im (x y : QI) : (x * y).im = x.re * y.im + x.im * y.re := rfl
@[simp] theorem star_re (x : QI) : (star x).re = x.re := rfl
@[simp] theorem star_im (x : QI) : (star x).im = -x.im := rfl
@[simp] theorem inv_re (x : QI) : x⁻¹.re = x.re / (x.re ^ 2 + x.im ^ 2) := rfl
@[simp] theorem inv_im (x : QI) : x⁻¹.im = -x.im / (x.re ^ 2 + x.im ^ 2) := rfl
@[simp] theorem natCast_re (n : ℕ) : (n : QI).re = n := rfl
@[simp] theorem natCast_im (n : ℕ) : (n : QI).im = 0 := rfl
@[simp] theorem intCast_re (n : ℤ) : (n : QI).re = n := rfl
@[simp] theorem intCast_im (n : ℤ) : (n : QI).im = 0 := rfl

instance : CommRing QI where
  add_assoc x y z := by ext <;> simp <;> ring
  zero_add x := by ext <;> simp
  add_zero x := by ext <;> simp
  add_comm x y := by ext <;> simp <;> ring
  mul_assoc x y z := by ext <;> simp <;> ring
  one_mul x := by ext <;> simp
  mul_one x := by ext <;> simp
  mul_comm x y := by ext <;> simp <;> ring
  left_distrib x y z := by ext <;> simp <;> ring
  right_distrib x y z := by ext <;> simp <;> ring
  zero_mul x := by ext <;> simp
  mul_zero x := by ext <;> simp
  neg_add_cancel x := by ext <;> simp
  nsmul := nsmulRec
  zsmul := zsmulRec
  natCast_zero := by ext <;> simp
  natCast_succ n := by ext <;> simp
  intCast_ofNat n := by ext <;> simp
  intCast_negSucc n := by ext <;> simp

instance : Field QI where
  exists_pair_ne := ⟨0, 1, by decide⟩
  mul_inv_cancel x hx := by
    have h : x.re ^ 2 + x.im ^ 2 ≠ 0 := by
      intro h
      apply hx
      have h1 : x.re ^ 2 = 0 := by nlinarith [sq_nonneg x.re, sq_nonneg x.im]
      have h2 : x.im ^ 2 = 0 := by nlinarith [sq_nonneg x.re, sq_nonneg x.im]
      ext
      · simpa using h1
      · simpa using h2
    ext
    · simp; field_simp; ring
    · simp; field_simp; ring
  inv_zero := by ext <;> simp
  nnqsmul := _
  nnqsmul_def := fun _ _ => rfl
  qsmul := _
  qsmul_def := fun _ _ => rfl

instance : StarRing QI where
  star_involutive x := by ext <;> simp
  star_mul x y := by ext <;> simp <;> ring
  star_add x y := by ext <;> simp; ring

instance : CharZero QI := ⟨fun m n h => by
  have := congrArg QI.re h
  simpa using this⟩

end QI
end Spec
