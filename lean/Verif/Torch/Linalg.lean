import Verif.Torch.Loop
import Mathlib.LinearAlgebra.Matrix.NonsingularInverse

/-!
# Square matrices inside tensors, `torch.linalg.inv`, `torch.linalg.solve`

`fm A` is the element function of a matrix, so that `t2 M M (fm A)` is the tensor holding the matrix `A`.
-/

namespace Torch
open Finset

section
variable {α : Type} {M : Nat}

/-- Element function of a matrix (zero outside). -/
def fm [Zero α] {M P : Nat} (A : Matrix (Fin M) (Fin P) α) (i j : Nat) : α :=
  if h : i < M ∧ j < P then A ⟨i, h.1⟩ ⟨j, h.2⟩ else 0

/-- The matrix with elements `f i j`. -/
def mat (M P : Nat) (f : Nat → Nat → α) : Matrix (Fin M) (Fin P) α := Matrix.of fun i j => f i j

theorem fm_mat [Zero α] {M P : Nat} (f : Nat → Nat → α) {i j : Nat} (hi : i < M) (hj : j < P) :
    fm (mat M P f) i j = f i j := by
  simp [fm, mat, hi, hj]

theorem mat_fm [Zero α] {M P : Nat} (A : Matrix (Fin M) (Fin P) α) : mat M P (fm A) = A := by
  ext i j; simp [fm, mat]

theorem mat_congr {M P : Nat} {f g : Nat → Nat → α} (h : ∀ i j, i < M → j < P → f i j = g i j) :
    mat M P f = mat M P g := by
  ext i j; exact h i j i.2 j.2

theorem fm_mul [CommSemiring α] {M P Q : Nat} (A : Matrix (Fin M) (Fin P) α) (B : Matrix (Fin P) (Fin Q) α)
    (i j : Nat) : ∑ w ∈ range P, fm A i w * fm B w j = fm (A * B) i j := by
  by_cases h : i < M ∧ j < Q
  · rw [Finset.sum_range]
    simp [fm, h, Matrix.mul_apply]
  · rw [fm, dif_neg h]
    refine Finset.sum_eq_zero fun w _ => ?_
    by_cases hi : i < M
    · have hj : ¬ j < Q := fun hj => h ⟨hi, hj⟩
      simp [fm, hj]
    · simp [fm, hi]

theorem mat_mul [CommSemiring α] {M P Q : Nat} (f : Nat → Nat → α) (g : Nat → Nat → α) :
    mat M Q (fun i j => ∑ w ∈ range P, f i w * g w j) = mat M P f * mat P Q g := by
  ext i j
  simp [mat, Matrix.mul_apply, Finset.sum_range]

theorem fm_one [Zero α] [One α] (i j : Nat) (hi : i < M) :
    fm (1 : Matrix (Fin M) (Fin M) α) i j = if i = j then 1 else 0 := by
  by_cases hj : j < M
  · simp [fm, hi, hj, Matrix.one_apply]
  · rw [if_neg (by omega)]; simp [fm, hj]

theorem fm_zero [Zero α] {M P : Nat} (i j : Nat) : fm (0 : Matrix (Fin M) (Fin P) α) i j = 0 := by
  simp [fm]

theorem fm_add [AddZeroClass α] {M P : Nat} (A B : Matrix (Fin M) (Fin P) α) (i j : Nat) :
    fm (A + B) i j = fm A i j + fm B i j := by
  unfold fm; split <;> simp

theorem fm_neg [AddGroup α] {M P : Nat} (A : Matrix (Fin M) (Fin P) α) (i j : Nat) :
    fm (-A) i j = - fm A i j := by
  unfold fm; split <;> simp

theorem fm_transpose [Zero α] {M P : Nat} (A : Matrix (Fin M) (Fin P) α) (i j : Nat) :
    fm A.transpose i j = fm A j i := by
  unfold fm
  by_cases h : i < P ∧ j < M
  · rw [dif_pos h, dif_pos h.symm]; rfl
  · rw [dif_neg h, dif_neg (by tauto)]

end

namespace Tensor
section
variable {α : Type} [Zero α]

/-- Every `(M, P)` tensor holds a matrix. -/
theorem t2_eq_fm {M P : Nat} (f : Nat → Nat → α) : t2 M P f = t2 M P (fm (mat M P f)) :=
  t2_congr rfl rfl fun _ _ hi hj => (fm_mat f hi hj).symm

theorem t3_eq_fm {B M P : Nat} (f : Nat → Nat → Nat → α) : t3 B M P f = t3 B M P fun b => fm (mat M P (f b)) :=
  t3_congr rfl rfl rfl fun b _ _ _ hi hj => (fm_mat (f b) hi hj).symm

theorem t4_eq_fm {B N M P : Nat} (f : Nat → Nat → Nat → Nat → α) :
    t4 B N M P f = t4 B N M P fun b t => fm (mat M P (f b t)) :=
  t4_congr rfl rfl rfl rfl fun b t _ _ _ _ hi hj => (fm_mat (f b t) hi hj).symm

end

variable {α : Type} [Field α]

/-- The matrix at leading index `lb` of a tensor whose last two axes have size `M`, `P`. -/
def matAt (x : Tensor α) (M P : Nat) (lb : List Nat) : Matrix (Fin M) (Fin P) α :=
  Matrix.of fun i j => x.get (lb ++ [i.val, j.val])

open Classical in
/-- `torch.linalg.inv(x)` for matrices of size `M` and leading shape `bs`. -/
noncomputable def linalgInvAux (x : Tensor α) (M : Nat) (bs : List Nat) : Res (Tensor α) := do
  check (2 ≤ x.rank ∧ x.size (-2) = M) "RuntimeError: linalg.inv: must be batches of square matrices"
  check (∀ lb, inB lb bs = true → (matAt x M M lb).det ≠ 0) "LinAlgError: the input matrix is singular"
  return ofFn x.shape fun l => fm (matAt x M M (l.take bs.length))⁻¹ (l.getD bs.length 0) (l.getD (bs.length + 1) 0)

/-- `torch.linalg.inv(x)`: raises on a non-square or singular matrix. -/
noncomputable def linalgInv (x : Tensor α) : Res (Tensor α) :=
  linalgInvAux x (x.size (-1)) (x.shape.take (x.rank - 2))

theorem inB_one {b B : Nat} : inB [b] [B] = true ↔ b < B := by simp [inB]

theorem inB_single {lb : List Nat} {B : Nat} : inB lb [B] = true ↔ ∃ b, b < B ∧ lb = [b] := by
  constructor
  · intro h
    match lb, h with
    | [], h => simp [inB] at h
    | [b], h => exact ⟨b, by simpa [inB] using h, rfl⟩
    | _ :: _ :: _, h => simp [inB] at h
  · rintro ⟨b, hb, rfl⟩; simpa [inB]

theorem inB_nil {lb : List Nat} : inB lb [] = true ↔ lb = [] := by
  cases lb <;> simp [inB]

theorem linalgInv_t2 {M : Nat} (A : Matrix (Fin M) (Fin M) α) (hA : A.det ≠ 0) :
    linalgInv (t2 M M (fm A)) = .ok (t2 M M (fm A⁻¹)) := by
  have hm : matAt (t2 M M (fm A)) M M [] = A := by
    ext i j
    simp [matAt, get_t2, fm]
  show linalgInvAux (t2 M M (fm A)) M [] = _
  refine check_step (by simp) (check_step ?_ ?_)
  · intro lb hlb
    rw [inB_nil.1 hlb, hm]; exact hA
  · rw [pure_eq_ok]
    refine congrArg Except.ok (ext2 rfl rfl fun i j hi hj => ?_)
    simp only [get_ofFn, get_t2, hi, hj, List.take, List.length_nil, hm]
    simp [inB, hi, hj]

theorem linalgInv_t3 {B M : Nat} (A : Nat → Matrix (Fin M) (Fin M) α) (hA : ∀ b, b < B → (A b).det ≠ 0) :
    linalgInv (t3 B M M fun b => fm (A b)) = .ok (t3 B M M fun b => fm (A b)⁻¹) := by
  have hm : ∀ b, b < B → matAt (t3 B M M fun b => fm (A b)) M M [b] = A b := by
    intro b hb
    ext i j
    simp [matAt, get_t3, fm, hb]
  show linalgInvAux (t3 B M M fun b => fm (A b)) M [B] = _
  refine check_step (by simp) (check_step ?_ ?_)
  · intro lb hlb
    obtain ⟨b, hb, rfl⟩ := inB_single.1 hlb
    rw [hm b hb]; exact hA b hb
  · rw [pure_eq_ok]
    refine congrArg Except.ok (ext3 rfl rfl fun b i j hb hi hj => ?_)
    simp only [get_ofFn, get_t3, hi, hj, hb, List.take, List.length_cons, List.length_nil, Nat.zero_add, hm b hb]
    simp [inB, hi, hj, hb]

theorem linalgInv_t2_singular {M : Nat} (A : Matrix (Fin M) (Fin M) α) (hA : A.det = 0) :
    Fails (linalgInv (t2 M M (fm A))) := by
  have hm : matAt (t2 M M (fm A)) M M [] = A := by
    ext i j
    simp [matAt, get_t2, fm]
  show Fails (linalgInvAux (t2 M M (fm A)) M [])
  refine fails_check fun _ => fails_check fun h => ?_
  exact absurd (by rw [hm]; exact hA) (h [] rfl)

theorem linalgInv_t3_singular {B M : Nat} (A : Nat → Matrix (Fin M) (Fin M) α) {b : Nat} (hb : b < B) (hA : (A b).det = 0) :
    Fails (linalgInv (t3 B M M fun b => fm (A b))) := by
  have hm : matAt (t3 B M M fun b => fm (A b)) M M [b] = A b := by
    ext i j
    simp [matAt, get_t3, fm, hb]
  show Fails (linalgInvAux (t3 B M M fun b => fm (A b)) M [B])
  refine fails_check fun _ => fails_check fun h => ?_
  exact absurd (by rw [hm]; exact hA) (h [b] (inB_one.2 hb))

end Tensor
end Torch
