import Verif.Props.C03
import Verif.Props.C04
import Verif.Proof.MatPower
import Verif.Proof.Accept

/-!
# C03 for any number of batch axes, and which calls of the two matrix functions return

`tmat s M f` is the tensor of shape `s ++ [M, M]` whose matrix at the leading index `l` is `f l`.
-/

namespace Props
open Torch Torch.Tensor Phil.Mat

section
variable {α : Type} [Field α] {M : Nat}

/-- **C03** for any number of batch axes, `n ≥ 1`: along a new axis the powers `A, A², …, Aⁿ` of every matrix. -/
theorem C03_powers_any_batch (factorint : Nat → List Nat) (lead : List Nat) (A : List Nat → Matrix (Fin M) (Fin M) α) (n : Nat)
    (hn : 1 ≤ n) (hf : 2 ≤ n → FactorsOf (factorint n) n) :
    matrixPowerAccumulate factorint (tmat lead M A) n =
      .ok (tmat (lead ++ [n]) M fun l => A (l.take lead.length) ^ (l.getD lead.length 0 + 1)) := by
  unfold matrixPowerAccumulate
  refine check_step (by rw [tmat_rank]; omega) (check_step (by rw [tmat_size1, tmat_size2]) ?_)
  rw [if_neg (by omega), Int.toNat_natCast]
  exact powerNat_tmat factorint lead A n hn hf

example := C03_powers_any_batch (M := 2) factorint [3, 0, 2, 4] (fun l => !![(l.getD 0 0 : ℚ), l.getD 3 0; 1, 0]) 12 (by decide)
  fun _ => factorsOf_factorint 12 (by decide)

/-- **C03** for any number of batch axes, `n = 0`: the identity, with a singleton axis. -/
theorem C03_zero_any_batch (factorint : Nat → List Nat) (lead : List Nat) (A : List Nat → Matrix (Fin M) (Fin M) α) :
    matrixPowerAccumulate factorint (tmat lead M A) 0 = .ok (tmat (lead ++ [1]) M fun _ => 1) := by
  unfold matrixPowerAccumulate
  refine check_step (by rw [tmat_rank]; omega) (check_step (by rw [tmat_size1, tmat_size2]) ?_)
  rw [if_neg (by omega)]
  exact powerNat_tmat_zero factorint lead A

/-- **C03** for any number of batch axes, `n < 0`: the powers of the inverses. -/
theorem C03_negative_any_batch (factorint : Nat → List Nat) (lead : List Nat) (A : List Nat → Matrix (Fin M) (Fin M) α) (m : Nat)
    (hm : 1 ≤ m) (hA : ∀ l, inB l lead = true → (A l).det ≠ 0) (hf : 2 ≤ m → FactorsOf (factorint m) m) :
    matrixPowerAccumulate factorint (tmat lead M A) (-(m : Int)) =
      .ok (tmat (lead ++ [m]) M fun l => (A (l.take lead.length))⁻¹ ^ (l.getD lead.length 0 + 1)) := by
  unfold matrixPowerAccumulate
  refine check_step (by rw [tmat_rank]; omega) (check_step (by rw [tmat_size1, tmat_size2]) ?_)
  rw [if_pos (by omega)]
  refine bind_step (linalgInv_tmat lead A hA) ?_
  rw [neg_neg, Int.toNat_natCast]
  exact powerNat_tmat factorint lead (fun l => (A l)⁻¹) m hm hf

example := C03_negative_any_batch (M := 2) factorint [3, 2, 4] (fun l => !![(l.getD 0 0 : ℚ), 1; 1, 0]) 12 (by decide)
  (fun l _ => by simp [Matrix.det_fin_two]) fun _ => factorsOf_factorint 12 (by decide)

/-- **C67, `matrix_power_accumulate`.** It returns exactly for tensors of square matrices, whose matrices are all invertible if the
exponent is negative. -/
theorem C67_matrix_power_accumulate_iff {A : Tensor α} {n : Int} :
    (∃ y, matrixPowerAccumulate factorint A n = .ok y) ↔
      ∃ lead M, ∃ f : List Nat → Matrix (Fin M) (Fin M) α, A = tmat lead M f ∧ (n < 0 → ∀ l, inB l lead = true → (f l).det ≠ 0) := by
  constructor
  · rintro ⟨y, h⟩
    obtain ⟨h1, h⟩ := ok_check h
    obtain ⟨h2, h⟩ := ok_check h
    obtain ⟨s, M, f, rfl⟩ := tmat_of h1 h2
    refine ⟨s, M, f, rfl, fun hn l hl hd => ?_⟩
    rw [if_pos hn] at h
    exact not_fails h (fails_left (linalgInv_tmat_singular s f hl hd))
  · rintro ⟨s, M, f, rfl, hd⟩
    rcases lt_trichotomy n 0 with hn | rfl | hn
    · obtain ⟨m, rfl⟩ : ∃ m : Nat, n = -(m : Int) := ⟨n.natAbs, by omega⟩
      exact ⟨_, C03_negative_any_batch factorint s f m (by omega) (hd hn) fun h => factorsOf_factorint m h⟩
    · exact ⟨_, C03_zero_any_batch factorint s f⟩
    · lift n to ℕ using by omega
      exact ⟨_, C03_powers_any_batch factorint s f n (by omega) fun h => factorsOf_factorint n h⟩

/-- Three singular matrices have powers but no negative powers. -/
example : (∃ y, matrixPowerAccumulate factorint (tmat [3] 2 fun _ => !![(1 : ℚ), 1; 1, 1]) 6 = .ok y) ∧
    ¬ ∃ y, matrixPowerAccumulate factorint (tmat [3] 2 fun _ => !![(1 : ℚ), 1; 1, 1]) (-6) = .ok y := by
  refine ⟨C67_matrix_power_accumulate_iff.2 ⟨[3], 2, _, rfl, by omega⟩, ?_⟩
  rintro ⟨y, h⟩
  obtain ⟨_, h⟩ := ok_check h
  obtain ⟨_, h⟩ := ok_check h
  rw [if_pos (by omega)] at h
  exact not_fails h (fails_left (linalgInv_tmat_singular [3] _ (l := [0]) rfl (by simp [Matrix.det_fin_two])))

end

section
variable {α : Type} [CommRing α]

/-- **C67, `matrices_cumdot`.** It returns exactly for non-empty sequences of square matrices (with any number of batch axes). -/
theorem C67_matrices_cumdot_iff {A : Tensor α} :
    (∃ y, matricesCumdot A = .ok y) ↔
      ∃ lead P M, 0 < P ∧ ∃ f : List Nat → Matrix (Fin M) (Fin M) α, A = tmat (lead ++ [P]) M f := by
  constructor
  · rintro ⟨y, h⟩
    obtain ⟨h1, h⟩ := ok_check h
    obtain ⟨h2, h⟩ := ok_check h
    obtain ⟨s, M, f, rfl⟩ := tmat_of (by omega) h2
    have hs : s ≠ [] := by
      rintro rfl
      rw [tmat_rank] at h1
      simp at h1
    obtain ⟨lead, P, rfl⟩ : ∃ lead P, s = lead ++ [P] := ⟨_, _, (List.dropLast_append_getLast hs).symm⟩
    refine ⟨lead, P, M, ?_, f, rfl⟩
    by_contra hP
    obtain rfl : P = 0 := by omega
    have hs3 : (tmat (lead ++ [0]) M f).size (-3) = 0 := by
      unfold size
      rw [if_neg (by omega), if_pos (by rw [tmat_rank, List.length_append]; simp), tmat_rank, List.length_append, tmat_shape,
        List.append_assoc, show ((-3 : Int) + (lead.length + [0].length + 2 : Nat)).toNat = lead.length by simp; omega]
      exact getD_at rfl
    rw [hs3] at h
    rw [if_neg (by omega)] at h
    obtain ⟨u, hu, _⟩ := ok_bind_inv h
    unfold unflatten at hu
    rw [tmat_rank, List.length_append, show lead.length + [0].length + 2 = lead.length + 3 from rfl, wrapDim_neg3, ok_bind, tmat_shape,
      List.append_assoc, List.cons_append, List.nil_append, getD_at rfl] at hu
    have hf : factorint 0 = [] := rfl
    rw [hf] at hu
    cases hu
  · rintro ⟨lead, P, M, hP, f, rfl⟩
    by_cases h2 : 2 ≤ P
    · exact ⟨_, cumdot_tmat lead P h2 f⟩
    · obtain rfl : P = 1 := by omega
      exact ⟨_, C04_cumdot_any_batch_partial lead (Or.inr rfl) f⟩

/-- A sequence of twelve matrices, and an empty sequence. -/
example : (∃ y, matricesCumdot (t3 12 2 2 fun k i j => (k : ℤ) + i - j) = .ok y) ∧
    ¬ ∃ y, matricesCumdot (t3 0 2 2 fun k i j => (k : ℤ) + i - j) = .ok y := by
  constructor
  · refine C67_matrices_cumdot_iff.2 ⟨[], 12, 2, by decide, fun l => !![(l.getD 0 0 : ℤ), l.getD 0 0 - 1; l.getD 0 0 + 1, l.getD 0 0], ?_⟩
    rw [show ([] : List Nat) ++ [12] = [12] from rfl, ← t3_tmat fun k => !![(k : ℤ), k - 1; k + 1, k]]
    refine t3_congr rfl rfl rfl fun k i j _ hi hj => ?_
    interval_cases i <;> interval_cases j <;> simp [fm]
  · rw [C67_matrices_cumdot_iff]
    rintro ⟨lead, P, M, hP, f, h⟩
    have h2 := congrArg Tensor.rank h
    rw [tmat_rank] at h2
    obtain rfl : lead = [] := by simpa using h2
    have h3 := congrArg Tensor.shape h
    rw [tmat_shape] at h3
    simp at h3
    omega

end
end Props
