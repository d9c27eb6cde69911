import Verif.Props.C84
import Mathlib.RingTheory.Polynomial.Basic
import Mathlib.RingTheory.PowerSeries.Basic
import Mathlib.RingTheory.Coprime.Basic

/-!
# C84: the coefficients from one impulse

If nothing cancels in `b/a`, the first `K + P` samples of the impulse response determine the coefficients.
-/

namespace Props
open Torch Torch.Tensor Spec Phil Polynomial
open Phil.Lti (Form ok_pair lfilter)
variable {α : Type} [CommRing α]

/-- The numerator `b_0 + b_1/z + …` as a polynomial in `1/z`. -/
noncomputable def numPoly (K : Nat) (b : Nat → α) : α[X] := ∑ k ∈ Finset.range K, C (b k) * X ^ k

/-- The denominator `1 + a_0/z + …` as a polynomial in `1/z`. -/
noncomputable def denPoly (P : Nat) (a : Nat → α) : α[X] := 1 + ∑ k ∈ Finset.range P, C (a k) * X ^ (k + 1)

theorem coeff_numPoly (K : Nat) (b : Nat → α) (n : Nat) : (numPoly K b).coeff n = zext K b n := by
  simp only [numPoly, finsetSum_coeff, coeff_C_mul_X_pow, zext]
  simp [Finset.sum_ite_eq]

theorem coeff_denPoly (P : Nat) (a : Nat → α) (n : Nat) : (denPoly P a).coeff n = denom P a n := by
  rw [denPoly, coeff_add, finsetSum_coeff]
  rcases n with _ | n
  · simp [denom]
  · simp only [coeff_C_mul_X_pow, denom, coeff_one, Nat.add_right_cancel_iff, Nat.succ_ne_zero, if_false, zero_add, Nat.add_sub_cancel]
    simp [Finset.sum_ite_eq]

theorem coe_numPoly (K : Nat) (b : Nat → α) : ((numPoly K b : α[X]) : PowerSeries α) = PowerSeries.mk (zext K b) := by
  ext n; rw [coeff_coe, coeff_numPoly, PowerSeries.coeff_mk]

theorem coe_denPoly (P : Nat) (a : Nat → α) : ((denPoly P a : α[X]) : PowerSeries α) = PowerSeries.mk (denom P a) := by
  ext n; rw [coeff_coe, coeff_denPoly, PowerSeries.coeff_mk]

theorem sameTransfer_iff_poly {K P K' P' : Nat} {b a b' a' : Nat → α} :
    SameTransfer K P K' P' b a b' a' ↔ numPoly K b * denPoly P' a' = numPoly K' b' * denPoly P a := by
  rw [← Polynomial.coe_inj, Polynomial.coe_mul, Polynomial.coe_mul, coe_numPoly, coe_numPoly, coe_denPoly, coe_denPoly, ← mk_conv, ← mk_conv]
  exact ⟨fun h => congrArg _ h, fun h => mk_inj h⟩

/-- Two fractions of the same sizes, one in lowest terms and of full degree, are equal only if their coefficients are. -/
theorem same_coeffs [IsDomain α] {K P : Nat} {b a b' a' : Nat → α} (co : IsCoprime (numPoly K b) (denPoly P a))
    (full : (0 < P ∧ a (P - 1) ≠ 0) ∨ (0 < K ∧ b (K - 1) ≠ 0) ∨ P = 0) (h : SameTransfer K P K P b a b' a') :
    (∀ k, k < K → b k = b' k) ∧ ∀ k, k < P → a k = a' k := by
  rw [sameTransfer_iff_poly] at h
  have d0 : ∀ a : Nat → α, (denPoly P a).coeff 0 = 1 := fun a => by rw [coeff_denPoly]; rfl
  have dne : ∀ a : Nat → α, denPoly P a ≠ 0 := fun a e => by have := d0 a; rw [e, coeff_zero] at this; exact zero_ne_one this
  have dle : ∀ a : Nat → α, (denPoly P a).natDegree ≤ P := fun a => by
    rw [natDegree_le_iff_coeff_eq_zero]
    intro n hn
    rw [coeff_denPoly, denom, if_neg (by omega), if_neg (by omega)]
  have nle : ∀ b : Nat → α, (numPoly K b).natDegree ≤ K - 1 := fun b => by
    rw [natDegree_le_iff_coeff_eq_zero]
    intro n hn
    rw [coeff_numPoly, zext, if_neg (by omega)]
  obtain ⟨c, hc⟩ : denPoly P a ∣ denPoly P a' := co.symm.dvd_of_dvd_mul_left ⟨numPoly K b', by rw [h, mul_comm]⟩
  have hn : numPoly K b' = numPoly K b * c := by
    refine mul_right_cancel₀ (dne a) ?_
    rw [← h, hc]; ring
  have cne : c ≠ 0 := fun e => dne a' (by rw [hc, e, mul_zero])
  have cd : c.natDegree = 0 := by
    rcases full with ⟨hP, h1⟩ | ⟨hK, h1⟩ | hP
    · have : P ≤ (denPoly P a).natDegree := le_natDegree_of_ne_zero (by
        rw [coeff_denPoly, denom, if_neg (by omega), if_pos (by omega)]; exact h1)
      have e := natDegree_mul (dne a) cne
      rw [← hc] at e
      have := dle a'
      omega
    · have ne : (numPoly K b).coeff (K - 1) ≠ 0 := by rw [coeff_numPoly, zext, if_pos (by omega)]; exact h1
      have : K - 1 ≤ (numPoly K b).natDegree := le_natDegree_of_ne_zero ne
      have e := natDegree_mul (fun e => ne (by rw [e, coeff_zero]) : numPoly K b ≠ 0) cne
      rw [← hn] at e
      have := nle b'
      omega
    · have e := natDegree_mul (dne a) cne
      rw [← hc] at e
      have := dle a'
      omega
  have c1 : c = 1 := by
    rw [eq_C_of_natDegree_eq_zero cd]
    have := congrArg (fun p => coeff p 0) hc
    simp only [mul_coeff_zero, d0, one_mul] at this
    rw [← this, C_1]
  rw [c1, mul_one] at hn hc
  refine ⟨fun k hk => ?_, fun k hk => ?_⟩
  · have := congrArg (fun p => coeff p k) hn
    simp only [coeff_numPoly, zext, if_pos hk] at this
    exact this.symm
  · have := congrArg (fun p => coeff p (k + 1)) hc
    simp only [coeff_denPoly, denom, Nat.succ_ne_zero, if_false, Nat.add_sub_cancel, if_pos hk] at this
    exact this.symm

/-- **C84, identification**: let `b/a` be in lowest terms (no common factor) and of full degree (the last coefficient of the
numerator or of the denominator is not zero). Then `lfilter` with other coefficients of the same sizes answers alike to an impulse
of `K + P` samples just when the coefficients are the same. -/
theorem C84_identify [StarRing α] [IsDomain α] {B K P : Nat} {b a b' a' : Tensor α} {bv av bv' av' : Nat → Nat → α} {form form' : Form}
    {u u' : Option Int} (hb : Rows B K b bv) (ha : Rows B P a av) (hb' : Rows B K b' bv') (ha' : Rows B P a' av')
    (hf : Faithful α form) (hf' : Faithful α form') (hB : 0 < B) (hK : 0 < K) (hM : 0 < max P (K - 1))
    (hu : ∀ i, u = some i → 1 ≤ i) (hu' : ∀ i, u' = some i → 1 ≤ i)
    (co : ∀ i, i < B → IsCoprime (∑ k ∈ Finset.range K, C (bv i k) * X ^ k) (1 + ∑ k ∈ Finset.range P, C (av i k) * X ^ (k + 1)))
    (full : ∀ i, i < B → (0 < P ∧ av i (P - 1) ≠ 0) ∨ bv i (K - 1) ≠ 0 ∨ P = 0) :
    lfilter b a (t2 B (K + P) fun _ => impulse) none form u = lfilter b' a' (t2 B (K + P) fun _ => impulse) none form' u' ↔
      ∀ i, i < B → (∀ k, k < K → bv i k = bv' i k) ∧ ∀ k, k < P → av i k = av' i k := by
  have fin := C84_lfilter hb ha hb' ha' hf hf' hB hK hK hM hM hu hu'
  rw [max_self] at fin
  rw [← fin, C56_transfer_iff hb ha hb' ha' hf hf' hB hK hK hM hM hu hu']
  refine forall₂_congr fun i hi => ⟨fun h => same_coeffs (co i hi) ((full i hi).imp_right (Or.imp_left fun g => ⟨hK, g⟩)) h, fun ⟨h1, h2⟩ => ?_⟩
  rw [sameTransfer_iff_poly,
    show numPoly K (bv i) = numPoly K (bv' i) from Finset.sum_congr rfl fun k hk => by rw [h1 k (Finset.mem_range.1 hk)],
    show denPoly P (av i) = denPoly P (av' i) from
      congrArg (1 + ·) (Finset.sum_congr rfl fun k hk => by rw [h2 k (Finset.mem_range.1 hk)])]

/-- One over `1 - 2/z`. -/
example := C84_identify (α := ℤ) (B := 2) (K := 1) (P := 1) (form := .df2) (form' := .tdf2) (u := none) (u' := none)
  (bv := fun _ _ => 1) (av := fun _ _ => -2) (.shared fun _ => 1) (.shared fun _ => -2) (.batched fun i k => (i : ℤ) + k)
  (.batched fun i k => (i : ℤ) - k) (faithful_int _ (by simp)) (faithful_int _ (by simp)) (by decide) (by decide) (by decide) (by simp) (by simp)
  (fun i _ => by simpa using isCoprime_one_left) (fun _ _ => .inl ⟨by decide, by decide⟩)

/-- **Both conditions are needed**: `(1 + c/z)/(1 + c/z)`, which has a common factor, and `(1 + 0/z)/(1 + 0/z)`, which is in lowest
terms but not of full degree, are the same filter for every `c`. -/
theorem C84_identify_not [StarRing α] {form : Form} (hf : Faithful α form) (c : α) (N : Nat) (x : Nat → Nat → α) (hN : 0 < N) :
    lfilter (t1 2 fun k => if k = 0 then 1 else c) (t1 1 fun _ => c) (t2 1 N x) none form none =
      lfilter (t1 2 fun k => if k = 0 then (1 : α) else 0) (t1 1 fun _ => 0) (t2 1 N x) none form none := by
  refine (C56_transfer_iff (B := 1) (.shared _) (.shared _) (.shared _) (.shared _) hf hf Nat.one_pos (by decide) (by decide) (by decide)
    (by decide) (by simp) (by simp)).2 (fun i _ => ?_) N x hN
  rw [sameTransfer_iff_poly]
  simp [numPoly, denPoly, Finset.sum_range_succ]

example := C84_identify_not (faithful_int .df1 (by simp)) 5 7 (fun i t => (i : ℤ) + t) (by decide)

end Props
