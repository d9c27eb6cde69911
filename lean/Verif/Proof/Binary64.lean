import Verif.Model.LtiInterp
import Mathlib.Tactic.Linarith
import Mathlib.Tactic.Ring
import Mathlib.Tactic.FieldSimp
import Mathlib.Tactic.Positivity
import Mathlib.Tactic.NormNum
import Mathlib.Algebra.Order.Field.Power
import Mathlib.Data.Rat.Floor

/-!
# Rounding to binary64: errors, scaling by powers of two, and the length of `torch.arange(-2, 2, 1 / m)`
-/

namespace Phil.Interp

theorem pow2_eq (k : Int) : pow2 k = (2 : ℚ) ^ k := by
  unfold pow2
  split
  · next h => rw [Nat.cast_pow, Nat.cast_ofNat, ← zpow_natCast, Int.toNat_of_nonneg h]
  · next h => rw [Nat.cast_pow, Nat.cast_ofNat, ← zpow_natCast, Int.toNat_of_nonneg (by omega), zpow_neg, one_div, inv_inv]

theorem expo_spec {q : ℚ} (hq : 0 < q) : (2 : ℚ) ^ expo q ≤ q ∧ q < (2 : ℚ) ^ (expo q + 1) := by
  have hn : 0 < q.num := Rat.num_pos.2 hq
  have hq' : q = (q.num.natAbs : ℚ) / (q.den : ℚ) := by
    conv_lhs => rw [← Rat.num_div_den q]
    congr 1
    rw [Nat.cast_natAbs, abs_of_pos hn]
  set n := q.num.natAbs with hndef
  set d := q.den with hddef
  have hn0 : n ≠ 0 := by omega
  have hd0 : d ≠ 0 := q.den_nz
  have n1 : (2 : ℚ) ^ (Nat.log2 n : Int) ≤ n := by rw [zpow_natCast]; exact_mod_cast Nat.log2_self_le hn0
  have n2 : (n : ℚ) < (2 : ℚ) ^ ((Nat.log2 n : Int) + 1) := by
    rw [show (Nat.log2 n : Int) + 1 = ((Nat.log2 n + 1 : Nat) : Int) by push_cast; rfl, zpow_natCast]
    exact_mod_cast (Nat.lt_log2_self (n := n))
  have d1 : (2 : ℚ) ^ (Nat.log2 d : Int) ≤ d := by rw [zpow_natCast]; exact_mod_cast Nat.log2_self_le hd0
  have d2 : (d : ℚ) < (2 : ℚ) ^ ((Nat.log2 d : Int) + 1) := by
    rw [show (Nat.log2 d : Int) + 1 = ((Nat.log2 d + 1 : Nat) : Int) by push_cast; rfl, zpow_natCast]
    exact_mod_cast (Nat.lt_log2_self (n := d))
  have hdp : (0 : ℚ) < d := by exact_mod_cast Nat.pos_of_ne_zero hd0
  have hu : q < (2 : ℚ) ^ ((Nat.log2 n : Int) - Nat.log2 d + 1) := by
    rw [hq', div_lt_iff₀ hdp]
    calc (n : ℚ) < (2 : ℚ) ^ ((Nat.log2 n : Int) + 1) := n2
      _ = (2 : ℚ) ^ ((Nat.log2 n : Int) - Nat.log2 d + 1) * (2 : ℚ) ^ (Nat.log2 d : Int) := by
        rw [← zpow_add₀ (by norm_num)]; congr 1; ring
      _ ≤ _ := mul_le_mul_of_nonneg_left d1 (by positivity)
  have hl : (2 : ℚ) ^ ((Nat.log2 n : Int) - Nat.log2 d - 1) ≤ q := by
    rw [hq', le_div_iff₀ hdp]
    calc (2 : ℚ) ^ ((Nat.log2 n : Int) - Nat.log2 d - 1) * d
        ≤ (2 : ℚ) ^ ((Nat.log2 n : Int) - Nat.log2 d - 1) * (2 : ℚ) ^ ((Nat.log2 d : Int) + 1) :=
          mul_le_mul_of_nonneg_left d2.le (by positivity)
      _ = (2 : ℚ) ^ (Nat.log2 n : Int) := by rw [← zpow_add₀ (by norm_num)]; congr 1; ring
      _ ≤ _ := n1
  unfold expo
  simp only [pow2_eq]
  split
  · next h => exact ⟨h, hu⟩
  · next h => exact ⟨hl, by rw [show (Nat.log2 n : Int) - Nat.log2 d - 1 + 1 = (Nat.log2 n : Int) - Nat.log2 d by ring]; exact not_le.1 h⟩

theorem expo_unique {q : ℚ} {e : Int} (h1 : (2 : ℚ) ^ e ≤ q) (h2 : q < (2 : ℚ) ^ (e + 1)) : expo q = e := by
  have hq : 0 < q := lt_of_lt_of_le (by positivity) h1
  obtain ⟨g1, g2⟩ := expo_spec hq
  have a1 := (zpow_lt_zpow_iff_right₀ (by norm_num : (1 : ℚ) < 2)).1 (lt_of_le_of_lt h1 g2)
  have a2 := (zpow_lt_zpow_iff_right₀ (by norm_num : (1 : ℚ) < 2)).1 (lt_of_le_of_lt g1 h2)
  omega

theorem expo_scale {q : ℚ} (hq : 0 < q) (k : Int) : expo (q * 2 ^ k) = expo q + k := by
  obtain ⟨g1, g2⟩ := expo_spec hq
  refine expo_unique ?_ ?_
  · rw [zpow_add₀ (by norm_num)]; exact mul_le_mul_of_nonneg_right g1 (by positivity)
  · rw [show expo q + k + 1 = expo q + 1 + k by ring, zpow_add₀ (by norm_num)]
    exact mul_lt_mul_of_pos_right g2 (by positivity)

/-- Rounding commutes with scaling by a power of two. -/
theorem binary64_scale {q : ℚ} (hq : 0 < q) (k : Int) : binary64 (q * 2 ^ k) = binary64 q * 2 ^ k := by
  unfold binary64
  rw [expo_scale hq]
  simp only [pow2_eq]
  rw [show expo q + k - 52 = expo q - 52 + k by ring, zpow_add₀ (by norm_num), mul_div_mul_right _ _ (by positivity), mul_assoc]

theorem roundEven_err (q : ℚ) : |(roundEven q : ℚ) - q| ≤ 1 / 2 := by
  have h1 : ((q.floor : Int) : ℚ) ≤ q := Int.floor_le q
  have h2 : q < (q.floor : Int) + 1 := Int.lt_floor_add_one q
  unfold roundEven
  simp only
  split
  · rw [abs_le]; constructor <;> linarith
  · split
    · rw [abs_le]; push_cast; constructor <;> linarith
    · split <;> (rw [abs_le]; push_cast; constructor <;> linarith)

/-- The relative error of rounding. -/
theorem binary64_err {q : ℚ} (hq : 0 < q) : |binary64 q - q| ≤ q * (2 : ℚ) ^ (-53 : Int) := by
  obtain ⟨g1, -⟩ := expo_spec hq
  have hp : (0 : ℚ) < 2 ^ (expo q - 52) := by positivity
  unfold binary64
  simp only [pow2_eq]
  have e : (roundEven (q / 2 ^ (expo q - 52)) : ℚ) * 2 ^ (expo q - 52) - q =
      ((roundEven (q / 2 ^ (expo q - 52)) : ℚ) - q / 2 ^ (expo q - 52)) * 2 ^ (expo q - 52) := by
    rw [sub_mul, div_mul_cancel₀ _ hp.ne']
  rw [e, abs_mul, abs_of_pos hp]
  calc _ ≤ 1 / 2 * (2 : ℚ) ^ (expo q - 52) := mul_le_mul_of_nonneg_right (roundEven_err _) hp.le
    _ = 2 ^ expo q * (2 : ℚ) ^ (-53 : Int) := by
      rw [← zpow_add₀ (by norm_num), show (1 / 2 : ℚ) = 2 ^ (-1 : Int) by norm_num, ← zpow_add₀ (by norm_num)]; congr 1; ring
    _ ≤ _ := mul_le_mul_of_nonneg_right g1 (by positivity)

/-- The quotient whose ceiling `arange` takes. -/
def arangeQuot (m : Nat) : ℚ := binary64 (4 / binary64 (1 / (m : ℚ)))

theorem binary64_pos {q : ℚ} (hq : 0 < q) : 0 < binary64 q := by
  have h := (abs_le.1 (binary64_err hq)).1
  have : q * (2 : ℚ) ^ (-53 : Int) < q := mul_lt_of_lt_one_right hq (by norm_num)
  linarith

/-- The quotient is nearly `4 m`. -/
theorem arangeQuot_near {m : Nat} (h1 : 1 ≤ m) (hm : m < 2 ^ 48) : |arangeQuot m - 4 * m| < 1 / 2 := by
  have hm0 : (0 : ℚ) < m := by exact_mod_cast h1
  have hmq : (m : ℚ) < 2 ^ 48 := by exact_mod_cast hm
  have hd := binary64_pos (q := 1 / (m : ℚ)) (by positivity)
  have e1 := abs_le.1 (binary64_err (q := 1 / (m : ℚ)) (by positivity))
  have hq : 0 < 4 / binary64 (1 / (m : ℚ)) := by positivity
  have e2 := abs_le.1 (binary64_err hq)
  unfold arangeQuot
  generalize binary64 (1 / (m : ℚ)) = d at *
  generalize binary64 (4 / d) = b at *
  obtain ⟨e1l, e1u⟩ := e1
  obtain ⟨e2l, e2u⟩ := e2
  have ev : (2 : ℚ) ^ (-53 : Int) = 1 / 9007199254740992 := by norm_num
  rw [ev] at e1l e1u e2l e2u
  have hdm1 : d * m ≤ 1 + 1 / 9007199254740992 := by
    have := mul_le_mul_of_nonneg_right e1u hm0.le
    field_simp at this ⊢
    linarith
  have hdm2 : 1 - 1 / 9007199254740992 ≤ d * m := by
    have := mul_le_mul_of_nonneg_right e1l hm0.le
    field_simp at this ⊢
    linarith
  have hq1 : 4 / d ≤ 4 * m * (1 + 2 / 9007199254740992) := by
    rw [div_le_iff₀ hd]; nlinarith
  have hq2 : 4 * m * (1 - 1 / 9007199254740992) ≤ 4 / d := by
    rw [le_div_iff₀ hd]; nlinarith
  rw [abs_lt]
  constructor
  · nlinarith
  · nlinarith

theorem arangeLen_eq (m : Nat) : arangeLen m = (arangeQuot m).ceil.toNat := rfl

/-- `arange` has the expected number of elements, or one more; the second happens exactly if the rounded quotient exceeds `4 m`. -/
theorem arangeLen_cases {m : Nat} (h1 : 1 ≤ m) (hm : m < 2 ^ 48) :
    (arangeQuot m ≤ 4 * m ∧ arangeLen m = 4 * m) ∨ (4 * (m : ℚ) < arangeQuot m ∧ arangeLen m = 4 * m + 1) := by
  obtain ⟨hl, hu⟩ := abs_lt.1 (arangeQuot_near h1 hm)
  rw [arangeLen_eq]
  have hc : ∀ z : Int, ((z : ℚ) - 1 < arangeQuot m ∧ arangeQuot m ≤ z) → (arangeQuot m).ceil = z := fun z h =>
    (Rat.ceil_eq_neg_floor_neg _).trans (Int.ceil_eq_iff.2 h)
  rcases le_or_gt (arangeQuot m) (4 * m) with h | h
  · refine Or.inl ⟨h, ?_⟩
    rw [hc (4 * m : Nat) ⟨by push_cast; linarith, by push_cast; exact h⟩]; rfl
  · refine Or.inr ⟨h, ?_⟩
    rw [hc (4 * m + 1 : Nat) ⟨by push_cast; linarith, by push_cast; linarith⟩]; rfl

theorem arangeQuot_double (m : Nat) (h1 : 1 ≤ m) (k : Nat) : arangeQuot (m * 2 ^ k) = arangeQuot m * 2 ^ k := by
  have hm0 : (0 : ℚ) < m := by exact_mod_cast h1
  have hd := binary64_pos (q := 1 / (m : ℚ)) (by positivity)
  unfold arangeQuot
  have e1 : (1 : ℚ) / ((m * 2 ^ k : Nat) : ℚ) = 1 / (m : ℚ) * 2 ^ (-(k : Int)) := by
    push_cast
    rw [zpow_neg, zpow_natCast]; field_simp
  rw [e1, binary64_scale (by positivity)]
  have e2 : (4 : ℚ) / (binary64 (1 / (m : ℚ)) * 2 ^ (-(k : Int))) = 4 / binary64 (1 / (m : ℚ)) * 2 ^ (k : Int) := by
    rw [zpow_neg, zpow_natCast]; field_simp
  rw [e2, binary64_scale (by positivity), zpow_natCast]

end Phil.Interp
