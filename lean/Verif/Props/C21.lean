import Verif.Proof.Poly
import Verif.Torch.Fails
import Mathlib.Algebra.Field.Rat

/-!
# C21: polynomial division

Full claim: `polydiv(u, v)` returns quotient and remainder of lengths `len(u)-len(v)+1` and `len(v)-1` with `u = q v + r`; when
`u` is shorter than `v` it returns an empty quotient and `u`.  The last part is false: the code raises (`C21_short_dividend`).
-/

namespace Props
open Torch Torch.Tensor Spec Phil.Poly Polynomial
variable {α : Type} [Field α]

/-- **C21 (partial).**  Division of polynomials of degree `m` by polynomials of degree `n ≤ m`, for dividends with and
without a batch axis and divisors with and without one (a divisor with a batch axis needs a dividend with one).
Missing: dividends shorter than the divisor. -/
theorem C21_polydiv_partial {B n m : Nat} {f : Bool} {v : Tensor α} {vv : Nat → Nat → α} (hv : Divisor B (n + 1) f v vv)
    (h0 : ∀ i, vv i 0 ≠ 0) (u : Nat → Nat → α) (hnm : n ≤ m) :
    ∃ q r : Nat → Nat → α,
      polydiv (packed f B (m + 1) u) v = .ok (packed f B (m - n + 1) q, packed f B n r) ∧
      ∀ i, descPoly (m + 1) (u i) = descPoly (m - n + 1) (q i) * descPoly (n + 1) (vv i) + descPoly n (r i) ∧
        (descPoly n (r i)).degree < (descPoly (n + 1) (vv i)).degree :=
  ⟨_, _, polydiv_eq hv u hnm, fun i => ⟨divRem_spec hnm (h0 i) (u i),
    by rw [descPoly_degree_eq n (h0 i)]; exact descPoly_degree n _⟩⟩

/-- The documented case of a dividend shorter than the divisor raises. -/
theorem C21_short_dividend (u v : Tensor α) (h : u.size (-1) < v.size (-1)) : Fails (polydiv u v) := by
  unfold polydiv
  refine fails_check fun _ => fails_bind fun v0 _ => ?_
  simp only
  rw [show ((u.size (-1) : Int) - 1 - ((v.size (-1) : Int) - 1) + 1).toNat = 0 by omega]
  refine fails_bind fun qr hqr => fails_bind fun r _ => ?_
  cases hqr
  exact fails_left ⟨_, rfl⟩

example := C21_short_dividend (t1 2 fun j => (j : ℚ) + 1) (t1 3 fun j => (j : ℚ) + 1) (by decide)

/-- A divisor with a batch axis does not divide a dividend without one: the in-place subtraction cannot broadcast. -/
theorem C21_flat_dividend (B n m : Nat) (u : Nat → α) (v : Nat → Nat → α) : Fails (polydiv (t1 (m + 1) u) (t2 B (n + 1) v)) := by
  rcases Nat.lt_or_ge m n with h | h
  · exact C21_short_dividend _ _ (by simp; omega)
  unfold polydiv
  refine fails_check fun _ => fails_bind fun v0 hv0 => ?_
  rw [select_t2_n1_0 _ _ _ (Nat.succ_pos n)] at hv0
  cases hv0
  simp only [size_t1_n1, size_t2_n1]
  rw [show (((m + 1 : Nat) : Int) - 1 - (((n + 1 : Nat) : Int) - 1) + 1).toNat = m - n + 1 by omega, map_t1]
  refine fails_left ?_
  unfold polydivLoop
  refine fails_bind fun rk hrk => ?_
  rw [select_t1_n1_nat _ _ _ (by omega)] at hrk
  cases hrk
  refine fails_bind fun d hd => ?_
  rw [show mul _ _ = _ from zipWith_n_s _ _ _ _] at hd
  cases hd
  refine fails_bind fun d1 hd => ?_
  rw [unsqueeze_t1_n1] at hd
  cases hd
  refine fails_bind fun w hw => ?_
  rw [show mul _ _ = _ from zipWith_n1_nm _ _ _ _ _] at hw
  cases hw
  refine fails_left ?_
  unfold sliceSub
  refine fails_bind fun c hc => ?_
  rw [slice_t1_n1] at hc
  cases hc
  have hs : pyStop (m + 1) (some (((0 : Nat) : Int) + (((n + 1 : Nat) : Int) - 1) + 1)) -
      pyStart (m + 1) (some ((0 : Nat) : Int)) = n + 1 := by
    rw [show ((0 : Nat) : Int) + (((n + 1 : Nat) : Int) - 1) + 1 = ((n + 1 : Nat) : Int) by push_cast; ring, pyStop_nat, pyStart_nat]
    omega
  rw [hs]
  refine fails_bind fun nw hnw => ?_
  rw [show sub _ _ = _ from zipWith_m_nm _ _ _ _ _] at hnw
  cases hnw
  exact fails_check fun h => absurd (congrArg List.length h) (by simp)

/-- Non-vacuity: `X³ + 2 X² + 3 X + 4` divided by `2 X + 1`. -/
example : ∃ q r : Nat → Nat → ℚ,
    polydiv (packed true 1 4 fun _ i => (i : ℚ) + 1) (t1 2 fun i => 2 - (i : ℚ)) = .ok (packed true 1 3 q, packed true 1 1 r) ∧
      ∀ i, descPoly 4 (fun i => (i : ℚ) + 1) =
        descPoly 3 (q i) * descPoly 2 (fun i => 2 - (i : ℚ)) + descPoly 1 (r i) ∧
        (descPoly 1 (r i)).degree < (descPoly 2 fun i => 2 - (i : ℚ)).degree :=
  C21_polydiv_partial (m := 3) (n := 1) (.flat _) (by simp) _ (by decide)

end Props
