import Verif.Torch.Linalg
import Mathlib.Data.Nat.Factors

/-!
# Model of philtorch/mat.py
-/

namespace Phil.Mat
open Torch Torch.Tensor

/-- `itertools.accumulate(xs, op)`, called in `philtorch/mat.py:116` and `:154`. -/
def accumulate {σ : Type} (op : σ → σ → Res σ) : List σ → Res (List σ)
  | [] => .ok []
  | x :: xs => do
    let rs ← scanM op x xs
    return x :: rs

/-- Trial division: the prime factors of `n`, none of which is below `d` (used for sympy's `factorint`, imported in
`philtorch/mat.py:4`). -/
def trialDivision : Nat → Nat → Nat → List Nat
  | 0, _, _ => []
  | fuel + 1, n, d =>
    if n < 2 then [] else if n % d = 0 then d :: trialDivision fuel (n / d) d else trialDivision fuel n (d + 1)

/-- sympy's `factorint(n, multiple=True)` (used in `philtorch/mat.py:110` and `:148`): the sorted list of the prime
factors with multiplicity.  Trusted to be that list (`factorint_eq` shows that this definition is Mathlib's
`Nat.primeFactorsList`). -/
def factorint (n : Nat) : List Nat := trialDivision (2 * n) n 2

theorem trialDivision_eq (fuel n d : Nat) (hd : 2 ≤ d) (hn : 2 ≤ n → d ≤ n.minFac) (hf : 2 * n ≤ fuel + d ∨ n < 2) :
    trialDivision fuel n d = n.primeFactorsList := by
  induction fuel generalizing n d with
  | zero =>
    have : n < 2 := by
      by_contra h
      have h1 := hn (by omega)
      have h2 := Nat.minFac_le (n := n) (by omega)
      omega
    rw [trialDivision, eq_comm, Nat.primeFactorsList_eq_nil]
    omega
  | succ fuel ih =>
    rw [trialDivision]
    by_cases h2 : n < 2
    · rw [if_pos h2, eq_comm, Nat.primeFactorsList_eq_nil]
      omega
    rw [if_neg h2]
    have h3 := hn (by omega)
    by_cases h0 : n % d = 0
    · rw [if_pos h0]
      have hdm : n.minFac = d := le_antisymm (Nat.minFac_le_of_dvd hd (Nat.dvd_of_mod_eq_zero h0)) h3
      obtain ⟨k, rfl⟩ : ∃ k, n = k + 2 := ⟨n - 2, by omega⟩
      rw [Nat.primeFactorsList, hdm, ih _ _ hd (fun h => ?_) ?_]
      · have := Nat.div_le_div_left hd (by omega) (a := k + 2)
        omega
      · refine le_trans h3 (Nat.minFac_le_of_dvd (Nat.minFac_prime (by omega)).two_le ?_)
        exact (Nat.minFac_dvd _).trans (Nat.div_dvd_of_dvd (Nat.dvd_of_mod_eq_zero h0))
    · rw [if_neg h0]
      refine ih _ _ (by omega) (fun _ => ?_) (by omega)
      have : d ≠ n.minFac := fun h => h0 (Nat.mod_eq_zero_of_dvd (h ▸ Nat.minFac_dvd n))
      omega

theorem factorint_eq (n : Nat) : factorint n = n.primeFactorsList :=
  trialDivision_eq _ _ _ (le_refl 2) (fun h => (Nat.minFac_prime (by omega)).two_le) (Or.inl (by omega))

section
variable {α : Type} [CommRing α]

/-- `philtorch/mat.py:114-129`, `_mat_pwr_accum_runner`, for an arbitrary factor list. -/
def matPwrAccumRunner : Tensor α → List Nat → Res (Tensor α)
  | _, [] => .error "ValueError: not enough values to unpack"
  | A, fac :: factors => do
    let ps ← accumulate matmul (List.replicate fac A)
    let accums ← stack ps (-3)
    if factors.length = 0 then return accums
    let last ← select accums (-3) (-1)
    let higher ← matPwrAccumRunner last factors
    let a1 ← slice accums (-3) none (some (-1))
    let a1 ← unsqueeze a1 (-4)
    let h1 ← slice higher (-3) none (some (-1))
    let h1 ← unsqueeze h1 (-3)
    let tmp ← matmul a1 h1
    let h2 ← slice higher (-3) (some 1) none
    let h2 ← unsqueeze h2 (-3)
    let c ← cat2 tmp h2 (-3)
    let c ← flatten c (-4) (-3)
    cat2 accums c (-3)

/-- `philtorch/mat.py:82-111`, `matrix_power_accumulate` for an exponent `n ≥ 0`.  `factorint` stands for sympy's
`factorint(n, multiple=True)`. -/
def matrixPowerAccumulateNat (factorint : Nat → List Nat) (A : Tensor α) (n : Nat) : Res (Tensor α) := do
  check (2 ≤ A.rank) "AssertionError: Input matrix A must have at least 2 dimensions."
  check (A.size (-2) = A.size (-1)) "AssertionError: Input matrix A must be square."
  if n = 0 then do
    let e ← expand (eye (A.size (-1))) (A.shape.map some)
    unsqueeze e (-3)
  else if n = 1 then unsqueeze A (-3)
  else matPwrAccumRunner A (factorint n)

/-- `philtorch/mat.py:153-166`, `_mat_cumdot_runner`.  `fuel` bounds the depth of the recursion, which is one per
axis to the left of the last two. -/
def matCumdotRunner : Nat → Tensor α → Nat → Res (Tensor α)
  | 0, _, _ => .error "RecursionError"
  | fuel + 1, A, leadingDims => do
    let as ← unbind A (-3)
    let ps ← accumulate matmul as
    let accums ← stack ps (-3)
    if A.rank = leadingDims + 3 then return accums
    let last ← select accums (-3) (-1)
    let higher ← matCumdotRunner fuel last leadingDims
    let a1 ← slice accums (-4) (some 1) none
    let a1 ← slice a1 (-3) none (some (-1))
    let h1 ← slice higher (-3) none (some (-1))
    let h1 ← unsqueeze h1 (-3)
    let tmp ← matmul a1 h1
    let a0 ← slice accums (-4) none (some 1)
    let h2 ← slice higher (-3) (some 1) none
    let h2 ← unsqueeze h2 (-3)
    let c ← cat2 tmp h2 (-3)
    cat2 a0 c (-4)

/-- `philtorch/mat.py:132-150`, `matrices_cumdot`, with the result of `factorint(M, multiple=True)` as a parameter. -/
def matricesCumdotWith (factors : List Nat) (A : Tensor α) : Res (Tensor α) := do
  check (3 ≤ A.rank) "AssertionError: Input tensor A must have at least 3 dimensions."
  check (A.size (-2) = A.size (-1)) "AssertionError: Input tensor A must have square matrices."
  if A.size (-3) = 1 then return A
  let unfoldedA ← unflatten A (-3) (factors.reverse.map some)
  let r ← matCumdotRunner unfoldedA.rank unfoldedA (A.rank - 3)
  flatten r ((A.rank - 3 : Nat) : Int) (-3)

/-- `philtorch/mat.py:132-150`, `matrices_cumdot`. -/
def matricesCumdot (A : Tensor α) : Res (Tensor α) :=
  matricesCumdotWith (factorint (A.size (-3))) A

/-- `philtorch/mat.py:42-62`, `companion` (`new_zeros`, `cat`, `unflatten`, then the subdiagonal is set to one). -/
def companion (a : Tensor α) : Res (Tensor α) := do
  check (1 ≤ a.rank) "AssertionError: All-pole coefficients must be at least 1D."
  let M := a.size (-1)
  let z := zeros (a.shape.dropLast ++ [M * (M - 1)])
  let c ← cat2 (neg a) z (-1)
  let c ← unflatten c (-1) [some M, some M]
  return ofFn c.shape fun l =>
    let i := l.getD (c.rank - 2) 0
    let j := l.getD (c.rank - 1) 0
    if i = j + 1 then 1 else c.get l

/-- `philtorch/mat.py:65-79`, `vandermonde` (`torch.vander(x)[i, j] = x[i] ** (M - 1 - j)`; `torch.vander` takes 1-D tensors
only, unlike `torch.linalg.vander`). -/
def vandermonde (poles : Tensor α) : Res (Tensor α) := do
  check (1 ≤ poles.rank) "IndexError: Dimension out of range"
  if poles.size (-1) = 1 then unsqueeze (full poles.shape 1) (-1)
  else do
    check (poles.rank = 1) "RuntimeError: x must be a one-dimensional tensor."
    mT (ofFn (poles.shape ++ [poles.size (-1)]) fun l =>
      poles.get l.dropLast ^ (poles.size (-1) - 1 - l.getLastD 0))

end

section
variable {α : Type} [Field α]

/-- `philtorch/mat.py:82-111`, `matrix_power_accumulate` for a negative exponent as well (this branch needs division). -/
noncomputable def matrixPowerAccumulate (factorint : Nat → List Nat) (A : Tensor α) (n : Int) : Res (Tensor α) := do
  check (2 ≤ A.rank) "AssertionError: Input matrix A must have at least 2 dimensions."
  check (A.size (-2) = A.size (-1)) "AssertionError: Input matrix A must be square."
  if n < 0 then do
    let Ainv ← linalgInv A
    matrixPowerAccumulateNat factorint Ainv (-n).toNat
  else matrixPowerAccumulateNat factorint A n.toNat

end

end Phil.Mat
