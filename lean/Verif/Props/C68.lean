import Verif.Proof.DepthMat
import Verif.Props.C08

/-!
# C68: depth of the recursions

Full claim: the recursive functions of philtorch end on all arguments, and the depth of the recursion is logarithmic.

The functions ending in `Aux` are the modelled functions under a recursion limit: at most `k` nested calls, the next one raises
`RecursionError`.  Each theorem gives the number of nested calls exactly: for all arguments, well-shaped or not, a call under the
limit `k` returns `y` if and only if the call without a limit returns `y` and `k` is at least that number.
-/

namespace Props
open Torch Torch.Tensor Phil
variable {α : Type} [CommRing α] [StarRing α]

/-- **C68, `lti.linear_recurrence`**: `⌈log_u N⌉` nested calls (one, if that is zero) for unroll factor `u` and `N` samples. -/
theorem C68_lti_linear_recurrence (a init x : Tensor α) (u : Int) (k : Nat) (y : Tensor α) :
    Lti.linearRecurrenceAux u k a init x = .ok y ↔
      max 1 (Nat.clog u.toNat (x.size 1)) ≤ k ∧ Lti.linearRecurrence a init x u = .ok y :=
  (lti_linear_blocked u).exact k _ (a, init, x) y (levels_le _ _)

/-- **C68, `lpv.linear_recurrence`.** -/
theorem C68_lpv_linear_recurrence (a init x : Tensor α) (u : Int) (k : Nat) (y : Tensor α) :
    Lpv.linearRecurrenceAux u k a init x = .ok y ↔
      max 1 (Nat.clog u.toNat (x.size 1)) ≤ k ∧ Lpv.linearRecurrence a init x u = .ok y :=
  (lpv_linear_blocked u).exact k _ (a, init, x) y (levels_le _ _)

omit [StarRing α] in
/-- **C68, `lti.state_space_recursion`.** -/
theorem C68_lti_state_space_recursion (A zi x : Tensor α) (u : Int) (out : Option Int) (k : Nat) (y : Tensor α) :
    Lti.stateSpaceRecursionAux Lti.recursionLoop u k A zi x out = .ok y ↔
      max 1 (Nat.clog u.toNat (x.size 1)) ≤ k ∧ Lti.stateSpaceRecursion A zi x u out = .ok y :=
  (lti_space_blocked _ u).exact k _ (A, zi, x, out) y (levels_le _ _)

omit [StarRing α] in
/-- **C68, `lpv.state_space_recursion`.** -/
theorem C68_lpv_state_space_recursion (A zi x : Tensor α) (u : Int) (out : Option Int) (k : Nat) (y : Tensor α) :
    Lpv.stateSpaceRecursionAux Lpv.recursionLoop u k A zi x out = .ok y ↔
      max 1 (Nat.clog u.toNat (x.size 1)) ≤ k ∧ Lpv.stateSpaceRecursion A zi x u out = .ok y :=
  (lpv_space_blocked _ u).exact k _ (A, zi, x, out) y (levels_le _ _)

/-- A thousand samples in blocks of ten: three nested calls. -/
example : max 1 (Nat.clog (10 : Int).toNat 1000) = 3 := by
  show max 1 (Nat.clog 10 (10 ^ 3)) = 3
  rw [Nat.clog_pow 10 3 (by decide)]; rfl

/-- **C68, every signal**: 63 nested calls suffice for all signals shorter than `2^63` samples (PyTorch's limit for a size), with every
unroll factor; Python allows a thousand.  Calls that raise raise the same exception. -/
theorem C68_recursion_limit (A zi x : Tensor α) (u : Int) (out : Option Int) (hx : x.size 1 ≤ 2 ^ 63) :
    Lti.linearRecurrenceAux u 63 A zi x = Lti.linearRecurrence A zi x u ∧
      Lpv.linearRecurrenceAux u 63 A zi x = Lpv.linearRecurrence A zi x u ∧
      Lti.stateSpaceRecursionAux Lti.recursionLoop u 63 A zi x out = Lti.stateSpaceRecursion A zi x u out ∧
      Lpv.stateSpaceRecursionAux Lpv.recursionLoop u 63 A zi x out = Lpv.stateSpaceRecursion A zi x u out := by
  have h : levels u.toNat (x.size 1) ≤ 63 := by
    unfold levels
    rcases Nat.lt_or_ge 1 u.toNat with hu | hu
    · have : Nat.clog u.toNat (x.size 1) ≤ 63 := Nat.clog_le_of_le_pow (hx.trans (Nat.pow_le_pow_left hu 63))
      omega
    · rw [Nat.clog_of_left_le_one hu]; decide
  exact ⟨(lti_linear_blocked u).enough 63 _ (A, zi, x) h (levels_le _ _), (lpv_linear_blocked u).enough 63 _ (A, zi, x) h (levels_le _ _),
    (lti_space_blocked _ u).enough 63 _ (A, zi, x, out) h (levels_le _ _),
    (lpv_space_blocked _ u).enough 63 _ (A, zi, x, out) h (levels_le _ _)⟩

example := C68_recursion_limit (t0 (2 : ℤ)) (t0 0) (t2 2 100 fun i t => (i : ℤ) + t) 3 none (by show 100 ≤ 2 ^ 63; norm_num)

omit [StarRing α] in
/-- **C68, `matrices_cumdot`**: one nested call of `_mat_cumdot_runner` for each prime factor of the number of matrices, counted with
multiplicity (`A'` is the sequence `A` cut into one axis per factor). -/
theorem C68_matrices_cumdot (A A' : Tensor α) (r : Tensor α) (k : Nat) (h3 : 3 ≤ A.rank) (h2 : 2 ≤ A.size (-3))
    (hA' : unflatten A (-3) ((A.size (-3)).primeFactorsList.reverse.map some) = .ok A') :
    Mat.matCumdotRunner k A' (A.rank - 3) = .ok r ↔
      (A.size (-3)).primeFactorsList.length ≤ k ∧ Mat.matCumdotRunner A'.rank A' (A.rank - 3) = .ok r := by
  set f := (A.size (-3)).primeFactorsList with hf
  have hpos : 0 < f.length := by
    rw [List.length_pos_iff, hf, ne_eq, Nat.primeFactorsList_eq_nil]
    omega
  have hr : A'.rank = A.rank - 3 + 3 + (f.length - 1) := by
    obtain ⟨p, hp, hA'⟩ := ok_bind_inv hA'
    obtain ⟨ss, hss, hA'⟩ := ok_bind_inv hA'
    have hl : ss.length = f.length := by
      unfold resolve at hss
      dsimp only at hss
      split_ifs at hss <;> (cases hss; simp)
    cases hA'
    have := wrapDim_lt hp
    simp only [rank, ofFn, List.length_append, List.length_take, List.length_drop] at this h3 ⊢
    omega
  constructor
  · intro h
    have hd := cumdotRunner_needed _ _ _ _ _ hr h
    exact ⟨by omega, by rw [← h]; exact cumdotRunner_enough _ _ _ _ _ hr (by omega) hd⟩
  · rintro ⟨hk, h⟩
    rw [← h]
    exact cumdotRunner_enough _ _ _ _ _ hr (by omega) (by omega)

/-- Twelve matrices: `2 · 2 · 3`, three nested calls. -/
example (r : Tensor ℤ) (k : Nat) : ∃ A',
    unflatten (t3 12 2 2 fun i m n => (i : ℤ) + m * n) (-3) ([3, 2, 2].map some) = .ok A' ∧ A'.shape = [3, 2, 2, 2, 2] ∧
      (Mat.matCumdotRunner k A' 0 = .ok r ↔ 3 ≤ k ∧ Mat.matCumdotRunner 5 A' 0 = .ok r) := by
  have hp : (12 : Nat).primeFactorsList = [2, 2, 3] := by decide +kernel
  have h := fun A' => C68_matrices_cumdot (t3 12 2 2 fun i m n => (i : ℤ) + m * n) A' r k (by decide) (by decide)
  simp only [show (t3 12 2 2 fun i m n => (i : ℤ) + m * n).size (-3) = 12 from rfl, hp] at h
  exact ⟨_, rfl, rfl, h _ rfl⟩

omit [StarRing α] in
/-- **C68, `polysmul`**: `⌈log₂ n⌉ + 1` nested calls for `n` polynomials (without arguments no number suffices, C48). -/
theorem C68_polysmul [DecidableEq α] (ps : List (List α)) (h : ps ≠ []) (k : Nat) (r : List α) :
    Proto.polysmulAux k ps = .ok r ↔ Nat.clog 2 ps.length + 1 ≤ k ∧ Proto.polysmul ps = .ok r := by
  constructor
  · intro hr
    have := Proto.polysmul_needed k ps r hr
    exact ⟨this, by rw [← Proto.polysmul_enough k ps h this]; exact hr⟩
  · rintro ⟨hk, hr⟩
    rw [Proto.polysmul_enough k ps h hk]; exact hr

example := C68_polysmul [[(1 : ℤ), 1], [1, 2], [0, 1, 3]] (by decide) 3

end Props
