import Verif.Proof.Newton
import Verif.Props.C41

/-!
# C45: the Newton solver for sequences

`Spec.iterate f init x` is the sequential iteration `y[t] = f(y[t-1], x[t])`, `y[-1] = init`.  `func` applies `f` at every time
(`IsPointwise`), `fprime` some matrix valued function `J` (`IsPointwiseMat`; with `fprime=None` the Jacobian).  The outcome of
`torch.allclose` is arbitrary (`close`).
-/

namespace Props
open Torch Torch.Tensor Spec Phil Omp Phil.Host Phil.Newton
open Finset (range)
variable {α : Type} [CommRing α]

/-- What can run the linear recurrence of the Newton step: operators that are correct and can be reached, and an unroll factor for
which the blocked recursion is correct (C07).  `unroll_factor=None` needs an extension. -/
structure NewtonSetup (e : Env α) (B D L : Nat) (u : Option Int) : Prop where
  correct : Correct e
  install : LpvInstall e D
  batch : 0 < B
  dim : 0 < D
  none_ext : u = none → e.lpvUseExt D
  pos : 1 ≤ u.getD 1
  factor : u.getD 1 ≤ 2 ∨ ((L - 1 : Nat) : Int) ≤ u.getD 1 ∨ ((u.getD 1).toNat - 1).Prime

/-- Apply a function of one state and one input at every time. -/
def pointwise1 (g : α → α → α) (y x : Tensor α) : Res (Tensor α) :=
  .ok (t3 (y.size 0) (y.size 1) 1 fun b t _ => g (y.get [b, t, 0]) (x.get [b, t, 0]))

/-- The same with matrix values. -/
def pointwise1Mat (g : α → α → α) (y x : Tensor α) : Res (Tensor α) :=
  .ok (t4 (y.size 0) (y.size 1) 1 1 fun b t _ _ => g (y.get [b, t, 0]) (x.get [b, t, 0]))

theorem C45_pointwise (g : α → α → α) : IsPointwise 1 1 (pointwise1 g) (fun y x _ => g (y 0) (x 0)) ∧
    IsPointwiseMat 1 1 (pointwise1Mat g) (fun y x _ _ => g (y 0) (x 0)) := by
  constructor
  · intro B K y x
    refine congrArg Except.ok ?_
    simp only [size_t3_0, size_t3_1]
    refine t3_congr rfl rfl rfl fun b t d hb ht _ => ?_
    have hb' : b < B := hb
    have ht' : t < K := ht
    rw [get_t3 hb' ht' (by omega), get_t3 hb' ht' (by omega)]
  · intro B K y x
    refine congrArg Except.ok ?_
    simp only [size_t3_0, size_t3_1]
    refine t4_congr rfl rfl rfl rfl fun b t d d' hb ht _ _ => ?_
    have hb' : b < B := hb
    have ht' : t < K := ht
    rw [get_t3 hb' ht' (by omega), get_t3 hb' ht' (by omega)]

section
variable {e : Env α} {B L D N : Nat} {func fprime : Tensor α → Tensor α → Res (Tensor α)} {f : (Nat → α) → (Nat → α) → Nat → α}
  {J : (Nat → α) → (Nat → α) → Nat → Nat → α} {u : Option Int}

/-- **C45, the first entries**: the result has the length of `x`, and after `k` iterations its first `k` entries are exact.  The function,
the "Jacobian" (it may be wrong), the guess, the convergence test and the number of iterations are arbitrary.  Missing: `max_iter = 0`,
where the code raises, and unroll factors for which the blocked recursion is wrong (C07). -/
theorem C45_first_entries_partial (hs : NewtonSetup e B D L u) (hf : IsPointwise D N func f) (hJ : IsPointwiseMat D N fprime J)
    (close : Tensor α → Tensor α → Bool) (x y0 : Nat → Nat → Nat → α) (init : Nat → Nat → α) {maxIter : Nat} (h1 : 1 ≤ maxIter)
    (h2 : maxIter < L) :
    ∃ (r : Nat → Nat → Nat → α) (k : Nat) (inter : List (Tensor α)),
      newtonSolve e func fprime close (t3 B L N x) (t3 B L D y0) (t2 B D init) maxIter u = .ok (t3 B L D r, k, inter) ∧
      1 ≤ k ∧ k ≤ maxIter ∧ ∀ b t, t < k → r b t = iterate f (init b) (x b) t := by
  obtain ⟨k, q, hk1, hk2, h⟩ := newtonSolve_eq hf hJ
    (runner_ok hs.correct hs.install hs.none_ext hs.batch hs.dim hs.pos hs.factor) close x y0 init h1 h2
  refine ⟨_, k, _, h, hk1, hk2, fun b t ht => ?_⟩
  funext d
  rw [if_pos ht, seqs_first]

example := C45_first_entries_partial (e := cpuEnv alternating) (B := 3) (L := 7) (D := 1) (N := 1) (u := some 1)
  ⟨(C41_cpu_extension C38_alternating_case).1, ((C41_cpu_extension C38_alternating_case).2 1).2, by decide, by decide, fun h => (by cases h),
    by decide, Or.inl (by decide)⟩ (C45_pointwise fun (y x : ℤ) => y ^ 2 + x).1 (C45_pointwise fun (y _ : ℤ) => 2 * y).2 (fun _ _ => true)
  (fun i t k => (i : ℤ) - t * k) (fun i t k => (i : ℤ) + t * k) (fun i t => (i : ℤ) + t) (maxIter := 3) (by decide) (by decide)

/-- **C45, without convergence test** all iterations are done. -/
theorem C45_all_iterations_partial (hs : NewtonSetup e B D L u) (hf : IsPointwise D N func f) (hJ : IsPointwiseMat D N fprime J)
    (x y0 : Nat → Nat → Nat → α) (init : Nat → Nat → α) {maxIter : Nat} (h1 : 1 ≤ maxIter) (h2 : maxIter < L) :
    ∃ (r : Nat → Nat → Nat → α) (inter : List (Tensor α)),
      newtonSolve e func fprime (fun _ _ => false) (t3 B L N x) (t3 B L D y0) (t2 B D init) maxIter u =
        .ok (t3 B L D r, maxIter, inter) ∧
      ∀ b t, t < maxIter → r b t = iterate f (init b) (x b) t := by
  obtain ⟨n, rfl⟩ : ∃ n, maxIter = n + 1 := ⟨maxIter - 1, by omega⟩
  have hr := runner_ok hs.correct hs.install hs.none_ext hs.batch hs.dim hs.pos hs.factor
  obtain ⟨k, q, hk1, hk2, h⟩ := newtonSolve_eq hf hJ hr (fun _ _ => false) x y0 init h1 h2
  have hk : k = n + 1 := newtonSolve_no_stop h
  refine ⟨_, _, hk ▸ h, fun b t ht => ?_⟩
  funext d
  rw [if_pos (hk ▸ ht), seqs_first]

example := C45_all_iterations_partial (e := cpuEnv alternating) (B := 3) (L := 7) (D := 1) (N := 1) (u := some 1)
  ⟨(C41_cpu_extension C38_alternating_case).1, ((C41_cpu_extension C38_alternating_case).2 1).2, by decide, by decide, fun h => (by cases h),
    by decide, Or.inl (by decide)⟩ (C45_pointwise fun (y x : ℤ) => y ^ 2 + x).1 (C45_pointwise fun (y _ : ℤ) => 2 * y).2
  (fun i t k => (i : ℤ) - t * k) (fun i t k => (i : ℤ) + t * k) (fun i t => (i : ℤ) + t) (maxIter := 6) (by decide) (by decide)

/-- **C45, affine functions**: if `f` is affine in the state and `J` its matrix, every entry is exact, after any number of iterations. -/
theorem C45_affine_partial (hs : NewtonSetup e B D L u) (hf : IsPointwise D N func f) (hJ : IsPointwiseMat D N fprime J)
    (ha : ∀ y y' x d, f y' x d = f y x d + ∑ j ∈ range D, J y x d j * (y' j - y j))
    (close : Tensor α → Tensor α → Bool) (x y0 : Nat → Nat → Nat → α) (init : Nat → Nat → α) {maxIter : Nat} (h1 : 1 ≤ maxIter)
    (h2 : maxIter < L) :
    ∃ (k : Nat) (inter : List (Tensor α)),
      newtonSolve e func fprime close (t3 B L N x) (t3 B L D y0) (t2 B D init) maxIter u =
        .ok (t3 B L D fun b => iterate f (init b) (x b), k, inter) := by
  obtain ⟨k, q, hk1, hk2, h⟩ := newtonSolve_eq hf hJ
    (runner_ok hs.correct hs.install hs.none_ext hs.batch hs.dim hs.pos hs.factor) close x y0 init h1 h2
  refine ⟨k, _, h.trans (congrArg Except.ok (congrArg₂ Prod.mk ?_ rfl))⟩
  refine t3_congr rfl rfl rfl fun b t d hb ht hd => ?_
  split
  · rw [seqs_first]
  · obtain ⟨i, rfl⟩ : ∃ i, k = i + 1 := ⟨k - 1, by omega⟩
    rw [seqs_affine f J D ha, show i + (t - (i + 1) + 1) = t by omega]

example := C45_affine_partial (e := cpuEnv alternating) (B := 3) (L := 7) (D := 1) (N := 1) (u := some 1)
  ⟨(C41_cpu_extension C38_alternating_case).1, ((C41_cpu_extension C38_alternating_case).2 1).2, by decide, by decide, fun h => (by cases h),
    by decide, Or.inl (by decide)⟩ (C45_pointwise fun (y x : ℤ) => 3 * y + x).1 (C45_pointwise fun (_ _ : ℤ) => 3).2
  (fun y y' x d => by rw [Finset.sum_range_one]; ring) (fun _ _ => true)
  (fun i t k => (i : ℤ) - t * k) (fun i t k => (i : ℤ) + t * k) (fun i t => (i : ℤ) + t) (maxIter := 3) (by decide) (by decide)

/-- **C45, exact guess**: the exact sequence is returned unchanged, whatever `J` is. -/
theorem C45_exact_guess_partial (hs : NewtonSetup e B D L u) (hf : IsPointwise D N func f) (hJ : IsPointwiseMat D N fprime J)
    (close : Tensor α → Tensor α → Bool) (x : Nat → Nat → Nat → α) (init : Nat → Nat → α) {maxIter : Nat} (h1 : 1 ≤ maxIter)
    (h2 : maxIter < L) :
    ∃ (k : Nat) (inter : List (Tensor α)),
      newtonSolve e func fprime close (t3 B L N x) (t3 B L D fun b => iterate f (init b) (x b)) (t2 B D init) maxIter u =
        .ok (t3 B L D fun b => iterate f (init b) (x b), k, inter) := by
  obtain ⟨k, q, hk1, hk2, h⟩ := newtonSolve_eq hf hJ
    (runner_ok hs.correct hs.install hs.none_ext hs.batch hs.dim hs.pos hs.factor) close x
      (fun b => iterate f (init b) (x b)) init h1 h2
  refine ⟨k, _, h.trans (congrArg Except.ok (congrArg₂ Prod.mk ?_ rfl))⟩
  refine t3_congr rfl rfl rfl fun b t d hb ht hd => ?_
  split
  · rw [seqs_first]
  · obtain ⟨i, rfl⟩ : ∃ i, k = i + 1 := ⟨k - 1, by omega⟩
    rw [seqs_exact, show i + (t - (i + 1) + 1) = t by omega]

example := C45_exact_guess_partial (e := cpuEnv alternating) (B := 3) (L := 7) (D := 1) (N := 1) (u := some 1)
  ⟨(C41_cpu_extension C38_alternating_case).1, ((C41_cpu_extension C38_alternating_case).2 1).2, by decide, by decide, fun h => (by cases h),
    by decide, Or.inl (by decide)⟩ (C45_pointwise fun (y x : ℤ) => y ^ 2 + x).1 (C45_pointwise fun (y _ : ℤ) => 2 * y).2 (fun _ _ => true)
  (fun i t k => (i : ℤ) - t * k) (fun i t => (i : ℤ) + t) (maxIter := 3) (by decide) (by decide)

/-- **C45, the intermediate results are not sequences of the length of `x`**: the `j`-th one (counted from 0) consists of the `j + 1`
exact entries known so far, and then of the last of them once more (`new_y[:, :1]` instead of `new_y[:, 1:]`). -/
theorem C45_intermediate (hs : NewtonSetup e B D L u) (hf : IsPointwise D N func f) (hJ : IsPointwiseMat D N fprime J)
    (close : Tensor α → Tensor α → Bool) (x y0 : Nat → Nat → Nat → α) (init : Nat → Nat → α) {maxIter : Nat} (h1 : 1 ≤ maxIter)
    (h2 : maxIter < L) :
    ∃ (r : Nat → Nat → Nat → α) (k q : Nat),
      newtonSolve e func fprime close (t3 B L N x) (t3 B L D y0) (t2 B D init) maxIter u =
        .ok (t3 B L D r, k, (List.range q).map fun j => t3 B (j + 2) D fun b t => iterate f (init b) (x b) (min t j)) := by
  obtain ⟨k, q, hk1, hk2, h⟩ := newtonSolve_eq hf hJ
    (runner_ok hs.correct hs.install hs.none_ext hs.batch hs.dim hs.pos hs.factor) close x y0 init h1 h2
  refine ⟨_, k, q, h.trans (congrArg Except.ok (congrArg₂ Prod.mk rfl (congrArg₂ Prod.mk rfl ?_)))⟩
  refine List.map_congr_left fun j _ => t3_congr rfl rfl rfl fun b t d hb ht hd => ?_
  have ht' : t < j + 2 := ht
  split
  · rw [seqs_first, Nat.min_eq_left (by omega)]
  · rw [show t - (j + 1) = 0 by omega, seqs_first, Nat.min_eq_right (by omega)]

end

example := C45_intermediate (e := cpuEnv alternating) (B := 3) (L := 7) (D := 1) (N := 1) (u := some 1)
  ⟨(C41_cpu_extension C38_alternating_case).1, ((C41_cpu_extension C38_alternating_case).2 1).2, by decide, by decide, fun h => (by cases h),
    by decide, Or.inl (by decide)⟩ (C45_pointwise fun (y x : ℤ) => y ^ 2 + x).1 (C45_pointwise fun (y _ : ℤ) => 2 * y).2 (fun _ _ => true)
  (fun i t k => (i : ℤ) - t * k) (fun i t k => (i : ℤ) + t * k) (fun i t => (i : ℤ) + t) (maxIter := 3) (by decide) (by decide)

/-- **C45 is false for `max_iter = 0`**: `new_y` is never assigned. -/
theorem C45_no_iteration (e : Env α) (func fprime : Tensor α → Tensor α → Res (Tensor α)) (close : Tensor α → Tensor α → Bool)
    (x y0 init : Tensor α) (u : Option Int) : Fails (newtonSolve e func fprime close x y0 init 0 u) := by
  unfold newtonSolve
  exact fails_bind fun _ _ => fails_bind fun _ _ => fails_bind fun _ _ => ⟨_, rfl⟩

/-- **C45**: as many iterations as there are samples, which would make the whole result exact, are rejected. -/
theorem C45_too_many_iterations (e : Env α) (func fprime : Tensor α → Tensor α → Res (Tensor α)) (close : Tensor α → Tensor α → Bool)
    (B L N : Nat) (x : Nat → Nat → Nat → α) (y0 init : Tensor α) (u : Option Int) {maxIter : Nat} (h : L ≤ maxIter) :
    Fails (newtonSolve e func fprime close (t3 B L N x) y0 init maxIter u) := by
  unfold newtonSolve
  exact fails_check fun h' => absurd h' (by rw [size_t3_1]; omega)

example := C45_too_many_iterations (cpuEnv alternating) (pointwise1 fun y x => y ^ 2 + x) (pointwise1Mat fun y _ => 2 * y) (fun _ _ => true) 3 7 1
  (fun i t k => (i : ℤ) + t * k) (t3 3 7 1 fun _ _ _ => 0) (t2 3 1 fun _ _ => 0) (some 1) (maxIter := 7) (by decide)

/-! ## A case: `f(y, x) = y² + x` -/

/-- **C45, a case**: `y² + x` with its derivative `2y`, on the CPU with the compiled extension.  Two iterations give two exact entries. -/
theorem C45_case {sch : Scheduler (Regs ℤ) ℤ} (h : IsScheduler sch) (x y0 : Nat → Nat → Nat → ℤ) :
    ∃ (r : Nat → Nat → Nat → ℤ) (inter : List (Tensor ℤ)),
      newtonSolve (cpuEnv sch) (pointwise1 fun y x => y ^ 2 + x) (pointwise1Mat fun y _ => 2 * y) (fun _ _ => false) (t3 1 4 1 x) (t3 1 4 1 y0)
        (t2 1 1 fun _ _ => 3) 2 (some 1) = .ok (t3 1 4 1 r, 2, inter) ∧ r 0 0 0 = 9 + x 0 0 0 ∧ r 0 1 0 = (9 + x 0 0 0) ^ 2 + x 0 1 0 := by
  obtain ⟨hc, hi⟩ := C41_cpu_extension h
  obtain ⟨r, inter, e1, e2⟩ := C45_all_iterations_partial (e := cpuEnv sch) (B := 1) (L := 4) (D := 1) (N := 1) (u := some 1)
    ⟨hc, (hi 1).2, by omega, by omega, fun h => (by cases h), by decide, Or.inl (by decide)⟩ (C45_pointwise fun (y x : ℤ) => y ^ 2 + x).1
    (C45_pointwise fun (y _ : ℤ) => 2 * y).2 x y0 (fun _ _ => 3) (maxIter := 2) (by omega) (by omega)
  refine ⟨r, inter, e1, ?_, ?_⟩
  · rw [e2 0 0 (by omega)]; rfl
  · rw [e2 0 1 (by omega)]; rfl

example := C45_case C38_alternating_case (fun _ t _ => (t : ℤ)) (fun _ _ _ => 0)

/-- **C45, the last entry need not be exact**: for `f(y, x) = y² + x`, zero input, initial state 3, guess 0 and the largest admissible
number of iterations. -/
theorem C45_last_entry_not {sch : Scheduler (Regs ℤ) ℤ} (h : IsScheduler sch) :
    ∃ (r : Nat → Nat → Nat → ℤ) (inter : List (Tensor ℤ)),
      newtonSolve (cpuEnv sch) (pointwise1 fun y x => y ^ 2 + x) (pointwise1Mat fun y _ => 2 * y) (fun _ _ => false) (t3 1 2 1 fun _ _ _ => 0)
        (t3 1 2 1 fun _ _ _ => 0) (t2 1 1 fun _ _ => 3) 1 (some 1) = .ok (t3 1 2 1 r, 1, inter) ∧
      r 0 1 0 = 0 ∧ iterate (fun y x _ => y 0 ^ 2 + x 0) (fun _ => (3 : ℤ)) (fun _ _ => 0) 1 0 = 81 := by
  obtain ⟨hc, hi⟩ := C41_cpu_extension h
  have hr := runner_ok (B := 1) (L := 2) (D := 1) (u := some 1) hc (hi 1).2 (fun h => (by cases h)) (by omega) (by omega) (by decide)
    (Or.inl (by decide))
  obtain ⟨k, q, hk1, hk2, e⟩ := newtonSolve_eq (N := 1) (C45_pointwise fun (y x : ℤ) => y ^ 2 + x).1
    (C45_pointwise fun (y _ : ℤ) => 2 * y).2 hr (fun _ _ => false) (fun _ _ _ => 0) (fun _ _ _ => 0) (fun _ _ => 3) (maxIter := 1)
    (by omega) (by omega)
  obtain rfl : k = 1 := by omega
  exact ⟨_, _, e, by decide +kernel, by decide +kernel⟩

example := C45_last_entry_not C38_alternating_case

example := C45_last_entry_not C38_alternating_case

end Props
