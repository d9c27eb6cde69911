import Verif.Proof.LpvAllpole

/-!
# C29: the time-varying FIR filter with taps `[1, a]` inverts the all-pole filter with coefficients `a`

The state of the direct forms is the same list of past samples for both filters.  The delay line of the transposed
forms has opposite signs in the two filters, so there the claim holds with a negated state; `C29_same_delay_line` shows
that with literally the same delay line it does not.  Orders `M ≥ 1`; for the transposed forms `M ≤ N` (see C27, C28).
-/

namespace Props
open Torch Torch.Tensor Spec Phil Phil.Lpv
open Phil.Lti (ok_pair)
variable {α : Type} [CommRing α] [StarRing α]

/-- The taps `[1, a_{n,0}, a_{n,1}, …]`. -/
def monicTaps (a : Nat → Nat → Nat → α) (i n j : Nat) : α := if j = 0 then 1 else a i n (j - 1)

omit [StarRing α] in
theorem monicTaps_sum {M : Nat} (a : Nat → Nat → Nat → α) (i n : Nat) (w : Int → α) :
    ∑ j ∈ Finset.range (M + 1), monicTaps a i n j * w ((n : Int) - j) =
      w n + ∑ k ∈ Finset.range M, a i n k * w ((n : Int) - 1 - k) := by
  rw [Finset.sum_range_succ', add_comm]
  refine congrArg₂ (· + ·) (by simp [monicTaps]) (Finset.sum_congr rfl fun k _ => ?_)
  rw [monicTaps, if_neg (by omega), Nat.add_sub_cancel]
  congr 2; push_cast; ring

/-- **C29, direct forms, all-pole first**: filtering the all-pole output with the taps `[1, a]` from the same past
returns the input, and both filters end in the same state. -/
theorem C29_fir_after_allpole {B M N : Nat} {lpc : Lpc α} (hl : IsLpc lpc) (a : Nat → Nat → Nat → α)
    (x z : Nat → Nat → α) (hM : 0 < M) (hN : 0 < N) : ∃ (y : Tensor α) (za zb : Tensor α),
      allpole lpc (t3 B N M a) (t2 B N x) (some (t2 B M z)) false = .ok (y, some za) ∧
      fir (t3 B N (M + 1) (monicTaps a)) y (some (t2 B M z)) false = .ok (t2 B N x, some zb) ∧ (M ≤ N → za = zb) := by
  obtain ⟨y, zf, e, hy, hf⟩ := hl B N M x a _ _ hN hM (.given z)
  refine ⟨t2 B N y, zf, t2 B M fun i m => withPast (z i) (y i) ((N : Int) - 1 - m), ?_, ?_, hf⟩
  · rw [allpole_some_eq, if_neg (by simp)]
    exact bind_step e rfl
  · rw [fir_some_eq, if_neg (by simp), firDirect_eq _ y z true hN]
    refine ok_pair (t2_congr rfl rfl fun i n hi hn => ?_) rfl
    rw [monicTaps_sum, withPast_nat, hy i n hn]
    ring

example := C29_fir_after_allpole (B := 2) (M := 2) (N := 7) Lpv.refLpc_isLpc (fun i t k => (i : ℤ) + t * k) (fun i t => (i : ℤ) * t)
  (fun i t => (i : ℤ) + t) (by decide) (by decide)

/-- **C29, direct forms, FIR first.** -/
theorem C29_allpole_after_fir {B M N : Nat} {lpc : Lpc α} (hl : IsLpc lpc) (a : Nat → Nat → Nat → α)
    (x z : Nat → Nat → α) (hM : 0 < M) (hN : 0 < N) : ∃ (v : Tensor α) (za zb : Tensor α),
      fir (t3 B N (M + 1) (monicTaps a)) (t2 B N x) (some (t2 B M z)) false = .ok (v, some zb) ∧
      allpole lpc (t3 B N M a) v (some (t2 B M z)) false = .ok (t2 B N x, some za) ∧ (M ≤ N → za = zb) := by
  obtain ⟨y, zf, e, hy, hf⟩ := hl B N M (fun i n => ∑ j ∈ Finset.range (M + 1), monicTaps a i n j *
    withPast (z i) (x i) ((n : Int) - j)) a _ _ hN hM (.given z)
  have hx : ∀ i, AllPole N M (a i) (z i) (fun n => ∑ j ∈ Finset.range (M + 1), monicTaps a i n j *
      withPast (z i) (x i) ((n : Int) - j)) (x i) := by
    intro i n hn
    beta_reduce
    rw [monicTaps_sum, withPast_nat]
    ring
  have hyx : ∀ i n, n < N → y i n = x i n := fun i n hn =>
    allPole_unique (hy i) (hx i) (fun _ _ _ _ => rfl) (fun _ _ => rfl) (fun _ _ => rfl) hn
  refine ⟨_, zf, _, (fir_some_eq _ x z false).trans ((if_neg (by simp)).trans (firDirect_eq _ x z true hN)), ?_,
    fun h => ?_⟩
  · rw [allpole_some_eq, if_neg (by simp)]
    refine bind_step e (ok_pair (t2_congr rfl rfl fun i n hi hn => hyx i n hn) rfl)
  · rw [hf h]
    exact t2_congr rfl rfl fun i m hi hm => withPast_congr (fun _ _ => rfl) (fun n hn => hyx i n hn) hm

example := C29_allpole_after_fir (B := 2) (M := 2) (N := 7) Lpv.refLpc_isLpc (fun i t k => (i : ℤ) + t * k) (fun i t => (i : ℤ) * t)
  (fun i t => (i : ℤ) + t) (by decide) (by decide)

theorem tvDelay_opposite {M : Nat} (a : Nat → Nat → Nat → α) (i : Nat) (z x : Nat → α) (n : Nat) :
    ∀ m, tvDelay M (poleTaps (a i)) (fun m => -z m) x n m = -tvDelay M (fun n j => star (monicTaps a i n j)) z x n m := by
  induction n with
  | zero => intro m; rfl
  | succ n ih =>
    intro m
    simp only [tvDelay]
    rw [ih, show poleTaps (a i) n (m + 1) = -star (a i n m) from if_neg (by omega),
      show monicTaps a i n (m + 1) = a i n m from if_neg (by omega)]
    by_cases h : m + 1 < M
    · rw [if_pos h, if_pos h]; ring
    · rw [if_neg h, if_neg h]; ring

omit [StarRing α] in
theorem tvDelay_congr {M : Nat} {b : Nat → Nat → α} {z x y : Nat → α} {n : Nat} (h : ∀ m, m < n → x m = y m) :
    ∀ m, tvDelay M b z x n m = tvDelay M b z y n m := by
  induction n with
  | zero => intro m; rfl
  | succ n ih =>
    intro m
    simp only [tvDelay]
    rw [ih (fun m hm => h m (by omega)), h n (by omega)]

/-- **C29 (partial), transposed forms, FIR first**: from opposite delay lines the all-pole filter returns the input, and
the final delay lines are opposite again.  Missing: `N < M`, where the code raises. -/
theorem C29_transposed_allpole_after_fir_partial {B M N : Nat} {lpc : Lpc α} (hl : IsLpc lpc)
    (a : Nat → Nat → Nat → α) (x z : Nat → Nat → α) (hM : 0 < M) (hMN : M ≤ N) : ∃ (v : Tensor α) (s : Nat → Nat → α),
      fir (t3 B N (M + 1) (monicTaps a)) (t2 B N x) (some (t2 B M z)) true = .ok (v, some (t2 B M s)) ∧
      allpole lpc (t3 B N M a) v (some (t2 B M fun i m => -z i m)) true =
        .ok (t2 B N x, some (t2 B M fun i m => -s i m)) := by
  obtain ⟨y, hy, e⟩ := allpoleTransposed_eq (B := B) hl a (fun i n =>
    tvConv N M (fun n j => star (monicTaps a i n j)) (x i) n + if n < M then z i n else 0) (fun i m => -z i m) true
    (by omega) hM hMN
  have hyx : ∀ i n, n < N → y i n = x i n := by
    intro i n
    induction n using Nat.strong_induction_on with
    | _ n ih =>
      intro hn
      have h := tvDelay_out (M := M) (fun n j => star (monicTaps a i n j)) (z i) (x i) hn
      rw [if_pos hM, show monicTaps a i n 0 = 1 from if_pos rfl, star_one, one_mul] at h
      rw [hy i n hn, ← h, tvDelay_congr (fun m hm => ih m hm (by omega)), tvDelay_opposite]
      ring
  refine ⟨_, _, fir_transposed_some _ x z (by omega) hMN, ?_⟩
  rw [allpole_some_eq, if_pos rfl, e]
  refine ok_pair (t2_congr rfl rfl fun i n hi hn => hyx i n hn) (congrArg some (t2_congr rfl rfl fun i m hi hm => ?_))
  rw [tvDelay_congr (fun n hn => hyx i n hn), tvDelay_opposite, tvDelay_final _ _ _ hMN hm]

/-- **C29 (partial), transposed forms, all-pole first.** -/
theorem C29_transposed_fir_after_allpole_partial {B M N : Nat} {lpc : Lpc α} (hl : IsLpc lpc)
    (a : Nat → Nat → Nat → α) (x z : Nat → Nat → α) (hM : 0 < M) (hMN : M ≤ N) : ∃ (v : Tensor α) (s : Nat → Nat → α),
      allpole lpc (t3 B N M a) (t2 B N x) (some (t2 B M fun i m => -z i m)) true =
        .ok (v, some (t2 B M fun i m => -s i m)) ∧
      fir (t3 B N (M + 1) (monicTaps a)) v (some (t2 B M z)) true = .ok (t2 B N x, some (t2 B M s)) := by
  obtain ⟨y, hy, e⟩ := allpoleTransposed_eq (B := B) hl a x (fun i m => -z i m) true (by omega) hM hMN
  refine ⟨t2 B N y, fun i m => tvDelay M (fun n j => star (monicTaps a i n j)) (z i) (y i) N m, ?_, ?_⟩
  · rw [allpole_some_eq, if_pos rfl, e]
    refine ok_pair rfl (congrArg some (t2_congr rfl rfl fun i m hi hm => ?_))
    rw [tvDelay_opposite]
  · rw [fir_transposed_some _ y z (by omega) hMN]
    refine ok_pair (t2_congr rfl rfl fun i n hi hn => ?_) (congrArg some (t2_congr rfl rfl fun i m hi hm => ?_))
    · rw [← tvDelay_out (M := M) (fun n j => star (monicTaps a i n j)) (z i) (y i) hn, if_pos hM,
        show monicTaps a i n 0 = 1 from if_pos rfl, star_one, one_mul, hy i n hn, tvDelay_opposite]
      ring
    · rw [tvDelay_final _ _ _ hMN hm]

example := C29_transposed_fir_after_allpole_partial (B := 2) (M := 2) (N := 7) Lpv.refLpc_isLpc (fun i t k => (i : ℤ) + t * k)
  (fun i t => (i : ℤ) * t) (fun i t => (i : ℤ) + t) (by decide) (by decide)

/-- **The transposed forms are not inverse from the same delay line**: with `a = 0`, `x = 0`, `zi = 1` the two filters
give `1 + 1` instead of `0`. -/
theorem C29_same_delay_line :
    at? ((fir (t3 1 1 2 fun _ _ j => if j = 0 then (1 : ℤ) else 0) (t2 1 1 fun _ _ => 0) (some (t2 1 1 fun _ _ => 1)) true
      >>= fun r => allpole refLpc (t3 1 1 1 fun _ _ _ => 0) r.1 (some (t2 1 1 fun _ _ => 1)) true).map Prod.fst) [0, 0] =
      some 2 := by decide +kernel

/-- Non-vacuity: order two, three samples, coefficients varying in time. -/
example : ∃ (v : Tensor ℤ) (s : Nat → Nat → ℤ),
    fir (t3 1 3 3 (monicTaps fun _ n k => (n : ℤ) - k)) (t2 1 3 fun _ n => (n : ℤ) + 1) (some (t2 1 2 fun _ m => (m : ℤ) + 5))
      true = .ok (v, some (t2 1 2 s)) ∧
    allpole refLpc (t3 1 3 2 fun _ n k => (n : ℤ) - k) v (some (t2 1 2 fun _ m => -((m : ℤ) + 5))) true =
      .ok (t2 1 3 fun _ n => (n : ℤ) + 1, some (t2 1 2 fun i m => -s i m)) :=
  C29_transposed_allpole_after_fir_partial refLpc_isLpc (fun _ n k => (n : ℤ) - k) (fun _ n => (n : ℤ) + 1)
    (fun _ m => (m : ℤ) + 5) (by decide) (by decide)

end Props
