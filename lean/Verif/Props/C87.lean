import Verif.Props.C17
import Verif.Proof.Transfer
import Verif.Props.C82Space

/-!
# C87: symmetries of FIR filters

Exchanging taps and signal, and reading both backwards.
-/

namespace Props
open Torch Torch.Tensor Spec Phil Phil.Lti
variable {α : Type} [CommRing α] [StarRing α]

/-- **C87, exchange**: filtering a signal of `N` samples, followed by zeros, with `M` taps gives the same as filtering the taps, followed by
zeros, with the signal as taps. -/
theorem C87_exchange {B M N L : Nat} (b x : Nat → Nat → α) (hB : 0 < B) (hM : 0 < M) (hN : 0 < N) (hL : 0 < L) :
    fir (t2 B M b) (t2 B L fun i => zext N (x i)) none false = fir (t2 B N x) (t2 B L fun i => zext M (b i)) none false := by
  obtain ⟨M, rfl⟩ : ∃ m, M = m + 1 := ⟨M - 1, by omega⟩
  obtain ⟨N, rfl⟩ : ∃ n, N = n + 1 := ⟨N - 1, by omega⟩
  rw [C17_direct b _ hB hL, C17_direct x _ hB hL]
  refine ok_pair (t2_congr rfl rfl fun i n _ _ => ?_) rfl
  have h1 := taps_causal (M + 1) (b i) (zext (N + 1) (x i)) n
  have h2 := taps_causal (N + 1) (x i) (zext (M + 1) (b i)) n
  have h3 : conv (zext (M + 1) (b i)) (zext (N + 1) (x i)) = conv (zext (N + 1) (x i)) (zext (M + 1) (b i)) :=
    mk_inj (by rw [mk_conv, mk_conv, mul_comm])
  rw [← h3, ← h1] at h2
  exact h2.symm

example := C87_exchange (B := 2) (M := 3) (N := 4) (L := 9) (fun i k => (i : ℤ) + k) (fun i t => (i : ℤ) * t - 1) (by decide) (by decide) (by decide)
  (by decide)

/-- **C87, reversal**: filtering with the taps in reverse order the signal read backwards, both followed by zeros up to the full length
`M + N` of the response, gives the response read backwards. -/
theorem C87_reverse {B M N : Nat} (b x : Nat → Nat → α) (hB : 0 < B) (hN : 0 < N) :
    ∃ y, fir (t2 B (M + 1) b) (t2 B (M + N) fun i => zext N (x i)) none false = .ok (t2 B (M + N) y, none) ∧
      fir (t2 B (M + 1) fun i j => b i (M - j)) (t2 B (M + N) fun i => zext N fun t => x i (N - 1 - t)) none false =
        .ok (t2 B (M + N) fun i n => y i (M + N - 1 - n), none) := by
  refine ⟨_, C17_direct b _ hB (by omega), (C17_direct _ _ hB (by omega)).trans (ok_pair (t2_congr rfl rfl fun i n _ hn => ?_) rfl)⟩
  rw [← Finset.sum_range_reflect]
  refine Finset.sum_congr rfl fun j hj => ?_
  have hj := Finset.mem_range.1 hj
  rw [show M - (M + 1 - 1 - j) = j by omega]
  refine congrArg _ ?_
  simp only [causal, zext]
  by_cases h1 : n + j < M
  · rw [if_pos (by omega), if_neg (by omega), if_neg (by omega)]
  · by_cases h2 : M + N - 1 < n + j
    · rw [if_neg (by omega), if_neg (by omega), if_pos (by omega)]
    · rw [if_neg (by omega), if_pos (by omega), if_neg (by omega), if_pos (by omega)]
      congr 1; omega

example := C87_reverse (B := 2) (M := 3) (N := 4) (fun i k => (i : ℤ) + k) (fun i t => (i : ℤ) * t - 1) (by decide) (by decide)

/-- **C87, linear phase**: taps that read the same in both directions answer to a signal that reads the same in both directions with an
output that does; if one of the two changes sign when read backwards, so does the output (`c` and `d` are `1` or `-1`). -/
theorem C87_linear_phase {B M N : Nat} (b x : Nat → Nat → α) (c d : α) (hB : 0 < B) (hN : 0 < N) (hb : ∀ i j, i < B → j ≤ M → b i (M - j) = c * b i j)
    (hx : ∀ i t, i < B → t < N → x i (N - 1 - t) = d * x i t) :
    ∃ y, fir (t2 B (M + 1) b) (t2 B (M + N) fun i => zext N (x i)) none false = .ok (t2 B (M + N) y, none) ∧
      ∀ i n, i < B → n < M + N → y i (M + N - 1 - n) = c * d * y i n := by
  obtain ⟨y, e, e'⟩ := C87_reverse (M := M) b x hB hN
  refine ⟨y, e, fun i n hi hn => ?_⟩
  have h := t2_eq_iff.1 (Prod.mk.inj (Except.ok.inj (e'.symm.trans (C17_direct _ _ hB (by omega))))).1 i n hi hn
  have h0 := t2_eq_iff.1 (Prod.mk.inj (Except.ok.inj (e.symm.trans (C17_direct _ _ hB (by omega))))).1 i n hi hn
  rw [h, h0, Finset.mul_sum]
  refine Finset.sum_congr rfl fun j hj => ?_
  have hj := Finset.mem_range.1 hj
  rw [hb i j hi (by omega)]
  have : causal (zext N fun t => x i (N - 1 - t)) ((n : Int) - j) = d * causal (zext N (x i)) ((n : Int) - j) := by
    simp only [causal, zext]
    split_ifs with h1 h2
    · rw [mul_zero]
    · exact hx i _ hi h2
    · rw [mul_zero]
  rw [this]; ring

/-- Taps `1, 2, 1` and the signal `1, -1`. -/
example := C87_linear_phase (B := 1) (M := 2) (N := 2) (fun _ j => if j = 1 then (2 : ℤ) else 1) (fun _ t => if t = 0 then 1 else -1) 1 (-1) (by decide)
  (by decide) (by intro i j _ hj; interval_cases j <;> rfl) (by intro i t _ ht; interval_cases t <;> rfl)

end Props
