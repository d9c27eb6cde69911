import Verif.Props.C79
import Verif.Props.C16
import Verif.Proof.LtiFiltfilt
import Mathlib.Data.Nat.Fib.Basic
import Mathlib.Data.ZMod.Basic

/-!
# C80: the examples of the README

* `README.md:135-165`: `state_space` with `A = [[1, 1], [1, 0]]`, `C = [1, 0]` and the initial state `[1, 0]` computes the Fibonacci numbers.
* `README.md:102-121`: `lfilter` started with `lfilter_zi(a, b) * x[0]` behaves as if the signal had been `x[0]` for ever.
-/

namespace Props
open Torch Torch.Tensor Spec Phil
open Phil.Lti (Form ok_pair conjA conjB conjIf lfilter lfilterZi)

/-- The matrix `[[1, 1], [1, 0]]` (`README.md:149`). -/
def fibMatrix (α : Type) [CommRing α] : Tensor α := t2 2 2 fun i j => if i = 1 ∧ j = 1 then 0 else 1

/-- **C80, Fibonacci numbers**: for every length, ring and unroll factor (README: state `p = 1, q = 0`, 10 samples, integers). -/
theorem C80_fibonacci {α : Type} [CommRing α] [StarRing α] (p q : α) {B N : Nat} {k : Option Int} (hN : 0 < N)
    (hk : ∀ i, k = some i → 1 ≤ i) :
    Lti.stateSpace (fibMatrix α) (t2 B N fun _ _ => 0) none (some (t1 2 fun m => if m = 0 then 1 else 0)) none
        (some (t1 2 fun m => if m = 0 then p else q)) k none =
      .ok (t2 B N fun _ t => p * Nat.fib (t + 1) + q * Nat.fib t,
        some (t2 B 2 fun _ m => p * Nat.fib (N + 1 - m) + if m = 0 then q * Nat.fib N else q * (Nat.fib (N + 1) - Nat.fib N))) := by
  obtain ⟨s, h, e⟩ := C08_state_space_partial (α := α) (B := B) (N := N) (M := 2) (u := k)
    (.shared fun i j => if i = 1 ∧ j = 1 then (0 : α) else 1)
    (.none (.scalar fun _ _ => 0)) (.vec fun m => if m = 0 then (1 : α) else 0) (.none _ _)
    (.shared fun m => if m = 0 then p else q) (by decide) hN hk
  have key : ∀ b t, s b t 0 = p * Nat.fib (t + 1) + q * Nat.fib t ∧
      s b t 1 = p * Nat.fib t + q * (Nat.fib (t + 1) - Nat.fib t) := by
    intro b t
    induction t with
    | zero => rw [(h b 0).1, (h b 1).1]; simp
    | succ t ih =>
      rw [(h b 0).2, (h b 1).2]
      simp only [Finset.sum_range_succ, Finset.sum_range_zero, ih.1, ih.2, Nat.fib_add_two (n := t)]
      push_cast
      constructor <;> (simp; try ring)
  refine Eq.trans e ?_
  rw [signal, if_pos (by rfl)]
  refine ok_pair ?_ (congrArg some ?_)
  · refine t2_congr (α := α) rfl rfl fun b t _ _ => ?_
    simp [(key b t).1]
  · refine t2_congr (α := α) rfl rfl fun b m _ hm => ?_
    obtain rfl | rfl : m = 0 ∨ m = 1 := by omega
    · simpa using (key b N).1
    · simpa using (key b N).2

/-- The call of the README, for 64-bit integers. -/
example :=
  letI : StarRing (ZMod (2 ^ 64)) := starRingOfComm
  C80_fibonacci (α := ZMod (2 ^ 64)) 1 0 (B := 1) (N := 10) (k := none) (by decide) (by simp)

/-- The numbers printed in the README. -/
example : (List.range 10).map (fun t => (1 : ℤ) * Nat.fib (t + 1) + 0 * Nat.fib t) = [1, 1, 2, 3, 5, 8, 13, 21, 34, 55] := by decide

/-- **C80, steady start** (real numbers, form tdf2, the default): with `zi = lfilter_zi(a, b)`, `lfilter(b, a, x, zi=zi * c)` is the
constant `c` times the DC gain plus the response `y` from rest to `x - c`.  In the README `c = x[0]`. -/
theorem C80_steady_start {α : Type} [Field α] [StarRing α] [TrivialStar α] {B K P : Nat} {b a : Tensor α} {bv av : Nat → Nat → α}
    (hb : Rows B K b bv) (ha : Rows B P a av) (hK : 0 < K) (hM : 0 < max P (K - 1)) (hs : ∀ i, 1 + ∑ k ∈ Finset.range P, av i k ≠ 0) :
    ∃ zi z, lfilterZi a (some b) true = .ok zi ∧ Rows B (max P (K - 1)) zi z ∧
      ∀ (N : Nat) (c : Nat → α) (x : Nat → Nat → α) (X zi' : Tensor α) (u : Option Int), 0 < N → (∀ i, u = some i → 1 ≤ i) →
        Sig N B X x → Rows B (max P (K - 1)) zi' (fun i m => z i m * c i) →
        ∃ (y : Nat → Int → α) (zf : Tensor α), (∀ i n, n < 0 → y i n = 0) ∧
          (∀ i (n : Nat), y i n = taps K (bv i) (causal fun t => x i t - c i) n - taps P (av i) (y i) (n - 1)) ∧
          lfilter b a X (some zi') .tdf2 u =
            .ok (packed (allFlat X b a (some zi')) B N fun i t =>
              c i * ((∑ j ∈ Finset.range K, bv i j) / (1 + ∑ k ∈ Finset.range P, av i k)) + y i t, some zf) := by
  obtain ⟨zi, z, e, hz, h⟩ := Lti.lfilterZi_tdf2 hb ha hK hM (fun i => by simpa only [star_trivial] using hs i)
  refine ⟨zi, z, e, hz, fun N c x X zi' u hN hu hX hzi' => ?_⟩
  simp only [star_trivial] at h
  have e' := Lti.lfilter_tdf2 hb ha hX (Lti.rows_init hzi') hK hM hN hu
  simp only [star_trivial] at e'
  refine ⟨fun i => causal (tdf2Out (max P (K - 1)) (zext K (bv i)) (zext P (av i)) (fun _ => 0) fun t => x i t - c i), _,
    fun i n hn => if_pos hn, fun i n => ?_, e'.trans (ok_pair (congrArg (packed _ B N) (funext fun i => funext fun t => ?_)) rfl)⟩
  · dsimp only
    rw [causal_nat, tdf2_diff hM, taps_zext (by omega), taps_zext (by omega)]
  · dsimp only
    rw [← Lti.tdf2_dc hK hM (hs i) (h i) (c i) t, causal_nat]
    have k := tdf2Out_linear (max P (K - 1)) (zext K (bv i)) (zext P (av i)) 1 (fun m => z i m * c i) (fun _ => 0) (fun _ => c i)
      (fun t => x i t - c i) t
    simpa only [one_mul, add_zero, add_sub_cancel] using k

/-- A third-order filter and a signal of 201 samples, as in the README. -/
example := C80_steady_start (α := ℚ) (B := 1) (K := 4) (P := 3) (.shared fun k => (k : ℚ) + 1) (.shared fun k => (k : ℚ) / 10)
  (by decide) (by decide) (fun _ => by norm_num [Finset.sum_range_succ])

end Props
