import Verif.Proof.LtiFiltering

/-! # C14: direct form II state convention -/

namespace Props
open Torch Torch.Tensor Spec Phil Phil.Lti
variable {α : Type} [CommRing α] [StarRing α]

/-- **C14.** `lfilter(b, a, x, zi, form="df2")` (real or complex): there is an internal signal `w` with
`w_{-1-m} = zi_m`, `w_n = x_n - Σ_{k=1}^{P} a_k w_{n-k}` for `n ≥ 0`, output `y_n = Σ_{j<K} b_j w_{n-j}`, and final state
`w_{N-1}, w_{N-2}, …`. -/
theorem C14_df2 {B N K P : Nat} {b a X zi : Tensor α} {bv av x z : Nat → Nat → α} {u : Option Int}
    (hb : Rows B K b bv) (ha : Rows B P a av) (hx : Sig N B X x) (hz : InitState B (max P (K - 1)) (some zi) z)
    (hK : 0 < K) (hM : 0 < max P (K - 1)) (hN : 0 < N) (hu : ∀ i, u = some i → 1 ≤ i) :
    ∃ w : Nat → Int → α, (∀ i (m : Nat), w i (-1 - m) = z i m) ∧
      (∀ i (n : Nat), w i n = x i n - ∑ k ∈ Finset.range P, av i k * w i ((n : Int) - (k + 1))) ∧
      lfilter b a X (some zi) .df2 u =
        .ok (packed (allFlat X b a (some zi)) B N fun i t => ∑ j ∈ Finset.range K, bv i j * w i ((t : Int) - j),
          some (packed (allFlat X b a (some zi)) B (max P (K - 1)) fun i m => w i ((N : Int) - 1 - m))) := by
  have h := lfilter_df2 hb ha hx hz hK hM hN hu
  refine ⟨fun i => dfSignal (max P (K - 1)) (zext P (av i)) (z i) (x i), fun i m => dfSignal_past _ _ _ _, fun i n => ?_, h⟩
  beta_reduce
  rw [df_signal hM, sum_zext (by omega)]
  refine congrArg₂ (· - ·) rfl (Finset.sum_congr rfl fun k _ => ?_)
  congr 2; ring

/-- Non-vacuity: second order, three taps, two batch items with their own state. -/
example : ∃ w : Nat → Int → ℤ, (∀ i (m : Nat), w i (-1 - m) = (i : ℤ) + m) ∧
    (∀ i (n : Nat), w i n = (n : ℤ) - i - ∑ k ∈ Finset.range 2, ((k : ℤ) + 1) * w i ((n : Int) - (k + 1))) ∧
    lfilter (t1 3 fun j => (j : ℤ)) (t1 2 fun k => (k : ℤ) + 1) (t2 2 5 fun i t => (t : ℤ) - i)
      (some (t2 2 2 fun i m => (i : ℤ) + m)) .df2 none =
      .ok (t2 2 5 fun i t => ∑ j ∈ Finset.range 3, (j : ℤ) * w i ((t : Int) - j),
        some (t2 2 2 fun i m => w i ((5 : Nat) - 1 - m))) :=
  C14_df2 (.shared _) (.shared _) (.batched 2 _) (.full _) (by decide) (by decide) (by decide) (by simp)

end Props
