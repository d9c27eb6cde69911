import Verif.Props.C85Filter
import Verif.Props.C30
import Verif.Props.C83

/-!
# C85: inverse time-varying filters with states

`lpv.lfilter` with the backend `ssm`, numerator and denominator of every sample exchanged.  Unroll factors for which the blocked
recursion is correct (C07).
-/

namespace Props
open Torch Torch.Tensor Spec Phil Phil.Lpv
open Phil.Lti (Form ok_pair)
variable {α : Type} [CommRing α] [StarRing α]

/-- **C85, `lpv.lfilter` in form df2**: the inverse filter, started in the same state, gives the signal back and ends in the same state. -/
theorem C85_lpv_df2_inverse {B N P Q : Nat} {b a b' a' : Tensor α} {bv av : Nat → Nat → Nat → α} {u u' : Option Int} (lpc : Lpc α)
    (hb : MatVals B N (Q + 1) b fun i t => monic (bv i t)) (ha : MatVals B N P a av) (hb' : MatVals B N (P + 1) b' fun i t => monic (av i t))
    (ha' : MatVals B N Q a' bv) (x z : Nat → Nat → α) (hBN : B ≠ N) (hB : 0 < B) (hM : 0 < max P Q) (hN : 0 < N)
    (hu : FilterUnroll (max P Q) N u) (hu' : FilterUnroll (max P Q) N u') :
    ∃ y f, lfilter lpc b a (t2 B N x) (some (t2 B (max P Q) z)) .df2 .ssm u = .ok (t2 B N y, some (t2 B (max P Q) f)) ∧
      lfilter lpc b' a' (t2 B N y) (some (t2 B (max P Q) z)) .df2 .ssm u' = .ok (t2 B N x, some (t2 B (max P Q) f)) := by
  obtain ⟨w, hw, e⟩ := C30_ssm_df2_partial lpc hb ha (.batched B x) (.full z) (Or.inr hBN) hB (Nat.succ_pos Q) hM hN hu
  rw [packed_batch_tv, packed_batch_tv, Nat.add_sub_cancel] at e
  obtain ⟨v, hv, e'⟩ := C30_ssm_df2_partial lpc hb' ha'
    (.batched B fun i t => ∑ j ∈ Finset.range (Q + 1), monic (bv i t) j * withPast (z i) (w i) ((t : Int) - j))
    (zi := some (t2 B (max Q P) z)) (.full z) (Or.inr hBN) hB (Nat.succ_pos P) (by rw [Nat.add_sub_cancel]; omega) hN
    (by rw [Nat.add_sub_cancel, max_comm]; exact hu')
  rw [packed_batch_tv, packed_batch_tv, Nat.add_sub_cancel, max_comm Q P] at e'
  have now : ∀ (w : Nat → Nat → α) i (n : Nat), withPast (z i) (w i) n = w i n := fun w i n => by simp [withPast]
  have shift : ∀ (n k : Nat), (n : Int) - 1 - k = (n : Int) - (k + 1) := fun n k => by ring
  -- both filters keep the same values
  have same : ∀ i (n : Nat), ∀ j : Int, j < n → withPast (z i) (v i) j = withPast (z i) (w i) j := by
    intro i n
    induction n with
    | zero => intro j hj; rw [withPast, withPast, if_pos (by omega), if_pos (by omega)]
    | succ n ih =>
      intro j hj
      rcases lt_or_eq_of_le (show j ≤ n by omega) with h | rfl
      · exact ih j h
      · have g : ∑ k ∈ Finset.range Q, bv i n k * withPast (z i) (v i) ((n : Int) - 1 - k) =
            ∑ k ∈ Finset.range Q, bv i n k * withPast (z i) (w i) ((n : Int) - (k + 1)) :=
          Finset.sum_congr rfl fun k _ => by rw [ih _ (by omega), shift]
        rw [now, hv, sum_monic, g, now]
        ring
  refine ⟨_, _, e, e'.trans (ok_pair (t2_congr rfl rfl fun i t _ _ => ?_) (congrArg some (t2_congr rfl rfl fun i m _ _ => same i N _ (by omega))))⟩
  have g : ∑ k ∈ Finset.range P, av i t k * withPast (z i) (v i) ((t : Int) - (k + 1)) =
      ∑ k ∈ Finset.range P, av i t k * withPast (z i) (w i) ((t : Int) - 1 - k) :=
    Finset.sum_congr rfl fun k _ => by rw [same i t _ (by omega), shift]
  rw [sum_monic, g, same i (t + 1) t (by omega), now, hw]
  ring

example := C85_lpv_df2_inverse (B := 3) (N := 7) (P := 2) (Q := 3) (u := none) (u' := some 2) (bv := fun i t k => (i : ℤ) + t * k)
  (av := fun i t k => (i : ℤ) - t * k) refLpc (.batched _) (.batched _) (.batched _) (.batched _) (fun i t => i + t) (fun i t => i * t)
  (by decide) (by decide) (by decide) (by decide) (by unfold FilterUnroll GoodUnroll FewPrimes; decide +kernel)
  (by unfold FilterUnroll GoodUnroll FewPrimes; decide +kernel)

/-- **C85, `lpv.lfilter` in form tdf2**: the inverse filter, started in the negative of the state, gives the signal back and ends in the
negative of the state. -/
theorem C85_lpv_tdf2_inverse {B N P Q : Nat} {b a b' a' : Tensor α} {bv av : Nat → Nat → Nat → α} {u u' : Option Int} (lpc : Lpc α)
    (hb : MatVals B N (Q + 1) b fun i t => monic (bv i t)) (ha : MatVals B N P a av) (hb' : MatVals B N (P + 1) b' fun i t => monic (av i t))
    (ha' : MatVals B N Q a' bv) (x z : Nat → Nat → α) (hBN : B ≠ N) (hB : 0 < B) (hM : 0 < max P Q) (hN : 0 < N)
    (hu : FilterUnroll (max P Q) N u) (hu' : FilterUnroll (max P Q) N u') :
    ∃ y f, lfilter lpc b a (t2 B N x) (some (t2 B (max P Q) z)) .tdf2 .ssm u = .ok (t2 B N y, some (t2 B (max P Q) f)) ∧
      lfilter lpc b' a' (t2 B N y) (some (t2 B (max P Q) fun i m => -z i m)) .tdf2 .ssm u' =
        .ok (t2 B N x, some (t2 B (max P Q) fun i m => -f i m)) := by
  obtain ⟨y, s, h0, hy, hs, e⟩ := C30_ssm_tdf2_partial lpc hb ha (.batched B x) (.full z) (Or.inr hBN) hB (Nat.succ_pos Q) hM hN hu
  rw [packed_batch_tv, packed_batch_tv, Nat.add_sub_cancel] at e
  obtain ⟨v, r, k0, hv, hr, e'⟩ := C30_ssm_tdf2_partial lpc hb' ha' (.batched B y) (zi := some (t2 B (max Q P) fun i m => -z i m))
    (.full fun i m => -z i m) (Or.inr hBN) hB (Nat.succ_pos P) (by rw [Nat.add_sub_cancel]; omega) hN
    (by rw [Nat.add_sub_cancel, max_comm]; exact hu')
  rw [packed_batch_tv, packed_batch_tv, Nat.add_sub_cancel, max_comm Q P] at e'
  simp only [Nat.add_sub_cancel, max_comm Q P, Nat.add_lt_add_iff_right] at hs hr
  have one : ∀ c : Nat → α, star (monic c 0) = 1 := fun c => by simp [monic]
  have tap : ∀ (c : Nat → α) m, monic c (m + 1) = c m := fun c m => by simp [monic]
  have neg : ∀ i t m, m < max P Q → r i t m = -s i t m := by
    intro i t
    induction t with
    | zero => intro m _; rw [k0, h0]
    | succ t ih =>
      intro m hm
      have hout : v i t = x i t := by rw [hv, ih 0 hM, hy, one, one]; ring
      rw [hr i t m hm, hs i t m hm, hout, tap, tap]
      by_cases h : m + 1 < max P Q
      · rw [if_pos h, if_pos h, ih (m + 1) h]; ring
      · rw [if_neg h, if_neg h]; ring
  refine ⟨y, fun i m => s i N m, e, e'.trans (ok_pair (t2_congr rfl rfl fun i t _ _ => ?_) (congrArg some (t2_congr rfl rfl fun i m _ hm => neg i N m hm)))⟩
  rw [hv, neg i t 0 hM, hy, one, one]; ring

example := C85_lpv_tdf2_inverse (B := 3) (N := 7) (P := 2) (Q := 3) (u := none) (u' := some 2) (bv := fun i t k => (i : ℤ) + t * k)
  (av := fun i t k => (i : ℤ) - t * k) refLpc (.batched _) (.batched _) (.batched _) (.batched _) (fun i t => i + t) (fun i t => i * t)
  (by decide) (by decide) (by decide) (by decide) (by unfold FilterUnroll GoodUnroll FewPrimes; decide +kernel)
  (by unfold FilterUnroll GoodUnroll FewPrimes; decide +kernel)

end Props
