import Verif.Props.C13
import Verif.Props.C14
import Verif.Props.C74

/-!
# C85: inverse filters with states

The inverse of `(1 + β_1/z + …)/(1 + α_1/z + …)` exchanges numerator and denominator.
-/

namespace Props
open Torch Torch.Tensor Spec Phil
open Phil.Lti (Form ok_pair lfilter)
variable {α : Type} [CommRing α] [StarRing α]

/-- The coefficients `1, c_0, c_1, …`. -/
def monic (c : Nat → α) : Nat → α := fun k => if k = 0 then 1 else c (k - 1)

omit [StarRing α] in
theorem zext_monic (Q m : Nat) (c : Nat → α) : zext (Q + 1) (monic c) (m + 1) = zext Q c m := by
  simp [zext, monic]

omit [StarRing α] in
/-- The output of the form df2 with first tap one. -/
theorem sum_monic (Q : Nat) (c : Nat → α) (w : Int → α) (t : Nat) :
    ∑ j ∈ Finset.range (Q + 1), monic c j * w ((t : Int) - j) = w t + ∑ k ∈ Finset.range Q, c k * w ((t : Int) - (k + 1)) := by
  rw [Finset.sum_range_succ', add_comm]
  simp [monic]

/-- **C85, `lfilter` in form df2**: the inverse filter, started in the same state, gives the signal back and ends in the same state. -/
theorem C85_df2_inverse {B N P Q : Nat} {b a b' a' : Tensor α} {bv av : Nat → Nat → α} {u u' : Option Int} (hb : Rows B (Q + 1) b fun i => monic (bv i))
    (ha : Rows B P a av) (hb' : Rows B (P + 1) b' fun i => monic (av i)) (ha' : Rows B Q a' bv) (x z : Nat → Nat → α) (hM : 0 < max P Q) (hN : 0 < N)
    (hu : ∀ i, u = some i → 1 ≤ i) (hu' : ∀ i, u' = some i → 1 ≤ i) :
    ∃ y f, lfilter b a (t2 B N x) (some (t2 B (max P Q) z)) .df2 u = .ok (t2 B N y, some (t2 B (max P Q) f)) ∧
      lfilter b' a' (t2 B N y) (some (t2 B (max P Q) z)) .df2 u' = .ok (t2 B N x, some (t2 B (max P Q) f)) := by
  obtain ⟨w, h0, hw, e⟩ := C14_df2 hb ha (.batched B x) (.full z) (Nat.succ_pos Q) hM hN hu
  rw [packed_batch, packed_batch, Nat.add_sub_cancel] at e
  obtain ⟨v, k0, hv, e'⟩ := C14_df2 hb' ha' (.batched B fun i t => ∑ j ∈ Finset.range (Q + 1), monic (bv i) j * w i ((t : Int) - j))
    (zi := t2 B (max Q P) z) (.full z) (Nat.succ_pos P) (by rw [Nat.add_sub_cancel]; omega) hN hu'
  rw [packed_batch, packed_batch, Nat.add_sub_cancel, max_comm Q P] at e'
  -- both filters keep the same values
  have same : ∀ i (n : Nat), ∀ j : Int, j < n → v i j = w i j := by
    intro i n
    induction n with
    | zero =>
      intro j hj
      obtain ⟨m, rfl⟩ : ∃ m : Nat, j = -1 - m := ⟨(-1 - j).toNat, by omega⟩
      rw [k0, h0]
    | succ n ih =>
      intro j hj
      rcases lt_or_eq_of_le (show j ≤ n by omega) with h | rfl
      · exact ih j h
      · have g : ∑ k ∈ Finset.range Q, bv i k * v i ((n : Int) - (k + 1)) = ∑ k ∈ Finset.range Q, bv i k * w i ((n : Int) - (k + 1)) :=
          Finset.sum_congr rfl fun k _ => by rw [ih ((n : Int) - (k + 1)) (by omega)]
        rw [hv, sum_monic, g]
        ring
  refine ⟨_, _, e, e'.trans (ok_pair (t2_congr rfl rfl fun i t _ _ => ?_) (congrArg some (t2_congr rfl rfl fun i m _ _ => same i N _ (by omega))))⟩
  rw [sum_monic, Finset.sum_congr rfl fun k _ => by rw [same i t ((t : Int) - (k + 1)) (by omega)], same i (t + 1) t (by omega), hw]
  ring

example := C85_df2_inverse (B := 3) (N := 7) (P := 2) (Q := 3) (u := none) (u' := some 2) (bv := fun _ k => (k : ℤ) - 1) (av := fun i k => (i : ℤ) - k)
  (.shared _) (.batched _) (.batched _) (.shared _) (fun i t => i + t) (fun i t => i * t) (by decide) (by decide) (by simp) (by rintro i ⟨⟩; decide)

/-- **C85, `lfilter` in form tdf2**: the inverse filter, started in the negative of the state, gives the signal back and ends in the
negative of the state. -/
theorem C85_tdf2_inverse {B N P Q : Nat} {b a b' a' : Tensor α} {bv av : Nat → Nat → α} {u u' : Option Int} (hb : Rows B (Q + 1) b fun i => monic (bv i))
    (ha : Rows B P a av) (hb' : Rows B (P + 1) b' fun i => monic (av i)) (ha' : Rows B Q a' bv) (x z : Nat → Nat → α) (hM : 0 < max P Q) (hN : 0 < N)
    (hu : ∀ i, u = some i → 1 ≤ i) (hu' : ∀ i, u' = some i → 1 ≤ i) :
    ∃ y f, lfilter b a (t2 B N x) (some (t2 B (max P Q) z)) .tdf2 u = .ok (t2 B N y, some (t2 B (max P Q) f)) ∧
      lfilter b' a' (t2 B N y) (some (t2 B (max P Q) fun i m => -z i m)) .tdf2 u' =
        .ok (t2 B N x, some (t2 B (max P Q) fun i m => -f i m)) := by
  obtain ⟨y, s, h0, hy, hs, e⟩ := C13_tdf2_complex hb ha (.batched B x) (.full z) (Nat.succ_pos Q) hM hN hu
  rw [packed_batch, packed_batch, Nat.add_sub_cancel] at e
  obtain ⟨v, r, k0, hv, hr, e'⟩ := C13_tdf2_complex hb' ha' (.batched B y) (zi := t2 B (max Q P) fun i m => -z i m) (.full fun i m => -z i m)
    (Nat.succ_pos P) (by rw [Nat.add_sub_cancel]; omega) hN hu'
  rw [packed_batch, packed_batch, Nat.add_sub_cancel, max_comm Q P] at e'
  simp only [Nat.add_sub_cancel, zext_monic, max_comm Q P] at hs hr
  have one : ∀ c : Nat → α, star (monic c 0) = 1 := fun c => by simp [monic]
  have neg : ∀ i t m, m < max P Q → r i t m = -s i t m := by
    intro i t
    induction t with
    | zero => intro m _; rw [k0, h0]
    | succ t ih =>
      intro m hm
      have hout : v i t = x i t := by rw [hv, ih 0 hM, hy, one, one]; ring
      rw [hr i t m hm, hs i t m hm, hout]
      split
      · rw [ih (m + 1) (by assumption)]; ring
      · ring
  refine ⟨y, fun i m => s i N m, e, e'.trans (ok_pair (t2_congr rfl rfl fun i t _ _ => ?_) (congrArg some (t2_congr rfl rfl fun i m _ hm => neg i N m hm)))⟩
  rw [hv, neg i t 0 hM, hy, one, one]; ring

example := C85_tdf2_inverse (B := 3) (N := 7) (P := 2) (Q := 3) (u := none) (u' := some 2) (bv := fun _ k => (k : ℤ) - 1) (av := fun i k => (i : ℤ) - k)
  (.shared _) (.batched _) (.batched _) (.shared _) (fun i t => i + t) (fun i t => i * t) (by decide) (by decide) (by simp) (by rintro i ⟨⟩; decide)

end Props
