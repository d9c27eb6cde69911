import Verif.Proof.Bezout
import Verif.Props.C74

/-!
# C76: the states of df2 and tdf2

Direct form II and transposed direct form II keep different states.  `convertState` (Verif/Spec/Bezout.lean) is the change from the former
to the latter: the product with the Bézout matrix of numerator and denominator.
-/

namespace Props
open Torch Torch.Tensor Spec Phil
open Phil.Lti (Form ok_pair conjA conjB conjIf)
variable {α : Type} [CommRing α] [StarRing α]

/-- **C76, change of form**: from the converted state, form tdf2 with the conjugate coefficients (those of form df2 for real data) returns
the output of form df2, and its final state is the converted final state. -/
theorem C76_convert {B N K P : Nat} {b a b' a' zi zi' : Tensor α} {bv av z : Nat → Nat → α} (x : Nat → Nat → α) {k k' : Option Int}
    (hb : Rows B K b bv) (ha : Rows B P a av) (hb' : Rows B K b' fun i k => star (bv i k)) (ha' : Rows B P a' fun i k => star (av i k))
    (hz : InitState B (max P (K - 1)) (some zi) z)
    (hz' : InitState B (max P (K - 1)) (some zi') fun i => convertState (max P (K - 1)) (zext K (bv i)) (zext P (av i)) (z i))
    (hK : 0 < K) (hM : 0 < max P (K - 1)) (hN : 0 < N) (hk : ∀ i, k = some i → 1 ≤ i) (hk' : ∀ i, k' = some i → 1 ≤ i) :
    ∃ y f, Lti.lfilter b a (t2 B N x) (some zi) .df2 k = .ok (t2 B N y, some (t2 B (max P (K - 1)) f)) ∧
      Lti.lfilter b' a' (t2 B N x) (some zi') .tdf2 k' = .ok (t2 B N y,
        some (t2 B (max P (K - 1)) fun i => convertState (max P (K - 1)) (zext K (bv i)) (zext P (av i)) (f i))) := by
  have e := Lti.lfilter_df2 hb ha (.batched B x) hz hK hM hN hk
  have e' := Lti.lfilter_tdf2 hb' ha' (.batched B x) hz' hK hM hN hk'
  rw [packed_batch, packed_batch] at e e'
  have s : ∀ (L : Nat) (f : Nat → α), (fun k => star (zext L (fun k => star (f k)) k)) = zext L f := fun L f => by
    funext k
    unfold zext
    split_ifs
    · exact star_star _
    · exact star_zero _
  refine ⟨_, _, e, e'.trans (ok_pair (t2_congr rfl rfl fun i n _ _ => ?_) (congrArg some (t2_congr rfl rfl fun i m _ hm => ?_)))⟩
  · rw [s, s, (tdf2_convert hM _ _ _ _ n).2]
    exact taps_zext (by omega) _ _ _
  · rw [s, s, (tdf2_convert hM _ _ _ _ N).1 m hm]

example := C76_convert (B := 2) (N := 7) (K := 3) (P := 2) (k := some 2) (k' := none) (fun i t => (i : ℤ) - t)
  (.batched fun i k => (i : ℤ) + k) (.shared fun k => (k : ℤ) + 2) (.batched fun i k => (i : ℤ) + k) (.shared fun k => (k : ℤ) + 2)
  (.full fun i m => (i : ℤ) * m + 1) (.full _) (by decide) (by decide) (by decide) (by simp) (by simp)

/-- **C76, uniqueness**: two different states of form tdf2 give different outputs for every signal at least as long as the state.  With
C76_convert, the converted state is the only one with the output of form df2. -/
theorem C76_unique {B N K P : Nat} {b a zi zi' : Tensor α} {bv av z z' : Nat → Nat → α} (x : Nat → Nat → α) {k k' : Option Int}
    (hb : Rows B K b bv) (ha : Rows B P a av) (hz : InitState B (max P (K - 1)) (some zi) z)
    (hz' : InitState B (max P (K - 1)) (some zi') z') (hK : 0 < K) (hM : 0 < max P (K - 1)) (hN : max P (K - 1) ≤ N)
    (hk : ∀ i, k = some i → 1 ≤ i) (hk' : ∀ i, k' = some i → 1 ≤ i)
    {i m : Nat} (hi : i < B) (hm : m < max P (K - 1)) (hne : z i m ≠ z' i m) :
    (Lti.lfilter b a (t2 B N x) (some zi) .tdf2 k).map Prod.fst ≠ (Lti.lfilter b a (t2 B N x) (some zi') .tdf2 k').map Prod.fst := by
  intro h
  apply hne
  rw [Lti.lfilter_tdf2 hb ha (.batched B x) hz hK hM (by omega) hk, Lti.lfilter_tdf2 hb ha (.batched B x) hz' hK hM (by omega) hk',
    packed_batch, packed_batch, packed_batch, packed_batch] at h
  have h := Except.ok.inj h
  refine tdf2_observable (N := N) (n := 0) (b := fun k => star (zext K (bv i) k)) (a := fun k => star (zext P (av i) k)) (x := x i) (fun n hn => ?_) m hm (by omega)
  have := congrArg (fun t : Tensor α => t.get [i, n]) h
  dsimp only at this
  rwa [get_t2 hi hn, get_t2 hi hn] at this

example := C76_unique (B := 2) (N := 7) (K := 3) (P := 2) (k := some 2) (k' := none) (fun i t => (i : ℤ) - t)
  (.batched fun i k => (i : ℤ) + k) (.shared fun k => (k : ℤ) + 2) (.full fun i m => (i : ℤ) * m + 1) (.full fun i m => (i : ℤ) * m + m)
  (by decide) (by decide) (by decide) (by simp) (by simp) (i := 1) (m := 0) (by decide) (by decide) (by decide)

/-- The converse fails: where numerator and denominator have a common factor, states of tdf2 exist that no state of df2 corresponds to.
With `b = (1, 1)` and `a = (1)` form df2 returns its input whatever the state; form tdf2 with state 1 does not. -/
theorem C76_not_conversely :
    at? ((Lti.lfilter (t1 2 fun _ => (1 : ℤ)) (t1 1 fun _ => 1) (t2 1 1 fun _ _ => 0) (some (t2 1 1 fun _ _ => 1)) .tdf2 none).map Prod.fst)
      [0, 0] = some 1 ∧
    ∀ z : ℤ, at? ((Lti.lfilter (t1 2 fun _ => (1 : ℤ)) (t1 1 fun _ => 1) (t2 1 1 fun _ _ => 0) (some (t2 1 1 fun _ _ => z)) .df2 none).map
      Prod.fst) [0, 0] = some 0 := by
  refine ⟨by decide +kernel, fun z => ?_⟩
  have e := Lti.lfilter_df2 (B := 1) (N := 1) (K := 2) (P := 1) (u := none) (.shared fun _ => (1 : ℤ)) (.shared fun _ => 1)
    (.batched 1 fun _ _ => 0) (.full fun _ _ => z) (by decide) (by decide) (by decide) (by simp)
  rw [packed_batch] at e
  refine (congrArg (fun r => at? (r.map Prod.fst) [0, 0]) e).trans ?_
  have w : dfSignal (max 1 (2 - 1)) (zext 1 fun _ => (1 : ℤ)) (fun _ => z) (fun _ => 0) (0 : Nat) = -z := by
    rw [df_signal (by decide)]
    have := dfSignal_past (M := 1) (zext 1 fun _ => (1 : ℤ)) (fun _ => z) (fun _ => 0) 0
    simpa [zext] using this
  have w' := dfSignal_past (M := 1) (zext 1 fun _ => (1 : ℤ)) (fun _ => z) (fun _ => 0) 0
  dsimp only [Except.map, at?]
  rw [get_t2 one_pos one_pos]
  refine congrArg some ?_
  rw [taps, Finset.sum_range_succ, Finset.sum_range_one, one_mul, one_mul]
  have e0 : ((0 : Nat) : Int) - ((0 : Nat) : Int) = ((0 : Nat) : Int) := by decide
  have e1 : ((0 : Nat) : Int) - ((1 : Nat) : Int) = -1 - ((0 : Nat) : Int) := by decide
  rw [e0, e1, w]
  exact (congrArg (-z + ·) w').trans (by ring)

end Props
