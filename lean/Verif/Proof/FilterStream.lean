import Verif.Proof.Stream
import Verif.Proof.LtiFiltering

/-! # Filters continue where they stopped -/

namespace Spec
open Finset Torch Torch.Tensor
variable {α : Type} [CommRing α]

theorem df_out_shift {M K : Nat} (hM : 0 < M) (hK : K ≤ M + 1) (b a z x : Nat → α) (s t : Nat) :
    taps K b (dfSignal M a (fun m => dfSignal M a z x ((s : Int) - 1 - m)) fun t => x (s + t)) t =
      taps K b (dfSignal M a z x) ((s + t : Nat) : Int) := by
  have hz : ∀ t m, m < M → vecRec M (fun _ => comp a) (fun m => dfSignal M a z x ((s : Int) - 1 - m)) (first fun t => x (s + t)) t m
      = vecRec M (fun _ => comp a) (vecRec M (fun _ => comp a) z (first x) s) (first fun t => x (s + t)) t m := by
    intro t
    induction t with
    | zero => intro m hm; exact (df_state a z x s hm).symm
    | succ t ih =>
      intro m hm
      simp only [vecRec]
      congr 1
      exact sum_congr rfl fun j hj => by rw [ih j (mem_range.1 hj)]
  by_cases h0 : 0 < K
  swap
  · have : K = 0 := by omega
    subst this; simp [taps]
  rw [← taps_zext hK, ← taps_zext (M := M + 1) hK, ← df_output hM, ← df_output hM]
  have e := vecRec_add M (fun _ => comp a) z (first x) s t
  rw [e]
  exact congrArg₂ (· + ·) (sum_congr rfl fun m hm => by rw [hz t m (mem_range.1 hm)]; rfl) rfl

theorem df_state_shift {M : Nat} (a z x : Nat → α) (s n : Nat) {m : Nat} (hm : m < M) :
    dfSignal M a (fun m => dfSignal M a z x ((s : Int) - 1 - m)) (fun t => x (s + t)) ((n : Int) - 1 - m) =
      dfSignal M a z x (((s + n : Nat) : Int) - 1 - m) := by
  rw [← df_state _ _ _ _ hm, ← df_state _ _ _ _ hm, vecRec_add]
  have hz : ∀ t m, m < M → vecRec M (fun _ => comp a) (fun m => dfSignal M a z x ((s : Int) - 1 - m)) (first fun t => x (s + t)) t m
      = vecRec M (fun _ => comp a) (vecRec M (fun _ => comp a) z (first x) s) (first fun t => x (s + t)) t m := by
    intro t
    induction t with
    | zero => intro m hm; exact (df_state a z x s hm).symm
    | succ t ih =>
      intro m hm
      simp only [vecRec]
      congr 1
      exact sum_congr rfl fun j hj => by rw [ih j (mem_range.1 hj)]
  rw [hz n m hm]
  rfl

theorem tdf2State_shift {M : Nat} (b a z x : Nat → α) (s n : Nat) :
    tdf2State M b a (tdf2State M b a z x s) (fun t => x (s + t)) n = tdf2State M b a z x (s + n) :=
  (vecRec_add M (fun _ i j => comp a j i) z (fun t i => (b (i + 1) - b 0 * a i) * x t) s n).symm

theorem tdf2Out_shift {M : Nat} (b a z x : Nat → α) (s n : Nat) :
    tdf2Out M b a (tdf2State M b a z x s) (fun t => x (s + t)) n = tdf2Out M b a z x (s + n) := by
  rw [tdf2Out, tdf2State_shift, tdf2Out]

theorem delayLine_shift {M : Nat} (b z x : Nat → α) (s n : Nat) :
    delayLine M b (delayLine M b z x s) (fun t => x (s + t)) n = delayLine M b z x (s + n) := by
  induction n with
  | zero => rfl
  | succ n ih => funext m; rw [← Nat.add_assoc]; simp only [delayLine]; rw [ih]

omit [CommRing α] in
/-- Past values of a continued signal. -/
theorem withPast_shift (z x : Nat → α) (s : Nat) (n : Int) :
    withPast (fun m => withPast z x ((s : Int) - 1 - m)) (fun t => x (s + t)) n = withPast z x (s + n) := by
  unfold withPast
  by_cases h : n < 0
  · rw [if_pos h]
    beta_reduce
    rw [show (s : Int) - 1 - ((-1 - n).toNat : Nat) = s + n by omega]
  · rw [if_neg h, if_neg (by omega)]
    beta_reduce
    congr 1; omega

theorem packed_parts (f : Bool) (B : Nat) (Y : Nat → Nat → α) (s n n' : Nat) :
    cat2 (packed f B n fun b t => Y b (s + t)) (packed f B n' fun b t => Y b (s + n + t)) (-1) =
      .ok (packed f B (n + n') fun b t => Y b (s + t)) := by
  have e : ∀ b t, (if t < n then Y b (s + t) else Y b (s + n + (t - n))) = Y b (s + t) := by
    intro b t
    by_cases ht : t < n
    · simp [ht]
    · rw [if_neg ht]; congr 1; omega
  cases f with
  | true => simp only [packed, if_true]; rw [cat2_t1_n1]; simp only [e]
  | false => simp only [packed]; rw [if_neg (by simp), if_neg (by simp), cat2_t2_n1]; simp only [e]; rfl

theorem packed_false (B n : Nat) (y : Nat → Nat → α) : packed false B n y = t2 B n y := rfl

theorem packed_congr {f : Bool} {B n : Nat} {y y' : Nat → Nat → α} (hf : f = true → B = 1)
    (h : ∀ b t, b < B → t < n → y b t = y' b t) : packed f B n y = packed f B n y' := by
  cases f with
  | true => exact t1_congr rfl fun t ht => h 0 t (by rw [hf rfl]; decide) ht
  | false => exact t2_congr rfl rfl fun b t hb ht => h b t hb ht

end Spec

namespace Phil.Lti
open Torch Torch.Tensor Spec Finset
variable {α : Type} [CommRing α] [StarRing α]

omit [StarRing α] in
/-- The final state comes back in a layout that keeps the outputs of later calls in the same layout. -/
theorem allFlat_next {X c b a zi : Tensor α} {B M : Nat} (hr : c.rank = X.rank) (z : Nat → Nat → α) :
    allFlat c b a (some (packed (allFlat X b a (some zi)) B M z)) = allFlat X b a (some zi) := by
  have h1 : (packed (allFlat X b a (some zi)) B M z).rank = if allFlat X b a (some zi) then 1 else 2 := by
    unfold packed; split <;> simp
  by_cases h : allFlat X b a (some zi) = true
  · rw [h] at h1 ⊢
    unfold allFlat at h ⊢
    simp only [decide_eq_true_eq] at h ⊢
    refine ⟨hr.trans h.1, h.2.1, h.2.2.1, fun z hz => ?_⟩
    cases hz; rw [h1]; rfl
  · rw [Bool.not_eq_true] at h
    rw [h] at h1 ⊢
    unfold allFlat
    simp only [decide_eq_false_iff_not]
    intro hh
    have := hh.2.2.2 _ rfl
    rw [h1] at this
    simp at this

omit [StarRing α] in
theorem packed_init {f : Bool} {B M : Nat} (hf : f = true → B = 1) (z : Nat → Nat → α) :
    ∃ z', InitState B M (some (packed f B M z)) z' ∧ ∀ i, i < B → z' i = z i := by
  cases f with
  | true =>
    have := hf rfl
    subst this
    refine ⟨_, InitState.shared _, fun i hi => ?_⟩
    rw [show i = 0 by omega]
  | false => exact ⟨_, InitState.full _, fun i _ => rfl⟩

omit [StarRing α] in
theorem flat_one {B N : Nat} {X b a zi : Tensor α} {x : Nat → Nat → α} (hx : Sig N B X x)
    (h : allFlat X b a (some zi) = true) : B = 1 := by
  cases hx with
  | flat x => rfl
  | batched B x => simp [allFlat] at h

end Phil.Lti
