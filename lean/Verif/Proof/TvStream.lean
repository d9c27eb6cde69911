import Verif.Proof.FilterStream
import Verif.Proof.LpvUnroll
import Verif.Proof.LpvAllpole

/-! # Time-varying filters continue where they stopped -/

namespace Spec
open Finset Torch Torch.Tensor
variable {α : Type} [CommRing α]

theorem tvSignal_shift {M : Nat} (hM : 0 < M) (a : Nat → Nat → α) (z x : Nat → α) (s : Nat) (n : Int) :
    tvSignal M (fun t => a (s + t)) (fun m => tvSignal M a z x ((s : Int) - 1 - m)) (fun t => x (s + t)) n =
      tvSignal M a z x (s + n) := by
  have key : ∀ n : Int, withPast (fun m => tvSignal M a z x ((s : Int) - 1 - m))
      (fun t => tvSignal M a z x ((s + t : Nat) : Int)) n = tvSignal M a z x (s + n) := by
    intro n
    unfold withPast
    by_cases h : n < 0
    · rw [if_pos h]
      exact congrArg _ (by omega)
    · rw [if_neg h]
      exact congrArg _ (by push_cast; omega)
  by_cases h : n < 0
  · rw [tvSignal_eq, withPast, if_pos h]; congr 1; omega
  · lift n to ℕ using by omega
    rw [show (s : Int) + n = ((s + n : Nat) : Int) by push_cast; rfl]
    refine allPole_unique (T := n + 1) (tv_allPole hM _ _ _ _) (y' := fun t => tvSignal M a z x ((s + t : Nat) : Int))
      (fun t _ => ?_) (fun _ _ _ _ => rfl) (fun _ _ => rfl) (fun _ _ => rfl) (Nat.lt_succ_self n)
    beta_reduce
    rw [tv_signal hM]
    refine congrArg₂ (· - ·) rfl (sum_congr rfl fun k _ => ?_)
    rw [key]
    congr 2
    push_cast
    ring

theorem tvDelay_shift {M : Nat} (b : Nat → Nat → α) (z x : Nat → α) (s n : Nat) :
    tvDelay M (fun t => b (s + t)) (tvDelay M b z x s) (fun t => x (s + t)) n = tvDelay M b z x (s + n) := by
  induction n with
  | zero => rfl
  | succ n ih => funext m; rw [← Nat.add_assoc]; simp only [tvDelay]; rw [ih]

theorem tvTdf2State_shift {M : Nat} (b a : Nat → Nat → α) (z x : Nat → α) (s n : Nat) :
    tvTdf2State M (fun t => b (s + t)) (fun t => a (s + t)) (tvTdf2State M b a z x s) (fun t => x (s + t)) n =
      tvTdf2State M b a z x (s + n) :=
  (vecRec_add M (fun t i j => comp (a t) j i) z (fun t i => (b t (i + 1) - b t 0 * a t i) * x t) s n).symm

theorem tvTdf2Out_shift {M : Nat} (b a : Nat → Nat → α) (z x : Nat → α) (s n : Nat) :
    tvTdf2Out M (fun t => b (s + t)) (fun t => a (s + t)) (tvTdf2State M b a z x s) (fun t => x (s + t)) n =
      tvTdf2Out M b a z x (s + n) := by
  rw [tvTdf2Out, tvTdf2State_shift, tvTdf2Out]

/-- The taps of the identity. -/
def unitTaps : Nat → Nat → α := fun _ k => if k = 0 then 1 else 0

end Spec

namespace Phil.Lpv
open Torch Torch.Tensor Spec Finset
variable {α : Type} [CommRing α] [StarRing α]

/-- The transposed all-pole filter is the transposed direct form II filter without zeros. -/
theorem allpoleT_state {M N : Nat} (hM : 0 < M) {a : Nat → Nat → α} {x z y : Nat → α}
    (hy : ∀ n, n < N → y n = x n + tvDelay M (poleTaps a) z y n 0) :
    ∀ n, n ≤ N → (∀ m, m < M → tvDelay M (poleTaps a) z y n m =
      tvTdf2State M unitTaps (fun t k => star (a t k)) z x n m) := by
  intro n
  induction n with
  | zero => intro _ m _; rfl
  | succ n ih =>
    intro hn m hm
    rw [tvTdf2_step _ _ _ _ _ hm, tvDelay, hy n (by omega), ih (by omega) 0 hM, tvTdf2Out]
    refine congrArg₂ (· + ·) ?_ ?_
    · simp only [poleTaps, unitTaps, Nat.add_eq_zero_iff, one_ne_zero, and_false, if_false, if_true, Nat.add_sub_cancel]
      ring
    · by_cases h : m + 1 < M
      · rw [if_pos h, if_pos h, ih (by omega) _ h]
      · rw [if_neg h, if_neg h]

theorem allpoleT_out {M N : Nat} (hM : 0 < M) {a : Nat → Nat → α} {x z y : Nat → α}
    (hy : ∀ n, n < N → y n = x n + tvDelay M (poleTaps a) z y n 0) {n : Nat} (hn : n < N) :
    y n = tvTdf2Out M unitTaps (fun t k => star (a t k)) z x n := by
  rw [hy n hn, allpoleT_state hM hy n hn.le 0 hM, tvTdf2Out, unitTaps, if_pos rfl, one_mul, add_comm]

/-- `allpole(transpose=True)` in terms of an explicit state. -/
theorem allpole_transposed_state {B M N : Nat} {lpc : Lpc α} (hl : IsLpc lpc) (a : Nat → Nat → Nat → α)
    (x z : Nat → Nat → α) (hM : 0 < M) (hMN : M ≤ N) :
    allpole lpc (t3 B N M a) (t2 B N x) (some (t2 B M z)) true =
      .ok (t2 B N fun i n => tvTdf2Out M unitTaps (fun t k => star (a i t k)) (z i) (x i) n,
        some (t2 B M fun i m => tvTdf2State M unitTaps (fun t k => star (a i t k)) (z i) (x i) N m)) := by
  obtain ⟨y, hy, e⟩ := allpoleTransposed_eq (B := B) hl a x z true (by omega) hM hMN
  rw [allpole_some_eq, if_pos rfl, e]
  exact Lti.ok_pair (t2_congr rfl rfl fun i n _ hn => allpoleT_out hM (hy i) hn)
    (congrArg some (t2_congr rfl rfl fun i m _ hm => allpoleT_state hM (hy i) N le_rfl m hm))

/-- `allpole(transpose=False)` in terms of an explicit signal. -/
theorem allpole_direct_state {B M N : Nat} {lpc : Lpc α} (hl : IsLpc lpc) (a : Nat → Nat → Nat → α)
    (x z : Nat → Nat → α) (hM : 0 < M) (hMN : M ≤ N) :
    allpole lpc (t3 B N M a) (t2 B N x) (some (t2 B M z)) false =
      .ok (t2 B N fun i n => tvSignal M (a i) (z i) (x i) n,
        some (t2 B M fun i m => tvSignal M (a i) (z i) (x i) ((N : Int) - 1 - m))) := by
  obtain ⟨y, zf, e, hy, hf⟩ := hl B N M x a _ _ (by omega) hM (.given z)
  have h : ∀ i n, n < N → y i n = tvSignal M (a i) (z i) (x i) n := fun i n hn =>
    allPole_unique (hy i) (tv_allPole hM (a i) (z i) (x i) N) (fun _ _ _ _ => rfl) (fun _ _ => rfl) (fun _ _ => rfl) hn
  rw [allpole_some_eq, if_neg (by simp)]
  refine bind_step e (Lti.ok_pair (t2_congr rfl rfl fun i n _ hn => h i n hn) ?_)
  rw [hf hMN]
  refine congrArg some ?_
  show (t2 B M fun i m => withPast (z i) (y i) ((N : Int) - 1 - m)) = _
  refine t2_congr rfl rfl fun i m _ hm => ?_
  rw [withPast, if_neg (by omega), h i _ (by omega)]
  exact congrArg (tvSignal M (a i) (z i) (x i)) (by omega)

omit [StarRing α] in
/-- The final state comes back in a layout that keeps the outputs of later calls in the same layout. -/
theorem allFlatTv_next {X c b a b' a' zi : Tensor α} {B M : Nat} (hr : c.rank = X.rank) (hb : b'.rank = b.rank)
    (ha : a'.rank = a.rank) (z : Nat → Nat → α) :
    allFlatTv c b' a' (some (packed (allFlatTv X b a (some zi)) B M z)) = allFlatTv X b a (some zi) := by
  have h1 : (packed (allFlatTv X b a (some zi)) B M z).rank = if allFlatTv X b a (some zi) then 1 else 2 := by
    unfold packed; split <;> simp
  by_cases h : allFlatTv X b a (some zi) = true
  · rw [h] at h1 ⊢
    unfold allFlatTv at h ⊢
    simp only [decide_eq_true_eq] at h ⊢
    refine ⟨hr.trans h.1, hb.trans h.2.1, ha.trans h.2.2.1, fun z hz => ?_⟩
    cases hz; rw [h1]; rfl
  · rw [Bool.not_eq_true] at h
    rw [h] at h1 ⊢
    unfold allFlatTv
    simp only [decide_eq_false_iff_not]
    intro hh
    have := hh.2.2.2 _ rfl
    rw [h1] at this
    simp at this

omit [StarRing α] in
theorem flatTv_one {B N : Nat} {X b a zi : Tensor α} {x : Nat → Nat → α} (hx : Sig N B X x)
    (h : allFlatTv X b a (some zi) = true) : B = 1 := by
  cases hx with
  | flat x => rfl
  | batched B x => simp [allFlatTv] at h

end Phil.Lpv
