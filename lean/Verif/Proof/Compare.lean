import Verif.Spec.Compare
import Verif.Spec.Recur
import Verif.Proof.Stretch
import Verif.Proof.TvStream

/-! # Recursions preserve comparisons -/

namespace Spec
open Finset Torch Torch.Tensor
variable {α β : Type} [CommRing α] [CommRing β] {Q R : α → β → Prop}

namespace Comparison

theorem sum (h : Comparison Q R) {s : Finset Nat} {f : Nat → α} {g : Nat → β} (hf : ∀ k ∈ s, R (f k) (g k)) :
    R (∑ k ∈ s, f k) (∑ k ∈ s, g k) := by
  induction s using Finset.induction_on with
  | empty => exact h.zero
  | insert k s hk ih =>
    rw [sum_insert hk, sum_insert hk]
    exact h.add (hf k (mem_insert_self k s)) (ih fun j hj => hf j (mem_insert_of_mem hj))

theorem sub (h : Comparison Q R) {x u a : α} {y v b : β} (hx : R x y) (hq : Q (-a) (-b)) (hu : R u v) : R (x - a * u) (y - b * v) := by
  rw [sub_eq_add_neg, sub_eq_add_neg, ← neg_mul, ← neg_mul]
  exact h.add hx (h.mul hq hu)

theorem sub_sum (h : Comparison Q R) {s : Finset Nat} {x : α} {y : β} {a u : Nat → α} {b v : Nat → β} (hx : R x y)
    (hq : ∀ k ∈ s, Q (-a k) (-b k)) (hu : ∀ k ∈ s, R (u k) (v k)) : R (x - ∑ k ∈ s, a k * u k) (y - ∑ k ∈ s, b k * v k) := by
  rw [sub_eq_add_neg, sub_eq_add_neg, ← sum_neg_distrib, ← sum_neg_distrib]
  refine h.add hx (h.sum fun k hk => ?_)
  rw [← neg_mul, ← neg_mul]
  exact h.mul (hq k hk) (hu k hk)

theorem scalarRec (h : Comparison Q R) {N : Nat} {a : Nat → α} {b : Nat → β} {i : α} {j : β} {x : Nat → α} {y : Nat → β}
    (ha : ∀ t, t < N → Q (a t) (b t)) (hi : R i j) (hx : ∀ t, t < N → R (x t) (y t)) :
    ∀ t, t ≤ N → R (Spec.scalarRec a i x t) (Spec.scalarRec b j y t)
  | 0, _ => hi
  | t + 1, ht => h.add (h.mul (ha t (by omega)) (scalarRec h ha hi hx t (by omega))) (hx t (by omega))

theorem vecRec (h : Comparison Q R) {M N : Nat} {A : Nat → Nat → Nat → α} {A' : Nat → Nat → Nat → β} {i : Nat → α} {j : Nat → β}
    {x : Nat → Nat → α} {y : Nat → Nat → β} (ha : ∀ t, t < N → ∀ m, m < M → ∀ k, k < M → Q (A t m k) (A' t m k))
    (hi : ∀ m, m < M → R (i m) (j m)) (hx : ∀ t, t < N → ∀ m, m < M → R (x t m) (y t m)) :
    ∀ t, t ≤ N → ∀ m, m < M → R (Spec.vecRec M A i x t m) (Spec.vecRec M A' j y t m)
  | 0, _, m, hm => hi m hm
  | t + 1, ht, m, hm => h.add (h.sum fun k hk => h.mul (ha t (by omega) m hm k (mem_range.1 hk))
      (vecRec h ha hi hx t (by omega) k (mem_range.1 hk))) (hx t (by omega) m hm)

theorem taps (h : Comparison Q R) {K : Nat} {b : Nat → α} {b' : Nat → β} {x : Int → α} {y : Int → β} {n : Int}
    (hb : ∀ k, k < K → Q (b k) (b' k)) (hx : ∀ m, m ≤ n → R (x m) (y m)) : R (Spec.taps K b x n) (Spec.taps K b' y n) :=
  h.sum fun k hk => h.mul (hb k (mem_range.1 hk)) (hx _ (by omega))

theorem causal (h : Comparison Q R) {N : Nat} {x : Nat → α} {y : Nat → β} (hx : ∀ t, t < N → R (x t) (y t)) {n : Int} (hn : n < N) :
    R (Spec.causal x n) (Spec.causal y n) := by
  unfold Spec.causal
  split_ifs
  · exact h.zero
  · exact hx _ (by omega)

/-- A difference equation with related coefficients, past and input. -/
theorem feedback (h : Comparison Q R) {N P : Nat} {a : Nat → Nat → α} {a' : Nat → Nat → β} {x : Nat → α} {x' : Nat → β} {y : Int → α}
    {y' : Int → β} (ha : ∀ t, t < N → ∀ k, k < P → Q (-a t k) (-a' t k)) (hp : ∀ n : Int, n < 0 → -P ≤ n → R (y n) (y' n))
    (hx : ∀ t, t < N → R (x t) (x' t)) (hy : ∀ n : Nat, n < N → y n = x n - ∑ k ∈ range P, a n k * y ((n : Int) - 1 - k))
    (hy' : ∀ n : Nat, n < N → y' n = x' n - ∑ k ∈ range P, a' n k * y' ((n : Int) - 1 - k)) :
    ∀ n : Nat, n < N → R (y n) (y' n) := by
  intro n
  induction n using Nat.strong_induction_on with
  | _ n ih =>
    intro hn
    rw [hy n hn, hy' n hn]
    refine h.sub_sum (hx n hn) (fun k hk => ha n hn k (mem_range.1 hk)) fun k hk => ?_
    have := mem_range.1 hk
    by_cases hc : (n : Int) - 1 - k < 0
    · exact hp _ hc (by omega)
    · have e := ih (n - 1 - k) (by omega) (by omega)
      rwa [show ((n - 1 - k : Nat) : Int) = (n : Int) - 1 - k by omega] at e

/-- A delay line in transposed direct form II. -/
theorem transposed (h : Comparison Q R) {N K P M : Nat} (hM : 0 < M) (hK : 0 < K) {b a : Nat → Nat → α} {b' a' : Nat → Nat → β} {z : Nat → α}
    {z' : Nat → β} {x : Nat → α} {x' : Nat → β} (hb : ∀ t, t < N → ∀ k, k < K → Q (b t k) (b' t k))
    (hb0 : ∀ t k, K ≤ k → b t k = 0 ∧ b' t k = 0) (ha : ∀ t, t < N → ∀ k, k < P → Q (-a t k) (-a' t k))
    (ha0 : ∀ t k, P ≤ k → a t k = 0 ∧ a' t k = 0) (hz : ∀ m, m < M → R (z m) (z' m)) (hx : ∀ t, t < N → R (x t) (x' t)) :
    (∀ t, t ≤ N → ∀ m, m < M → R (tvTdf2State M b a z x t m) (tvTdf2State M b' a' z' x' t m)) ∧
      ∀ t, t < N → R (tvTdf2Out M b a z x t) (tvTdf2Out M b' a' z' x' t) := by
  have out : ∀ t, t < N → (∀ m, m < M → R (tvTdf2State M b a z x t m) (tvTdf2State M b' a' z' x' t m)) →
      R (tvTdf2Out M b a z x t) (tvTdf2Out M b' a' z' x' t) := fun t ht hs => h.add (hs 0 hM) (h.mul (hb t ht 0 hK) (hx t ht))
  have st : ∀ t, t ≤ N → ∀ m, m < M → R (tvTdf2State M b a z x t m) (tvTdf2State M b' a' z' x' t m) := by
    intro t
    induction t with
    | zero => exact fun _ => hz
    | succ t ih =>
      intro ht m hm
      rw [tvTdf2_step _ _ _ _ _ hm, tvTdf2_step _ _ _ _ _ hm]
      have i := ih (by omega)
      refine h.add ?_ ?_
      · have hx1 : R (b t (m + 1) * x t) (b' t (m + 1) * x' t) := by
          by_cases hk : m + 1 < K
          · exact h.mul (hb t (by omega) _ hk) (hx t (by omega))
          · rw [(hb0 t (m + 1) (by omega)).1, (hb0 t (m + 1) (by omega)).2, zero_mul, zero_mul]; exact h.zero
        by_cases hk : m < P
        · exact h.sub hx1 (ha t (by omega) m hk) (out t (by omega) i)
        · rw [(ha0 t m (by omega)).1, (ha0 t m (by omega)).2, zero_mul, zero_mul, sub_zero, sub_zero]; exact hx1
      · split_ifs with hc
        · exact i _ hc
        · exact h.zero
  exact ⟨st, fun t ht => out t ht (st t (by omega))⟩

/-- The signal of a recursion with related coefficients. -/
theorem tvSignal (h : Comparison Q R) {N P M : Nat} (hM : 0 < M) (hP : P ≤ M) {a : Nat → Nat → α} {a' : Nat → Nat → β} {z : Nat → α}
    {z' : Nat → β} {x : Nat → α} {x' : Nat → β} (ha : ∀ t, t < N → ∀ k, k < P → Q (-a t k) (-a' t k))
    (hz : ∀ m, m < M → R (z m) (z' m)) (hx : ∀ t, t < N → R (x t) (x' t)) (n : Int) (h1 : -M ≤ n) (h2 : n < N) :
    R (Spec.tvSignal M (fun t => zext P (a t)) z x n) (Spec.tvSignal M (fun t => zext P (a' t)) z' x' n) := by
  have past : ∀ n : Int, n < 0 → -(M : Int) ≤ n →
      R (Spec.tvSignal M (fun t => zext P (a t)) z x n) (Spec.tvSignal M (fun t => zext P (a' t)) z' x' n) := fun n hn hm => by
    rw [Spec.tvSignal, Spec.tvSignal, withPast, withPast, if_pos hn, if_pos hn]
    exact hz _ (by omega)
  by_cases hn : n < 0
  · exact past n hn h1
  · have e := h.feedback (N := N) (P := P) ha (fun n hn hm => past n hn (by omega)) hx
      (fun n _ => by rw [tv_signal hM, sum_zext hP]) (fun n _ => by rw [tv_signal hM, sum_zext hP]) n.toNat (by omega)
    rwa [Int.toNat_of_nonneg (by omega)] at e

end Comparison
end Spec
