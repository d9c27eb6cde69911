import Verif.Proof.LtiFiltering

/-!
# C11: `lti.lfilter` computes the difference equation in every form

`b` has `K ≥ 1` coefficients `b_0 … b_{K-1}`, `a` has `P` coefficients `a_1 … a_P` (so `av i k` is `a_{k+1}`), each given
once or per batch item (`Rows`), the signal with or without a batch axis (`Sig`).  `TrivialStar` says that conjugation is
the identity, i.e. the numbers are real.
-/

namespace Props
open Torch Torch.Tensor Spec Phil Phil.Lti
variable {α : Type} [CommRing α] [StarRing α]

/-- **C11.** For real data every form returns `y_n = Σ_{j<K} b_j x_{n-j} - Σ_{k=1}^{P} a_k y_{n-k}` with `y_n = 0` for
`n < 0`, for any orders with `max P (K-1) ≥ 1`, any batch size, any length `N ≥ 1` and any unroll factor `≥ 1`. -/
theorem C11_lfilter [TrivialStar α] {B N K P : Nat} {b a X : Tensor α} {bv av x : Nat → Nat → α} {form : Form}
    {u : Option Int} (hb : Rows B K b bv) (ha : Rows B P a av) (hx : Sig N B X x)
    (hf : form = .df1 ∨ form = .df2 ∨ form = .tdf1 ∨ form = .tdf2)
    (hB : 0 < B) (hK : 0 < K) (hM : 0 < max P (K - 1)) (hN : 0 < N) (hu : ∀ i, u = some i → 1 ≤ i) :
    ∃ y : Nat → Int → α, (∀ i n, n < 0 → y i n = 0) ∧
      (∀ i (n : Int), y i n = (∑ j ∈ Finset.range K, bv i j * causal (x i) (n - j)) -
        ∑ k ∈ Finset.range P, av i k * y i (n - (k + 1))) ∧
      lfilter b a X none form u = .ok (packed (allFlat X b a none) B N (fun i t => y i t), none) := by
  obtain ⟨y, h1, h2, h3⟩ := lfilter_diff (form := form) hb ha hx (by rintro rfl; simp at hf) (Or.inl rfl) hB hK hM hN hu
  have e : ∀ (c : Bool) (f : Nat → α), conjIf c f = f := fun c f => by cases c <;> simp [conjIf]
  refine ⟨y, h1, fun i n => ?_, h3⟩
  rw [h2 i n, e, e]
  refine congrArg₂ (· - ·) rfl (Finset.sum_congr rfl fun k _ => ?_)
  congr 2; ring

omit [StarRing α] in
/-- There is only one such `y`. -/
theorem C11_unique {K P : Nat} {b a x : Nat → α} {y y' : Int → α} (h0 : ∀ n, n < 0 → y n = 0) (h0' : ∀ n, n < 0 → y' n = 0)
    (h : ∀ n : Int, 0 ≤ n → y n = (∑ j ∈ Finset.range K, b j * causal x (n - j)) -
      ∑ k ∈ Finset.range P, a k * y (n - (k + 1)))
    (h' : ∀ n : Int, 0 ≤ n → y' n = (∑ j ∈ Finset.range K, b j * causal x (n - j)) -
      ∑ k ∈ Finset.range P, a k * y' (n - (k + 1))) : y = y' := by
  have e : ∀ (w : Int → α) (n : Int), ∑ k ∈ Finset.range P, a k * w (n - (k + 1)) = taps P a w (n - 1) := by
    intro w n
    refine Finset.sum_congr rfl fun k _ => ?_
    congr 2; ring
  refine diffEq_unique (P := P) (a := a) (v := fun n => ∑ j ∈ Finset.range K, b j * causal x (n - j))
    (fun n hn => by rw [h0 n hn, h0' n hn]) (fun n hn => ?_) fun n hn => ?_
  · rw [h n hn, e]
  · rw [h' n hn, e]

/-- `y_n = x_n - y_{n-1}` for the impulse has the only solution `(-1)^n`. -/
example (y : Int → ℤ) (h0 : ∀ n, n < 0 → y n = 0) (h : ∀ n : Int, 0 ≤ n → y n = (∑ j ∈ Finset.range 1, (1 : ℤ) *
    causal (fun t => if t = 0 then 1 else 0) (n - j)) - ∑ k ∈ Finset.range 1, (1 : ℤ) * y (n - (k + 1))) :
    y = fun n => if n < 0 then 0 else (-1) ^ n.toNat :=
  C11_unique (K := 1) (P := 1) (b := fun _ => 1) (a := fun _ => 1) h0 (fun n hn => if_pos hn) h fun n hn => by
    obtain ⟨m, rfl⟩ := Int.eq_ofNat_of_zero_le hn
    cases m with
    | zero => simp [causal]
    | succ m =>
      have h1 : ¬ ((m : ℤ) + 1 < 0) := by omega
      have h2 : ((m : ℤ) + 1).toNat = m + 1 := by omega
      simp [causal, pow_succ, h1, h2]

/-- All forms agree on real data. -/
theorem C11_forms_agree [TrivialStar α] {B N K P : Nat} {b a X : Tensor α} {bv av x : Nat → Nat → α} {form form' : Form}
    {u u' : Option Int} (hb : Rows B K b bv) (ha : Rows B P a av) (hx : Sig N B X x)
    (hf : form = .df1 ∨ form = .df2 ∨ form = .tdf1 ∨ form = .tdf2)
    (hf' : form' = .df1 ∨ form' = .df2 ∨ form' = .tdf1 ∨ form' = .tdf2)
    (hB : 0 < B) (hK : 0 < K) (hM : 0 < max P (K - 1)) (hN : 0 < N) (hu : ∀ i, u = some i → 1 ≤ i)
    (hu' : ∀ i, u' = some i → 1 ≤ i) :
    lfilter b a X none form u = lfilter b a X none form' u' := by
  obtain ⟨y, h1, h2, h3⟩ := C11_lfilter hb ha hx hf hB hK hM hN hu
  obtain ⟨y', h1', h2', h3'⟩ := C11_lfilter hb ha hx hf' hB hK hM hN hu'
  rw [h3, h3']
  have : y = y' := funext fun i => C11_unique (h1 i) (h1' i) (fun n _ => h2 i n) fun n _ => h2' i n
  rw [this]

example := C11_forms_agree (B := 2) (N := 5) (K := 3) (P := 2) (form := .df1) (form' := .tdf2) (u := some 2) (u' := none)
  (.batched fun i j => (i : ℤ) + j) (.shared fun k => (k : ℤ) - 3) (.batched 2 fun i t => (i : ℤ) * t) (by simp) (by simp) (by decide) (by decide)
  (by decide) (by decide) (by simp) (by simp)

/-- An unknown form is rejected. -/
theorem C11_rejects_form (b a x : Tensor α) (zi : Option (Tensor α)) (u : Option Int) :
    Fails (lfilter b a x zi .other u) := by
  unfold lfilter lfilterWith
  refine fails_bind fun _ _ => fails_check fun _ => fails_check fun _ => fails_left ?_
  unfold ssmLfilter
  exact fails_bind fun _ _ => fails_bind fun _ _ => ⟨_, rfl⟩

/-- Non-vacuity: third-order denominator, two taps, two batch items sharing the denominator. -/
example : ∃ y : Nat → Int → ℤ, (∀ i n, n < 0 → y i n = 0) ∧
    (∀ i (n : Int), y i n = (∑ j ∈ Finset.range 2, ((i : ℤ) + j) * causal (fun t => (t : ℤ) * t - i) (n - j)) -
      ∑ k ∈ Finset.range 3, ((k : ℤ) - 5) * y i (n - (k + 1))) ∧
    lfilter (t2 2 2 fun i j => (i : ℤ) + j) (t1 3 fun k => (k : ℤ) - 5) (t2 2 9 fun i t => (t : ℤ) * t - i) none .tdf1 none =
      .ok (t2 2 9 fun i t => y i t, none) :=
  C11_lfilter (.batched _) (.shared _) (.batched 2 _) (by simp) (by decide) (by decide) (by decide) (by decide) (by simp)

end Props
