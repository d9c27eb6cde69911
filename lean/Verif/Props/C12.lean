import Verif.Proof.LtiFiltering
import Mathlib.NumberTheory.Zsqrtd.GaussianInt

/-!
# C12: `lti.lfilter` on complex coefficients

Full claim: for complex coefficients, too, every form computes the difference equation with the given `b` and `a`.  This
is false: `df1` and `tdf2` filter with the conjugate of `b`, `tdf1` and `tdf2` with the conjugate of `a`.  Only `df2` is
right.  `C12_lfilter_partial` says exactly what each form computes; the other theorems are counterexamples over the
Gaussian integers.
-/

namespace Props
open Torch Torch.Tensor Spec Phil Phil.Lti
variable {α : Type} [CommRing α] [StarRing α]

/-- **C12 (partial).** What each form computes for complex data: `df2` uses `b, a`; `df1` uses `conj b, a`; `tdf1` uses
`b, conj a`; `tdf2` uses `conj b, conj a`. -/
theorem C12_lfilter_partial {B N K P : Nat} {b a X : Tensor α} {bv av x : Nat → Nat → α} {form : Form}
    {u : Option Int} (hb : Rows B K b bv) (ha : Rows B P a av) (hx : Sig N B X x) (f g : α → α)
    (hf : form = .df2 ∧ f = id ∧ g = id ∨ form = .df1 ∧ f = star ∧ g = id ∨ form = .tdf1 ∧ f = id ∧ g = star ∨
      form = .tdf2 ∧ f = star ∧ g = star)
    (hB : 0 < B) (hK : 0 < K) (hM : 0 < max P (K - 1)) (hN : 0 < N) (hu : ∀ i, u = some i → 1 ≤ i) :
    ∃ y : Nat → Int → α, (∀ i n, n < 0 → y i n = 0) ∧
      (∀ i (n : Int), y i n = (∑ j ∈ Finset.range K, f (bv i j) * causal (x i) (n - j)) -
        ∑ k ∈ Finset.range P, g (av i k) * y i (n - (k + 1))) ∧
      lfilter b a X none form u = .ok (packed (allFlat X b a none) B N (fun i t => y i t), none) := by
  obtain ⟨y, h1, h2, h3⟩ := lfilter_diff (form := form) hb ha hx (by rintro rfl; simp at hf) (Or.inl rfl) hB hK hM hN hu
  refine ⟨y, h1, fun i n => ?_, h3⟩
  rw [h2 i n, taps, taps]
  refine congrArg₂ (· - ·) (Finset.sum_congr rfl fun j _ => ?_) (Finset.sum_congr rfl fun k _ => ?_)
  · rcases hf with ⟨rfl, rfl, rfl⟩ | ⟨rfl, rfl, rfl⟩ | ⟨rfl, rfl, rfl⟩ | ⟨rfl, rfl, rfl⟩ <;> simp [conjIf, conjB]
  · rw [show n - 1 - (k : Int) = n - (k + 1) by ring]
    rcases hf with ⟨rfl, rfl, rfl⟩ | ⟨rfl, rfl, rfl⟩ | ⟨rfl, rfl, rfl⟩ | ⟨rfl, rfl, rfl⟩ <;> simp [conjIf, conjA]

/-- The sample at time `t` of a result. -/
private def sample (r : Res (Tensor (ℤ√(-1)) × Option (Tensor (ℤ√(-1))))) (t : Nat) : Option (ℤ√(-1)) :=
  at? (r.map Prod.fst) [t]

/-- Started at rest, every form is `df2` with the numerator conjugated in `df1` and `tdf2`, and the denominator conjugated in
`tdf1` and `tdf2`. -/
theorem C12_reduces {B N K P : Nat} {b a : Tensor α} {bv av : Nat → Nat → α} (x : Nat → Nat → α) {form : Form}
    {u u' : Option Int} (hb : Rows B K b bv) (ha : Rows B P a av) (f g : α → α)
    (hf : form = .df2 ∧ f = id ∧ g = id ∨ form = .df1 ∧ f = star ∧ g = id ∨ form = .tdf1 ∧ f = id ∧ g = star ∨
      form = .tdf2 ∧ f = star ∧ g = star)
    (hB : 0 < B) (hK : 0 < K) (hM : 0 < max P (K - 1)) (hN : 0 < N) (hu : ∀ i, u = some i → 1 ≤ i)
    (hu' : ∀ i, u' = some i → 1 ≤ i) :
    lfilter b a (t2 B N x) none form u =
      lfilter (t2 B K fun i j => f (bv i j)) (t2 B P fun i k => g (av i k)) (t2 B N x) none .df2 u' := by
  obtain ⟨y, h1, h2, h3⟩ := C12_lfilter_partial hb ha (.batched B x) f g hf hB hK hM hN hu
  obtain ⟨y', h1', h2', h3'⟩ := C12_lfilter_partial (form := .df2) (.batched fun i j => f (bv i j))
    (.batched fun i k => g (av i k)) (.batched B x) id id (by simp) hB hK hM hN hu'
  have e : ∀ i (n : Int), y' i n = y i n := by
    intro i n
    by_cases hn : n < 0
    · rw [h1 i n hn, h1' i n hn]
    · lift n to ℕ using by omega
      induction n using Nat.strong_induction_on with
      | _ n ih =>
        rw [h2, h2']
        refine congrArg _ (Finset.sum_congr rfl fun k _ => congrArg _ ?_)
        by_cases hk : (n : Int) - (k + 1) < 0
        · rw [h1 _ _ hk, h1' _ _ hk]
        · obtain ⟨m, hm⟩ := Int.eq_ofNat_of_zero_le (not_lt.1 hk)
          rw [hm]
          exact ih m (by omega) (by omega)
  rw [h3, h3', show allFlat (t2 B N x) b a none = false by unfold allFlat; rw [rank_t2]; simp,
    show allFlat (t2 B N x) (t2 B K _) (t2 B P _) none = false by unfold allFlat; rw [rank_t2]; simp]
  exact ok_pair (t2_congr rfl rfl fun i t _ _ => (e i t).symm) rfl

example := C12_reduces (B := 2) (N := 5) (K := 3) (P := 2) (form := .df1) (u := some 2) (u' := none) (fun i t => (⟨i, t⟩ : ℤ√(-1)))
  (.batched fun i j => (⟨i, j⟩ : ℤ√(-1))) (.shared fun k => (⟨1, k⟩ : ℤ√(-1))) star id (by simp) (by decide) (by decide) (by decide) (by decide)
  (by simp) (by simp)

/-- Counterexample: with `b = (i, 0)`, `a = (0)` and `x = (1)` the output should be `i`; `df1` and `tdf2` return `-i`. -/
theorem C12_conjugated_numerator (form : Form) (hf : form = .df1 ∨ form = .tdf2) :
    sample (lfilter (t1 2 fun j => if j = 0 then ⟨0, 1⟩ else 0) (t1 1 fun _ => 0) (t1 1 fun _ => 1) none form none) 0 =
      some ⟨0, -1⟩ := by
  rcases hf with rfl | rfl <;> decide +kernel

example := C12_conjugated_numerator .tdf2 (by simp)

/-- Counterexample: with `b = (1, 0)`, `a = (i)` and `x = (1, 0)` the second output should be `-i`; `tdf1` and `tdf2`
return `i`. -/
theorem C12_conjugated_denominator (form : Form) (hf : form = .tdf1 ∨ form = .tdf2) :
    sample (lfilter (t1 2 fun j => if j = 0 then 1 else 0) (t1 1 fun _ => ⟨0, 1⟩) (t1 2 fun t => if t = 0 then 1 else 0)
      none form none) 1 = some ⟨0, 1⟩ := by
  rcases hf with rfl | rfl <;> decide +kernel

example := C12_conjugated_denominator .tdf1 (by simp)

/-- Hence the forms do not agree on complex data. -/
theorem C12_forms_disagree (form : Form) (hf : form = .df1 ∨ form = .tdf1 ∨ form = .tdf2) :
    ∃ b a x : Tensor (ℤ√(-1)), lfilter b a x none form none ≠ lfilter b a x none .df2 none := by
  rcases hf with rfl | rfl | rfl
  · refine ⟨t1 2 fun j => if j = 0 then ⟨0, 1⟩ else 0, t1 1 fun _ => 0, t1 1 fun _ => 1, fun h => ?_⟩
    have h2 := congrArg (fun r => sample r 0) h
    revert h2; decide +kernel
  · refine ⟨t1 2 fun j => if j = 0 then 1 else 0, t1 1 fun _ => ⟨0, 1⟩, t1 2 fun t => if t = 0 then 1 else 0, fun h => ?_⟩
    have h2 := congrArg (fun r => sample r 1) h
    revert h2; decide +kernel
  · refine ⟨t1 2 fun j => if j = 0 then ⟨0, 1⟩ else 0, t1 1 fun _ => 0, t1 1 fun _ => 1, fun h => ?_⟩
    have h2 := congrArg (fun r => sample r 0) h
    revert h2; decide +kernel

example := C12_forms_disagree .df1 (by simp)

/-- Non-vacuity: genuinely complex data. -/
example : ∃ y : Nat → Int → ℤ√(-1), (∀ i n, n < 0 → y i n = 0) ∧
    (∀ i (n : Int), y i n = (∑ j ∈ Finset.range 3, id (⟨j, 1⟩ : ℤ√(-1)) * causal (fun t => ⟨1, t⟩) (n - j)) -
      ∑ k ∈ Finset.range 2, star (⟨k, k⟩ : ℤ√(-1)) * y i (n - (k + 1))) ∧
    lfilter (t1 3 fun j => ⟨j, 1⟩) (t1 2 fun k => ⟨k, k⟩) (t1 5 fun t => ⟨1, t⟩) none .tdf1 (some 2) =
      .ok (t1 5 fun t => y 0 t, none) :=
  C12_lfilter_partial (.shared _) (.shared _) (.flat _) id star (by simp) (by decide) (by decide) (by decide) (by decide)
    (by simp)

end Props
