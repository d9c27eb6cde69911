import Verif.Props.C13
import Verif.Props.C14
import Verif.Props.C57
import Verif.Props.C74
import Verif.Props.C82Space
import Mathlib.LinearAlgebra.Matrix.Charpoly.Coeff

/-!
# C83: which states a filter shows and reaches

With `M` the length of the state: `M` outputs of the form tdf2 determine its initial state (`C83_tdf2_observe`) and `M` inputs of the form
df2 lead to any state (`C83_df2_reach`); not the other way round (`C83_df2_blind`, `C83_tdf2_stuck`).  For `lti.state_space`, `M` samples
show whatever can be seen of a state (`C83_state_space_observe`) and lead wherever any number of samples leads (`C83_state_space_reach`).
-/

namespace Props
open Torch Torch.Tensor Spec Phil Matrix
open Phil.Lti (Form ok_pair lfilter)
variable {α : Type} [CommRing α]

/-- The delay line `s_m' = β_m x + s_{m+1} - γ_m y` as long as the zeros at its end are not seen. -/
theorem delay_unroll {M : Nat} {β γ z x y : Nat → α} {s : Nat → Nat → α} (h0 : ∀ m, s 0 m = z m)
    (hs : ∀ t m, m < M → s (t + 1) m = β m * x t + (if m + 1 < M then s t (m + 1) else 0) - γ m * y t) (t : Nat) :
    ∀ m, t + m < M → s t m = z (t + m) + ∑ k ∈ Finset.range t, (β (m + k) * x (t - 1 - k) - γ (m + k) * y (t - 1 - k)) := by
  induction t with
  | zero => intro m _; simp [h0]
  | succ t ih =>
    intro m hm
    rw [hs t m (by omega), if_pos (by omega), ih (m + 1) (by omega), Finset.sum_range_succ', show t + (m + 1) = t + 1 + m by omega]
    have e : ∀ k ∈ Finset.range t, β (m + 1 + k) * x (t - 1 - k) - γ (m + 1 + k) * y (t - 1 - k) =
        β (m + (k + 1)) * x (t + 1 - 1 - (k + 1)) - γ (m + (k + 1)) * y (t + 1 - 1 - (k + 1)) := fun k _ => by
      rw [show m + 1 + k = m + (k + 1) by omega, show t - 1 - k = t + 1 - 1 - (k + 1) by omega]
    rw [Finset.sum_congr rfl e]
    simp only [Nat.add_zero, Nat.sub_zero, Nat.add_sub_cancel]
    ring

section filters
variable [StarRing α]

/-- **C83, tdf2**: for any signal of `M` samples and any wanted output exactly one initial state gives it:
`z_m = y_m - Σ_{k≤m} b_k x_{m-k} + Σ_{k<m} a_{k+1} y_{m-1-k}` (`av i k` is `a_{k+1}`; complex coefficients are conjugated, see C12). -/
theorem C83_tdf2_observe {B K P : Nat} {b a : Tensor α} {bv av : Nat → Nat → α} {u : Option Int} (hb : Rows B K b bv)
    (ha : Rows B P a av) (hK : 0 < K) (hM : 0 < max P (K - 1)) (hu : ∀ i, u = some i → 1 ≤ i) (x y z : Nat → Nat → α) :
    (∃ zf, lfilter b a (t2 B (max P (K - 1)) x) (some (t2 B (max P (K - 1)) z)) .tdf2 u = .ok (t2 B (max P (K - 1)) y, some zf)) ↔
      ∀ i m, i < B → m < max P (K - 1) → z i m = y i m - ∑ k ∈ Finset.range (m + 1), star (zext K (bv i) k) * x i (m - k) +
        ∑ k ∈ Finset.range m, star (zext P (av i) k) * y i (m - 1 - k) := by
  obtain ⟨w, s, h0, hy, hs, e⟩ := C13_tdf2_complex hb ha (.batched B x) (.full z) hK hM hM hu
  rw [packed_batch, packed_batch] at e
  -- the output of the delay line
  have out : ∀ i m, m < max P (K - 1) → w i m = z i m + ∑ k ∈ Finset.range (m + 1), star (zext K (bv i) k) * x i (m - k) -
      ∑ k ∈ Finset.range m, star (zext P (av i) k) * w i (m - 1 - k) := fun i m hm => by
    rw [hy, delay_unroll (h0 i) (hs i) m 0 (by omega), Finset.sum_sub_distrib, Finset.sum_range_succ', zext_lt _ hK]
    simp only [Nat.zero_add, Nat.add_zero, Nat.sub_zero]
    have e : ∀ k ∈ Finset.range m, star (zext K (bv i) (k + 1)) * x i (m - 1 - k) = star (zext K (bv i) (k + 1)) * x i (m - (k + 1)) :=
      fun k _ => by rw [show m - 1 - k = m - (k + 1) by omega]
    rw [Finset.sum_congr rfl e]
    ring
  rw [e]
  have eq : (∃ zf, (Except.ok (t2 B (max P (K - 1)) w, some (t2 B (max P (K - 1)) fun i m => s i (max P (K - 1)) m)) :
      Res (Tensor α × Option (Tensor α))) = .ok (t2 B (max P (K - 1)) y, some zf)) ↔ ∀ i m, i < B → m < max P (K - 1) → w i m = y i m := by
    rw [← t2_eq_iff]
    exact ⟨fun ⟨_, h⟩ => congrArg Prod.fst (Except.ok.inj h), fun h => ⟨_, congrArg Except.ok (congrArg₂ Prod.mk h rfl)⟩⟩
  rw [eq]
  constructor
  · intro h i m hi hm
    have o := out i m hm
    have g : ∑ k ∈ Finset.range m, star (zext P (av i) k) * w i (m - 1 - k) = ∑ k ∈ Finset.range m, star (zext P (av i) k) * y i (m - 1 - k) :=
      Finset.sum_congr rfl fun k hk => by rw [h i (m - 1 - k) hi (by have := Finset.mem_range.1 hk; omega)]
    rw [h i m hi hm, g] at o
    linear_combination -o
  · intro h i m hi
    induction m using Nat.strong_induction_on with
    | _ m ih =>
      intro hm
      have g : ∑ k ∈ Finset.range m, star (zext P (av i) k) * w i (m - 1 - k) =
          ∑ k ∈ Finset.range m, star (zext P (av i) k) * y i (m - 1 - k) := Finset.sum_congr rfl fun k hk => by
        rw [ih (m - 1 - k) (by have := Finset.mem_range.1 hk; omega) (by have := Finset.mem_range.1 hk; omega)]
      rw [out i m hm, h i m hi hm, g]
      ring

example := C83_tdf2_observe (B := 3) (K := 3) (P := 2) (u := some 2) (.shared fun k => (k : ℤ) + 1) (.batched fun i k => (i : ℤ) - k)
  (by decide) (by decide) (by rintro i ⟨⟩; decide) (fun i t => i + t) (fun i t => i * t) (fun i t => i - t)

/-- **C83, df2**: from any state to any other state leads exactly one signal of `M` samples:
`x_n = f_{M-1-n} + Σ_{k<P} a_{k+1} w_{n-1-k}`, where the past values `w` are entries of the wanted final state `f` or of the initial
state `z`. -/
theorem C83_df2_reach {B K P : Nat} {b a : Tensor α} {bv av : Nat → Nat → α} {u : Option Int} (hb : Rows B K b bv) (ha : Rows B P a av)
    (hK : 0 < K) (hM : 0 < max P (K - 1)) (hu : ∀ i, u = some i → 1 ≤ i) (x z f : Nat → Nat → α) :
    (∃ y, lfilter b a (t2 B (max P (K - 1)) x) (some (t2 B (max P (K - 1)) z)) .df2 u = .ok (y, some (t2 B (max P (K - 1)) f))) ↔
      ∀ i n, i < B → n < max P (K - 1) → x i n = f i (max P (K - 1) - 1 - n) +
        ∑ k ∈ Finset.range P, av i k * if k < n then f i (max P (K - 1) - n + k) else z i (k - n) := by
  obtain ⟨w, h0, hw, e⟩ := C14_df2 hb ha (.batched B x) (.full z) hK hM hM hu
  rw [packed_batch, packed_batch] at e
  have hPM : P ≤ max P (K - 1) := le_max_left _ _
  generalize max P (K - 1) = M at *
  rw [e]
  have eq : (∃ y, (Except.ok (t2 B M fun i t => ∑ j ∈ Finset.range K, bv i j * w i ((t : Int) - j),
      some (t2 B M fun i m => w i ((M : Int) - 1 - m))) : Res (Tensor α × Option (Tensor α))) = .ok (y, some (t2 B M f))) ↔
      ∀ i n, i < B → n < M → w i (n : Nat) = f i (M - 1 - n) := by
    have : (∃ y, (Except.ok (t2 B M fun i t => ∑ j ∈ Finset.range K, bv i j * w i ((t : Int) - j),
      some (t2 B M fun i m => w i ((M : Int) - 1 - m))) : Res (Tensor α × Option (Tensor α))) = .ok (y, some (t2 B M f))) ↔
      t2 B M (fun i m => w i ((M : Int) - 1 - m)) = t2 B M f :=
      ⟨fun ⟨_, h⟩ => Option.some.inj (congrArg Prod.snd (Except.ok.inj h)), fun h => ⟨_, congrArg Except.ok (congrArg₂ Prod.mk rfl (congrArg some h))⟩⟩
    rw [this, t2_eq_iff]
    refine ⟨fun h i n hi hn => ?_, fun h i m hi hm => ?_⟩
    · rw [← h i (M - 1 - n) hi (by omega)]; congr 1; omega
    · rw [show (M : Int) - 1 - m = ((M - 1 - m : Nat) : Int) by omega, h i _ hi (by omega)]; congr 1; omega
  rw [eq]
  -- the past of sample `n`
  have past : ∀ i n k, i < B → n < M → k < P → (∀ j, j < n → w i (j : Nat) = f i (M - 1 - j)) →
      w i ((n : Int) - (k + 1)) = if k < n then f i (M - n + k) else z i (k - n) := fun i n k hi hn hk h => by
    split
    · rw [show (n : Int) - (k + 1) = ((n - 1 - k : Nat) : Int) by omega, h _ (by omega)]; congr 1; omega
    · rw [show (n : Int) - (k + 1) = -1 - ((k - n : Nat) : Int) by omega, h0]
  constructor
  · intro h i n hi hn
    have o := hw i n
    rw [h i n hi hn, Finset.sum_congr rfl fun k hk => by
      rw [past i n k hi hn (Finset.mem_range.1 hk) fun j hj => h i j hi (by omega)]] at o
    linear_combination -o
  · intro h i n hi
    induction n using Nat.strong_induction_on with
    | _ n ih =>
      intro hn
      rw [hw i n, Finset.sum_congr rfl fun k hk => by
        rw [past i n k hi hn (Finset.mem_range.1 hk) fun j hj => ih j hj (by omega)], h i n hi hn]
      ring

example := C83_df2_reach (B := 3) (K := 3) (P := 2) (u := some 2) (.shared fun k => (k : ℤ) + 1) (.batched fun i k => (i : ℤ) - k)
  (by decide) (by decide) (by rintro i ⟨⟩; decide) (fun i t => i + t) (fun i t => i * t) (fun i t => i - t)

/-- **df2 may hide its state**: `(1 + z⁻¹) / (1 + z⁻¹)` returns its input, whatever the state. -/
theorem C83_df2_blind {N : Nat} (x : Nat → α) (z : α) {u : Option Int} (hN : 0 < N) (hu : ∀ i, u = some i → 1 ≤ i) :
    ∃ zf, lfilter (t1 2 fun _ => (1 : α)) (t1 1 fun _ => 1) (t2 1 N fun _ => x) (some (t2 1 1 fun _ _ => z)) .df2 u =
      .ok (t2 1 N fun _ => x, some zf) := by
  obtain ⟨w, h0, hw, e⟩ := C14_df2 (B := 1) (K := 2) (P := 1) (.shared fun _ => (1 : α)) (.shared fun _ => (1 : α)) (.batched 1 fun _ => x)
    (.full fun _ _ => z) (by decide) (by decide) hN hu
  refine ⟨_, e.trans (ok_pair ?_ rfl)⟩
  rw [packed_batch]
  refine t2_congr rfl rfl fun i t hi ht => ?_
  have := hw i t
  simp [Finset.sum_range_succ] at this ⊢
  rw [this]; ring

example := C83_df2_blind (N := 7) (fun t => (t : ℤ)) 5 (u := some 2) (by decide) (by rintro i ⟨⟩; decide)

/-- **tdf2 may not leave its state**: the same filter started from rest stays at rest, whatever the input. -/
theorem C83_tdf2_stuck {N : Nat} (x : Nat → α) {u : Option Int} (hN : 0 < N) (hu : ∀ i, u = some i → 1 ≤ i) :
    ∃ y, lfilter (t1 2 fun _ => (1 : α)) (t1 1 fun _ => 1) (t2 1 N fun _ => x) (some (t2 1 1 fun _ _ => 0)) .tdf2 u =
      .ok (y, some (t2 1 1 fun _ _ => 0)) := by
  obtain ⟨y, s, h0, hy, hs, e⟩ := C13_tdf2_complex (B := 1) (K := 2) (P := 1) (.shared fun _ => (1 : α)) (.shared fun _ => (1 : α))
    (.batched 1 fun _ => x) (.full fun _ _ => 0) (by decide) (by decide) hN hu
  refine ⟨_, e.trans (ok_pair rfl (congrArg some ?_))⟩
  rw [packed_batch]
  refine t2_congr rfl rfl fun i m hi hm => ?_
  obtain rfl : m = 0 := by change m < 1 at hm; omega
  have : ∀ t, s i t 0 = 0 := by
    intro t
    induction t with
    | zero => exact h0 i 0
    | succ t ih =>
      have := hs i t 0 (by decide)
      rw [hy, ih] at this
      simpa [zext] using this
  exact this N

example := C83_tdf2_stuck (N := 7) (fun t => (t : ℤ)) (u := some 2) (by decide) (by rintro i ⟨⟩; decide)

end filters

/-- Every power of a matrix is a combination of the first `M` powers. -/
theorem pow_combination {M : Nat} (A : Matrix (Fin M) (Fin M) α) (t : Nat) :
    ∃ c : Nat → α, A ^ t = ∑ i ∈ Finset.range M, c i • A ^ i := by
  nontriviality α
  refine ⟨fun i => (Polynomial.X ^ t %ₘ A.charpoly).coeff i, ?_⟩
  rw [Matrix.pow_eq_aeval_mod_charpoly]
  by_cases hM : M = 0
  · subst hM; exact Subsingleton.elim _ _
  · refine Polynomial.aeval_eq_sum_range' ?_ A
    have := Polynomial.natDegree_modByMonic_lt (Polynomial.X ^ t) A.charpoly_monic (fun h => by
      have := A.charpoly_natDegree_eq_dim
      rw [h] at this; simp at this; omega)
    rwa [A.charpoly_natDegree_eq_dim, Fintype.card_fin] at this

section space
variable [StarRing α]

/-- **C83, `lti.state_space`** (any ring): two initial states that give the same output for `M` samples of one signal give the same output
for every signal of any length. -/
theorem C83_state_space_observe {B M P F : Nat} {A Bm C D x : Nat → Nat → Nat → α} {z z' : Nat → Nat → α} {u u' : Option Int}
    {y f f' : Tensor α} (hM : 0 < M) (hu : ∀ i, u = some i → 1 ≤ i) (hu' : ∀ i, u' = some i → 1 ≤ i)
    (h : Lti.stateSpace (t3 B M M A) (t3 B M F x) (some (t3 B M F Bm)) (some (t3 B P M C)) (some (t3 B P F D)) (some (t2 B M z)) u none =
      .ok (y, some f))
    (h' : Lti.stateSpace (t3 B M M A) (t3 B M F x) (some (t3 B M F Bm)) (some (t3 B P M C)) (some (t3 B P F D)) (some (t2 B M z')) u' none =
      .ok (y, some f')) (N : Nat) (hN : 0 < N) (x' : Nat → Nat → Nat → α) {v v' : Option Int} (hv : ∀ i, v = some i → 1 ≤ i)
    (hv' : ∀ i, v' = some i → 1 ≤ i) :
    ∃ w g g', Lti.stateSpace (t3 B M M A) (t3 B N F x') (some (t3 B M F Bm)) (some (t3 B P M C)) (some (t3 B P F D)) (some (t2 B M z)) v
        none = .ok (w, some g) ∧
      Lti.stateSpace (t3 B M M A) (t3 B N F x') (some (t3 B M F Bm)) (some (t3 B P M C)) (some (t3 B P F D)) (some (t2 B M z')) v'
        none = .ok (w, some g') := by
  obtain ⟨y1, f1, e1, k1, -⟩ := C57_markov (B := B) (P := P) A Bm C D x z hM hM hu
  obtain ⟨y2, f2, e2, k2, -⟩ := C57_markov (B := B) (P := P) A Bm C D x z' hM hM hu'
  have ey := (congrArg Prod.fst (Except.ok.inj (e1.symm.trans h))).trans (congrArg Prod.fst (Except.ok.inj (e2.symm.trans h'))).symm
  dsimp only at ey
  -- the states give the same outputs without input
  have first : ∀ b t, b < B → t < M → mat P M (C b) *ᵥ (mat M M (A b) ^ t *ᵥ vect M (z b)) =
      mat P M (C b) *ᵥ (mat M M (A b) ^ t *ᵥ vect M (z' b)) := fun b t hb ht => by
    have : vect P (y1 b t) = vect P (y2 b t) := funext fun p => by
      have := congrArg (fun T : Tensor α => T.get [b, t, p]) ey
      rwa [get_t3 hb ht p.2, get_t3 hb ht p.2] at this
    rw [k1, k2] at this
    exact add_right_cancel (add_right_cancel this)
  have all : ∀ b t, b < B → mat P M (C b) *ᵥ (mat M M (A b) ^ t *ᵥ vect M (z b)) =
      mat P M (C b) *ᵥ (mat M M (A b) ^ t *ᵥ vect M (z' b)) := fun b t hb => by
    obtain ⟨c, hc⟩ := pow_combination (mat M M (A b)) t
    rw [hc, sum_mulVec, sum_mulVec, mulVec_sum, mulVec_sum]
    refine Finset.sum_congr rfl fun i hi => ?_
    rw [smul_mulVec, smul_mulVec, mulVec_smul, mulVec_smul, first b i hb (Finset.mem_range.1 hi)]
  obtain ⟨w, g, d, l, -⟩ := C57_markov (B := B) (P := P) A Bm C D x' z hM hN hv
  obtain ⟨w', g', d', l', -⟩ := C57_markov (B := B) (P := P) A Bm C D x' z' hM hN hv'
  refine ⟨_, _, _, d, d'.trans (ok_pair (t3_congr rfl rfl rfl fun b t p hb ht hp => ?_) rfl)⟩
  have : vect P (w' b t) = vect P (w b t) := by rw [l, l', all b t hb]
  exact congrFun this ⟨p, hp⟩

/-- `h_0' = h_0`, `h_1' = 2 h_1`, `y = h_0`: the states (0, 0) and (0, 1) cannot be told apart. -/
example (N : Nat) (hN : 0 < N) (x' : Nat → Nat → Nat → ℤ) :=
  C83_state_space_observe (α := ℤ) (B := 1) (M := 2) (P := 1) (F := 1) (A := fun _ i k => if i = k then (i : ℤ) + 1 else 0)
    (Bm := fun _ _ _ => 1) (C := fun _ _ m => if m = 0 then 1 else 0) (D := fun _ _ _ => 1) (x := fun _ t _ => (t : ℤ)) (z := fun _ _ => 0)
    (z' := fun _ m => (m : ℤ)) (u := none) (u' := none) (by decide) (by simp) (by simp)
    (Lti.stateSpace_eq (.batched fun _ i k => if i = k then (i : ℤ) + 1 else 0) (.batchMat 1 (fun _ _ _ => 1) fun _ t _ => (t : ℤ))
      (.batchMat 1 fun _ _ m => if m = 0 then 1 else 0) (.batchMat 1 1 (fun _ _ _ => 1) fun _ t _ => (t : ℤ)) (.full fun _ _ => 0)
      (by decide) (by decide) (by simp))
    ((Lti.stateSpace_eq (.batched fun _ i k => if i = k then (i : ℤ) + 1 else 0) (.batchMat 1 (fun _ _ _ => 1) fun _ t _ => (t : ℤ))
      (.batchMat 1 fun _ _ m => if m = 0 then 1 else 0) (.batchMat 1 1 (fun _ _ _ => 1) fun _ t _ => (t : ℤ)) (.full fun _ m => (m : ℤ))
      (by decide) (by decide) (by simp)).trans (ok_pair (by
        rw [signal, signal]
        refine t3_congr (α := ℤ) rfl rfl rfl fun b t p _ ht _ => ?_
        interval_cases t <;> simp [vecRec, Finset.sum_range_succ]) rfl))
    N hN x' (v := none) (v' := some 1) (by simp) (by rintro i ⟨⟩; decide)

/-- **C83, `lti.state_space`** (any ring): a state reached from rest by a signal of any length is reached by one of `M` samples. -/
theorem C83_state_space_reach {B N M P F : Nat} (A Bm C D x : Nat → Nat → Nat → α) {u u' : Option Int} (hM : 0 < M) (hN : 0 < N)
    (hu : ∀ i, u = some i → 1 ≤ i) (hu' : ∀ i, u' = some i → 1 ≤ i) :
    ∃ (x' : Nat → Nat → Nat → α) (y y' f : Tensor α),
      Lti.stateSpace (t3 B M M A) (t3 B N F x) (some (t3 B M F Bm)) (some (t3 B P M C)) (some (t3 B P F D)) (some (t2 B M fun _ _ => 0)) u
        none = .ok (y, some f) ∧
      Lti.stateSpace (t3 B M M A) (t3 B M F x') (some (t3 B M F Bm)) (some (t3 B P M C)) (some (t3 B P F D)) (some (t2 B M fun _ _ => 0)) u'
        none = .ok (y', some f) := by
  choose c hc using fun b t => pow_combination (mat M M (A b)) t
  obtain ⟨y, f, e, -, k⟩ := C57_markov (B := B) (P := P) A Bm C D x (fun _ _ => 0) hM hN hu
  obtain ⟨y', f', e', -, k'⟩ := C57_markov (B := B) (P := P) A Bm C D
    (fun b t j => ∑ s ∈ Finset.range N, c b (N - 1 - s) (M - 1 - t) * x b s j) (fun _ _ => 0) hM hM hu'
  refine ⟨_, _, _, _, e, e'.trans (ok_pair rfl (congrArg some (t2_congr rfl rfl fun b m hb hm => ?_)))⟩
  have zero : vect M (fun _ => (0 : α)) = 0 := rfl
  have : vect M (f' b) = vect M (f b) := by
    rw [k, k', zero, mulVec_zero, mulVec_zero, zero_add, zero_add]
    have l : ∀ t, vect F (fun j => ∑ s ∈ Finset.range N, c b (N - 1 - s) (M - 1 - t) * x b s j) =
        ∑ s ∈ Finset.range N, c b (N - 1 - s) (M - 1 - t) • vect F (x b s) := fun t => by
      funext j; simp [vect, Finset.sum_apply]
    simp only [l, mulVec_sum, mulVec_smul]
    rw [Finset.sum_comm]
    refine Finset.sum_congr rfl fun s _ => ?_
    rw [hc b (N - 1 - s), Matrix.sum_mul, sum_mulVec]
    rw [← Finset.sum_range_reflect]
    refine Finset.sum_congr rfl fun t ht => ?_
    have := Finset.mem_range.1 ht
    rw [show M - 1 - (M - 1 - t) = t by omega, Matrix.smul_mul, smul_mulVec]
  exact congrFun this ⟨m, hm⟩

example := C83_state_space_reach (B := 3) (N := 7) (M := 2) (P := 2) (F := 2) (fun i t k => (i : ℤ) - t * k) (fun i t k => (i : ℤ) + t * k)
  (fun i t k => (i : ℤ) - t * k) (fun i t k => (i : ℤ) + t * k) (fun i t k => (i : ℤ) - t * k) (u := some 2) (u' := none) (by decide)
  (by decide) (by rintro i ⟨⟩; decide) (by simp)

end space
end Props
