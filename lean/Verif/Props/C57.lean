import Verif.Proof.ClosedForm
import Verif.Props.C56
import Verif.Props.C02
import Verif.Props.C07

/-!
# C57: state-space models in closed form

With Mathlib's matrices: the states are `A^t z + Σ A^(t-1-k) v_k` (`C57_recursion`), the outputs are
`C A^t z + Σ C A^(t-1-k) B x_k + D x_t` (`C57_markov`); another basis of the states gives the same output (`C57_similarity`); and
every model with one input and one output is the filter whose denominator is the characteristic polynomial of `A`
(`C57_lfilter`, by the theorem of Cayley and Hamilton).
-/

namespace Props
open Torch Torch.Tensor Spec Phil Matrix
open Phil.Lti (Form ok_pair lfilter)
variable {α : Type} [CommRing α] [StarRing α]

/-- **C57, `lti.linear_recurrence`**: `a^(t+1) init + Σ_{k≤t} a^(t-k) x_k`. -/
theorem C57_linear_recurrence {B N : Nat} {a init : Tensor α} {av iv : Nat → α} (u : Int) (ha : BatchVals B a av)
    (hi : BatchVals B init iv) (x : Nat → Nat → α) (hN : 0 < N) (hu : 1 ≤ u) :
    Lti.linearRecurrence a init (t2 B N x) u = .ok (t2 B N fun b t =>
      av b ^ (t + 1) * iv b + ∑ k ∈ Finset.range (t + 1), av b ^ (t - k) * x b k) := by
  rw [C01_linear_recurrence x u ha hi hN hu]
  exact congrArg Except.ok (t2_congr rfl rfl fun b t _ _ => scalarRec_closed _ _ _ _)

example := C57_linear_recurrence (B := 3) (N := 7) 2 (.full fun i => (i : ℤ) + 2) (.full fun i => (i : ℤ) + 2) (fun i t => (i : ℤ) + t) (by decide)
  (by decide)

/-- **C57, `lpv.linear_recurrence`**: `a_0 … a_t init + Σ_{k≤t} a_{k+1} … a_t x_k`. -/
theorem C57_lpv_linear_recurrence {B N : Nat} {a init : Tensor α} {av : Nat → Nat → α} {iv : Nat → α} (u : Int)
    (ha : TimeVals B N a av) (hi : BatchVals B init iv) (x : Nat → Nat → α) (hN : 0 < N) (hu : 1 ≤ u) :
    Lpv.linearRecurrence a init (t2 B N x) u = .ok (t2 B N fun b t => (∏ s ∈ Finset.range (t + 1), av b s) * iv b +
      ∑ k ∈ Finset.range (t + 1), (∏ s ∈ Finset.Ico (k + 1) (t + 1), av b s) * x b k) := by
  rw [C02_linear_recurrence x u ha hi hN hu]
  exact congrArg Except.ok (t2_congr rfl rfl fun b t _ _ => scalarRec_prod _ _ _ _)

example := C57_lpv_linear_recurrence (B := 3) (N := 7) 2 (.full fun i t => (i : ℤ) + t) (.full fun i => (i : ℤ) + 2) (fun i t => (i : ℤ) + t)
  (by decide) (by decide)

omit [StarRing α] in
/-- **C57, `lti.state_space_recursion`.** -/
theorem C57_recursion {B N M : Nat} {A x : Tensor α} {Av xv : Nat → Nat → Nat → α} (hA : MatVals B M M A Av)
    (hx : Drive B N M x xv) (z : Nat → Nat → α) (u : Int) (hM : 0 < M) (hN : 0 < N) (hu : 1 ≤ u) :
    ∃ h : Nat → Nat → Nat → α, Lti.stateSpaceRecursion A (t2 B M z) x u none = .ok (t3 B N M h) ∧
      ∀ b t, vect M (h b t) = mat M M (Av b) ^ (t + 1) *ᵥ vect M (z b) +
        ∑ k ∈ Finset.range (t + 1), mat M M (Av b) ^ (t - k) *ᵥ vect M (xv b k) :=
  ⟨fun b t => vecRec M (fun _ => Av b) (z b) (xv b) (t + 1), Lti.stateSpaceRecursion_layout hA hx z u none trivial hM hN hu,
    fun _ _ => vecRec_closed _ _ _ _⟩

example := C57_recursion (B := 3) (N := 7) (M := 2) (.batched fun i t k => (i : ℤ) - t * k) (.full fun i t k => (i : ℤ) + t * k)
  (fun i t => (i : ℤ) * t) 2 (by decide) (by decide) (by decide)

omit [StarRing α] in
/-- **C57 (partial), `lpv.state_space_recursion`**, with transition matrices, for the unroll factors of C07. -/
theorem C57_lpv_recursion_partial {B N M : Nat} {A x : Tensor α} {Av : Nat → Nat → Nat → Nat → α}
    {xv : Nat → Nat → Nat → α} (hA : MatSeq B N M M A Av) (hx : Drive B N M x xv) (z : Nat → Nat → α) (u : Int)
    (hB : 0 < B) (hM : 0 < M) (hN : 0 < N) (hu : 1 ≤ u) (hP : u ≤ 2 ∨ (N : Int) ≤ u ∨ (u.toNat - 1).Prime) :
    ∃ h : Nat → Nat → Nat → α, Lpv.stateSpaceRecursion A (t2 B M z) x u none = .ok (t3 B N M h) ∧
      ∀ b t, vect M (h b t) = transition (fun t => mat M M (Av b t)) 0 (t + 1) *ᵥ vect M (z b) +
        ∑ k ∈ Finset.range (t + 1), transition (fun t => mat M M (Av b t)) (k + 1) (t + 1) *ᵥ vect M (xv b k) :=
  ⟨_, C07_state_space_recursion_partial hA hx z u hB hM hN hu hP, fun _ _ => vecRec_transition _ _ _ _⟩

example := C57_lpv_recursion_partial (B := 3) (N := 7) (M := 2) (.batched fun i t k j => (i : ℤ) + t * k - j) (.full fun i t k => (i : ℤ) + t * k)
  (fun i t => (i : ℤ) * t) 2 (by decide) (by decide) (by decide) (by decide) (by decide)

/-- **C57, `lti.state_space`**: output and final state. -/
theorem C57_markov {B N M P F : Nat} (A Bm C D x : Nat → Nat → Nat → α) (z : Nat → Nat → α) {u : Option Int} (hM : 0 < M)
    (hN : 0 < N) (hu : ∀ i, u = some i → 1 ≤ i) :
    ∃ (y : Nat → Nat → Nat → α) (f : Nat → Nat → α),
      Lti.stateSpace (t3 B M M A) (t3 B N F x) (some (t3 B M F Bm)) (some (t3 B P M C)) (some (t3 B P F D)) (some (t2 B M z)) u
        none = .ok (t3 B N P y, some (t2 B M f)) ∧
      (∀ b t, vect P (y b t) = mat P M (C b) *ᵥ (mat M M (A b) ^ t *ᵥ vect M (z b)) +
        (∑ k ∈ Finset.range t, (mat P M (C b) * mat M M (A b) ^ (t - 1 - k) * mat M F (Bm b)) *ᵥ vect F (x b k)) +
        mat P F (D b) *ᵥ vect F (x b t)) ∧
      ∀ b, vect M (f b) = mat M M (A b) ^ N *ᵥ vect M (z b) +
        ∑ k ∈ Finset.range N, (mat M M (A b) ^ (N - 1 - k) * mat M F (Bm b)) *ᵥ vect F (x b k) := by
  refine ⟨fun b t p => ∑ m ∈ Finset.range M, C b p m * vecRec M (fun _ => A b) (z b)
      (fun t k => ∑ f ∈ Finset.range F, Bm b k f * x b t f) t m + ∑ f ∈ Finset.range F, D b p f * x b t f,
    fun b m => vecRec M (fun _ => A b) (z b) (fun t k => ∑ f ∈ Finset.range F, Bm b k f * x b t f) N m,
    Lti.stateSpace_eq (.batched A) (.batchMat F Bm x) (.batchMat P C) (.batchMat P F D x) (.full z) hM hN hu,
    fun b t => ?_, fun b => ?_⟩
  · have e : ∀ h d : Nat → α, vect P (fun p => h p + d p) = vect P h + vect P d := fun _ _ => rfl
    rw [e, vect_sum, vect_sum, vecRec_closed, mulVec_add, mulVec_sum]
    refine congrArg₂ (· + ·) (congrArg₂ (· + ·) rfl (Finset.sum_congr rfl fun k _ => ?_)) rfl
    rw [vect_sum, mulVec_mulVec, mulVec_mulVec]
  · rw [vecRec_closed]
    refine congrArg₂ (· + ·) rfl (Finset.sum_congr rfl fun k _ => ?_)
    rw [vect_sum, mulVec_mulVec]

example := C57_markov (B := 3) (N := 7) (M := 2) (P := 2) (F := 2) (fun i t k => (i : ℤ) - t * k) (fun i t k => (i : ℤ) + t * k)
  (fun i t k => (i : ℤ) - t * k) (fun i t k => (i : ℤ) + t * k) (fun i t k => (i : ℤ) - t * k) (fun i t => (i : ℤ) * t) (u := some 2) (by decide)
  (by decide) (by simp)

/-- **C57.** Change of basis `h ↦ T h` of the states. -/
theorem C57_similarity {B N M P F : Nat} (A Bm C A' Bm' C' D x : Nat → Nat → Nat → α) (z z' : Nat → Nat → α)
    (T Ti : Nat → Matrix (Fin M) (Fin M) α) {u u' : Option Int} (hM : 0 < M) (hN : 0 < N) (hu : ∀ i, u = some i → 1 ≤ i)
    (hu' : ∀ i, u' = some i → 1 ≤ i) (hT : ∀ b, b < B → Ti b * T b = 1)
    (hA : ∀ b, b < B → mat M M (A' b) = T b * mat M M (A b) * Ti b)
    (hB : ∀ b, b < B → mat M F (Bm' b) = T b * mat M F (Bm b)) (hC : ∀ b, b < B → mat P M (C' b) = mat P M (C b) * Ti b)
    (hz : ∀ b, b < B → vect M (z' b) = T b *ᵥ vect M (z b)) :
    ∃ (y : Tensor α) (f f' : Nat → Nat → α),
      Lti.stateSpace (t3 B M M A) (t3 B N F x) (some (t3 B M F Bm)) (some (t3 B P M C)) (some (t3 B P F D)) (some (t2 B M z)) u
        none = .ok (y, some (t2 B M f)) ∧
      Lti.stateSpace (t3 B M M A') (t3 B N F x) (some (t3 B M F Bm')) (some (t3 B P M C')) (some (t3 B P F D))
        (some (t2 B M z')) u' none = .ok (y, some (t2 B M f')) ∧
      ∀ b, b < B → vect M (f' b) = T b *ᵥ vect M (f b) := by
  obtain ⟨y, f, e, hy, hf⟩ := C57_markov (B := B) (N := N) (P := P) (F := F) A Bm C D x z hM hN hu
  obtain ⟨y', f', e', hy', hf'⟩ := C57_markov (B := B) (N := N) (P := P) (F := F) A' Bm' C' D x z' hM hN hu'
  have hp : ∀ b, b < B → ∀ n, mat M M (A' b) ^ n = T b * mat M M (A b) ^ n * Ti b := by
    intro b hb n
    have hT' : T b * Ti b = 1 := mul_eq_one_comm.1 (hT b hb)
    induction n with
    | zero => rw [pow_zero, pow_zero, Matrix.mul_one, hT']
    | succ n ih =>
      rw [pow_succ, ih, hA b hb, pow_succ]
      calc T b * mat M M (A b) ^ n * Ti b * (T b * mat M M (A b) * Ti b)
          = T b * mat M M (A b) ^ n * (Ti b * T b) * mat M M (A b) * Ti b := by simp only [Matrix.mul_assoc]
        _ = _ := by rw [hT b hb, Matrix.mul_one]; simp only [Matrix.mul_assoc]
  refine ⟨_, f, f', e, e'.trans (ok_pair (t3_congr rfl rfl rfl fun b t p hb _ hp' => ?_) rfl), fun b hb => ?_⟩
  · have : vect P (y' b t) = vect P (y b t) := by
      rw [hy, hy']
      refine congrArg₂ (· + ·) (congrArg₂ (· + ·) ?_ (Finset.sum_congr rfl fun k _ => ?_)) rfl
      · rw [hz b hb, hp b hb, hC b hb, mulVec_mulVec, mulVec_mulVec, mulVec_mulVec]
        congr 1
        calc mat P M (C b) * Ti b * (T b * mat M M (A b) ^ t * Ti b) * T b
            = mat P M (C b) * (Ti b * T b) * mat M M (A b) ^ t * (Ti b * T b) := by simp only [Matrix.mul_assoc]
          _ = _ := by rw [hT b hb, Matrix.mul_one, Matrix.mul_one]
      · rw [hp b hb, hC b hb, hB b hb]
        congr 1
        calc mat P M (C b) * Ti b * (T b * mat M M (A b) ^ (t - 1 - k) * Ti b) * (T b * mat M F (Bm b))
            = mat P M (C b) * (Ti b * T b) * mat M M (A b) ^ (t - 1 - k) * ((Ti b * T b) * mat M F (Bm b)) := by
              simp only [Matrix.mul_assoc]
          _ = _ := by rw [hT b hb, Matrix.mul_one, Matrix.one_mul]
    exact congrFun this ⟨p, hp'⟩
  · rw [hf, hf', mulVec_add, mulVec_sum]
    refine congrArg₂ (· + ·) ?_ (Finset.sum_congr rfl fun k _ => ?_)
    · rw [hz b hb, hp b hb, mulVec_mulVec, mulVec_mulVec]
      congr 1
      rw [Matrix.mul_assoc (T b * _), hT b hb, Matrix.mul_one]
    · rw [hp b hb, hB b hb, mulVec_mulVec]
      congr 1
      calc T b * mat M M (A b) ^ (N - 1 - k) * Ti b * (T b * mat M F (Bm b))
          = T b * mat M M (A b) ^ (N - 1 - k) * ((Ti b * T b) * mat M F (Bm b)) := by simp only [Matrix.mul_assoc]
        _ = _ := by rw [hT b hb, Matrix.one_mul, Matrix.mul_assoc]

/-- **C57.** A model with one input and one output is the filter with the characteristic polynomial of `A` as denominator; the
numerator is the product of the denominator and the impulse response `d, cb, cAb, …`. -/
theorem C57_lfilter {B N M : Nat} (A : Nat → Nat → Nat → α) (b c : Nat → Nat → α) (d : Nat → α)
    (x : Nat → Nat → α) {form : Form} {u u' : Option Int} (hf : Faithful α form) (hB : 0 < B) (hM : 0 < M) (hN : 0 < N)
    (hu : ∀ i, u = some i → 1 ≤ i) (hu' : ∀ i, u' = some i → 1 ≤ i) :
    ∃ y, Lti.stateSpace (t3 B M M A) (t2 B N x) (some (t2 B M b)) (some (t2 B M c)) (some (t1 B d)) none u none =
        .ok (y, none) ∧
      lfilter (t2 B (M + 1) fun i => conv (denom M (charCoefs (mat M M (A i))))
          (markov (mat M M (A i)) (vect M (b i)) (vect M (c i)) (d i)))
        (t2 B M fun i => charCoefs (mat M M (A i))) (t2 B N x) none form u' = .ok (y, none) := by
  obtain ⟨y, hy, e⟩ := lfilter_series2 (K := M + 1) (P := M) (.batched fun i => conv (denom M (charCoefs (mat M M (A i))))
      (markov (mat M M (A i)) (vect M (b i)) (vect M (c i)) (d i))) (.batched fun i => charCoefs (mat M M (A i))) x hf hB
    (by omega) (by omega) hN hu'
  have es := Lti.stateSpace_eq (B := B) (.batched A) (.batchVec b x) (.batchVec c) (.batch d x) .zero hM hN hu
  refine ⟨t2 B N fun i t => ∑ m ∈ Finset.range M, c i m * vecRec M (fun _ => A i) (fun _ => 0) (fun t k => b i k * x i t) t m +
    d i * x i t, es, e.trans (ok_pair (t2_congr rfl rfl fun i t _ _ => ?_) rfl)⟩
  set H := markov (mat M M (A i)) (vect M (b i)) (vect M (c i)) (d i) with hH
  have h1 : zext (M + 1) (conv (denom M (charCoefs (mat M M (A i)))) H) = conv (denom M (charCoefs (mat M M (A i)))) H := by
    funext n
    rw [zext]
    split
    · rfl
    · exact (conv_markov _ _ _ _ (by omega)).symm
  have h2 : y i = conv H (x i) := by
    refine series_unique (P := M) (a := charCoefs (mat M M (A i))) ((hy i).trans ?_)
    rw [h1, mk_conv, mk_conv, mul_assoc]
  rw [h2]
  have h3 : ∀ h : Nat → α, ∑ m ∈ Finset.range M, c i m * h m = vect M (c i) ⬝ᵥ vect M h := fun h =>
    Finset.sum_range fun m => c i m * h m
  have h4 : ∀ k, vect M (fun m => b i m * x i k) = x i k • vect M (b i) := fun k => by
    funext m; exact mul_comm _ _
  have hz : vect M (fun _ => (0 : α)) = 0 := rfl
  rw [h3, vecRec_closed, hz, mulVec_zero, zero_add, dotProduct_sum, conv, ← Finset.sum_range_reflect, Finset.sum_range_succ]
  refine congrArg₂ (· + ·) (Finset.sum_congr rfl fun k hk => ?_) ?_
  · have := Finset.mem_range.1 hk
    rw [h4, mulVec_smul, dotProduct_smul, smul_eq_mul, mul_comm, hH, markov, if_neg (by omega),
      show t + 1 - 1 - k - 1 = t - 1 - k by omega, show t - (t + 1 - 1 - k) = k by omega]
  · rw [hH, markov, if_pos (by omega), show t - (t + 1 - 1 - t) = t by omega]

example := C57_lfilter (B := 3) (N := 7) (M := 2) (fun i t k => (i : ℤ) - t * k) (fun i t => (i : ℤ) + t) (fun i t => (i : ℤ) - t)
  (fun i => (i : ℤ)) (fun i t => (i : ℤ) * t) (form := .tdf2) (u := some 2) (u' := none) (faithful_int _ (by simp)) (by decide) (by decide)
  (by decide) (by simp) (by simp)

/-! ## Instances -/

/-- Two states, exchanged by the change of basis. -/
example (x : Nat → Nat → Nat → Int) :
    ∃ (y : Tensor Int) (f f' : Nat → Nat → Int),
      Lti.stateSpace (t3 1 2 2 fun _ i j => (i : Int) + 2 * j) (t3 1 7 1 x) (some (t3 1 2 1 fun _ i _ => (i : Int) + 1))
        (some (t3 1 1 2 fun _ _ j => (j : Int) + 3)) (some (t3 1 1 1 fun _ _ _ => 4)) (some (t2 1 2 fun _ i => (i : Int) - 5)) none
        none = .ok (y, some (t2 1 2 f)) ∧
      Lti.stateSpace (t3 1 2 2 fun _ i j => (1 - i : Int) + 2 * (1 - j)) (t3 1 7 1 x) (some (t3 1 2 1 fun _ i _ => 2 - (i : Int)))
        (some (t3 1 1 2 fun _ _ j => 4 - (j : Int))) (some (t3 1 1 1 fun _ _ _ => 4)) (some (t2 1 2 fun _ i => -(4 : Int) - i))
        (some 3) none = .ok (y, some (t2 1 2 f')) ∧
      ∀ b, b < 1 → vect 2 (f' b) = !![0, 1; 1, 0] *ᵥ vect 2 (f b) :=
  C57_similarity _ _ _ _ _ _ _ x _ _ (fun _ => !![0, 1; 1, 0]) (fun _ => !![0, 1; 1, 0]) (by decide) (by decide) (by simp)
    (by simp) (fun _ _ => by decide) (fun _ _ => by ext i j; fin_cases i <;> fin_cases j <;> decide)
    (fun _ _ => by ext i j; fin_cases i <;> fin_cases j <;> decide)
    (fun _ _ => by ext i j; fin_cases i; fin_cases j <;> decide) (fun _ _ => by ext i; fin_cases i <;> decide)

/-- The characteristic polynomial of `[[1, 2], [3, 4]]` is `z² - 5 z - 2`. -/
example : charCoefs (mat 2 2 fun i j => (2 * i + j + 1 : Int)) 0 = -5 ∧ charCoefs (mat 2 2 fun i j => (2 * i + j + 1 : Int)) 1 = -2 := by
  have h := Matrix.charpoly_fin_two (mat 2 2 fun i j => (2 * i + j + 1 : Int))
  constructor
  · rw [charCoefs, h]
    simp [mat, Matrix.trace, Matrix.det_fin_two, Polynomial.coeff_X]
  · rw [charCoefs, h]
    simp [mat, Matrix.trace, Matrix.det_fin_two]

end Props
