import Verif.Props.C57
import Verif.Props.C86

/-!
# C88: random signals

A random number is a function on a set `Ω` of outcomes, its mean a linear functional `E` of this function: a sum with weights over
finitely many outcomes, or an integral, extended to all functions.  The code runs once for every outcome.
-/

namespace Props
open Torch Torch.Tensor Spec Phil
open Phil.Lti (Form ok_pair lfilter)
variable {α : Type} [CommRing α] {Ω : Type}

/-- The mean of a weighted sum. -/
theorem mean_sum (E : (Ω → α) →ₗ[α] α) (n : Nat) (g : Nat → α) (x : Nat → Ω → α) :
    E (fun ω => ∑ k ∈ Finset.range n, g k * x k ω) = ∑ k ∈ Finset.range n, g k * E (x k) := by
  have e : (fun ω => ∑ k ∈ Finset.range n, g k * x k ω) = ∑ k ∈ Finset.range n, g k • x k := by
    funext ω; simp [Finset.sum_apply]
  rw [e, map_sum]
  exact Finset.sum_congr rfl fun k _ => by rw [map_smul, smul_eq_mul]

/-- The mean of the product of two weighted sums. -/
theorem mean_mul_sum (E : (Ω → α) →ₗ[α] α) (n m : Nat) (g h : Nat → α) (x y : Nat → Ω → α) :
    E (fun ω => (∑ k ∈ Finset.range n, g k * x k ω) * ∑ l ∈ Finset.range m, h l * y l ω) =
      ∑ k ∈ Finset.range n, ∑ l ∈ Finset.range m, g k * h l * E (fun ω => x k ω * y l ω) := by
  have e : (fun ω => (∑ k ∈ Finset.range n, g k * x k ω) * ∑ l ∈ Finset.range m, h l * y l ω) =
      fun ω => ∑ k ∈ Finset.range n, g k * ∑ l ∈ Finset.range m, h l * (x k ω * y l ω) := by
    funext ω
    rw [Finset.sum_mul]
    refine Finset.sum_congr rfl fun k _ => ?_
    rw [mul_assoc, Finset.mul_sum]
    exact congrArg _ (Finset.sum_congr rfl fun l _ => by ring)
  rw [e, mean_sum E n g fun k ω => ∑ l ∈ Finset.range m, h l * (x k ω * y l ω)]
  refine Finset.sum_congr rfl fun k _ => ?_
  rw [mean_sum E m h fun l ω => x k ω * y l ω, Finset.mul_sum]
  exact Finset.sum_congr rfl fun l _ => by ring

theorem mean_add (E : (Ω → α) →ₗ[α] α) (f g : Ω → α) : E (fun ω => f ω + g ω) = E f + E g := E.map_add f g

/-- The convolution with the signal in front. -/
theorem conv_reflect (h x : Nat → α) (n : Nat) : conv h x n = ∑ k ∈ Finset.range (n + 1), h (n - k) * x k := by
  rw [conv, ← Finset.sum_range_reflect]
  refine Finset.sum_congr rfl fun k hk => ?_
  have := Finset.mem_range.1 hk
  rw [show n + 1 - 1 - k = n - k by omega, show n - (n - k) = k by omega]

/-- For the examples: the sum over `n` outcomes. -/
def total (n : Nat) : (Fin n → ℤ) →ₗ[ℤ] ℤ := ∑ ω, LinearMap.proj ω

/-- For the examples: the sum of the product of two samples of a signal that is one in sample `ω` and zero elsewhere. -/
theorem total_delta {n s : Nat} (t : Nat) (hs : s < n) :
    total n (fun ω => (if ω.val = s then 1 else 0) * if ω.val = t then 1 else 0) = if s = t then 1 else 0 := by
  rw [total, LinearMap.sum_apply, Finset.sum_eq_single ⟨s, hs⟩]
  · simp
  · intro ω _ h
    have : ω.val ≠ s := fun e => h (Fin.ext e)
    simp [this]
  · simp

variable [StarRing α]

/-- **C88, `lfilter`: the mean.** The mean of the outputs is the output for the mean signal. -/
theorem C88_mean {B N K P : Nat} {b a : Tensor α} {bv av : Nat → Nat → α} {form : Form} {u : Option Int} (E : (Ω → α) →ₗ[α] α)
    (x : Ω → Nat → Nat → α) (hb : Rows B K b bv) (ha : Rows B P a av) (hf : Faithful α form) (hB : 0 < B) (hK : 0 < K)
    (hM : 0 < max P (K - 1)) (hN : 0 < N) (hu : ∀ i, u = some i → 1 ≤ i) :
    ∃ y : Ω → Nat → Nat → α, (∀ ω, lfilter b a (t2 B N (x ω)) none form u = .ok (t2 B N (y ω), none)) ∧
      lfilter b a (t2 B N fun i t => E fun ω => x ω i t) none form u = .ok (t2 B N fun i t => E fun ω => y ω i t, none) := by
  obtain ⟨h, _, e⟩ := C56_impulse hb ha hf hB hK hM hN hu
  refine ⟨_, fun ω => e (x ω), (e _).trans (ok_pair (t2_congr rfl rfl fun i t _ _ => ?_) rfl)⟩
  simp only [conv_reflect]
  exact (mean_sum E (t + 1) (fun k => h i (t - k)) fun k ω => x ω i k).symm

example := C88_mean (B := 3) (N := 7) (K := 3) (P := 2) (form := .tdf2) (u := some 2) (total 5) (fun ω i t => (ω.val : ℤ) * i + t)
  (.batched fun i t => (i : ℤ) + t) (.shared fun t => (t : ℤ) - 1) (faithful_int _ (by simp)) (by decide) (by decide) (by decide) (by decide) (by rintro i ⟨⟩; decide)

/-- **C88, `lfilter`: white noise.** If different samples of the signal are uncorrelated and every sample has the power `σ`, the
samples `n` and `m` of the output have the correlation `σ Σ_k h_{n-k} h_{m-k}`, `h` the response to an impulse.  In particular the
power of the output is `σ` times the energy of the response so far. -/
theorem C88_white {B N K P : Nat} {b a : Tensor α} {bv av : Nat → Nat → α} {form : Form} {u : Option Int} (E : (Ω → α) →ₗ[α] α)
    (x : Ω → Nat → Nat → α) (σ : α) (hb : Rows B K b bv) (ha : Rows B P a av) (hf : Faithful α form) (hB : 0 < B) (hK : 0 < K)
    (hM : 0 < max P (K - 1)) (hN : 0 < N) (hu : ∀ i, u = some i → 1 ≤ i)
    (white : ∀ i s t, i < B → s < N → t < N → E (fun ω => x ω i s * x ω i t) = if s = t then σ else 0) :
    ∃ (h : Nat → Nat → α) (y : Ω → Nat → Nat → α), lfilter b a (t2 B N fun _ => impulse) none form u = .ok (t2 B N h, none) ∧
      (∀ ω, lfilter b a (t2 B N (x ω)) none form u = .ok (t2 B N (y ω), none)) ∧
      (∀ i n m, i < B → n ≤ m → m < N → E (fun ω => y ω i n * y ω i m) = σ * ∑ k ∈ Finset.range (n + 1), h i (n - k) * h i (m - k)) ∧
      ∀ i n, i < B → n < N → E (fun ω => y ω i n ^ 2) = σ * ∑ k ∈ Finset.range (n + 1), h i k ^ 2 := by
  obtain ⟨h, eh, e⟩ := C56_impulse hb ha hf hB hK hM hN hu
  have corr : ∀ i n m, i < B → n ≤ m → m < N → E (fun ω => conv (h i) (x ω i) n * conv (h i) (x ω i) m) =
      σ * ∑ k ∈ Finset.range (n + 1), h i (n - k) * h i (m - k) := by
    intro i n m hi hnm hm
    simp only [conv_reflect]
    rw [mean_mul_sum E (n + 1) (m + 1) (fun k => h i (n - k)) (fun k => h i (m - k)) (fun k ω => x ω i k) fun k ω => x ω i k, Finset.mul_sum]
    refine Finset.sum_congr rfl fun k hk => ?_
    have hk := Finset.mem_range.1 hk
    rw [Finset.sum_eq_single k]
    · rw [white i k k hi (by omega) (by omega), if_pos rfl]; ring
    · intro l hl hlk
      rw [white i k l hi (by omega) (by have := Finset.mem_range.1 hl; omega), if_neg (Ne.symm hlk), mul_zero]
    · intro hk'; exact absurd (Finset.mem_range.2 (by omega)) hk'
  refine ⟨h, _, eh, fun ω => e (x ω), corr, fun i n hi hn => ?_⟩
  have c := corr i n n hi le_rfl hn
  simp only [← pow_two] at c
  rw [c, ← Finset.sum_range_reflect (fun k => h i k ^ 2)]
  exact congrArg _ (Finset.sum_congr rfl fun k _ => by rw [show n + 1 - 1 - k = n - k by omega])

example := C88_white (B := 3) (N := 7) (K := 3) (P := 2) (form := .tdf2) (u := some 2) (total 7) (fun ω _ t => if ω.val = t then 1 else 0) 1
  (.batched fun i t => (i : ℤ) + t) (.shared fun t => (t : ℤ) - 1) (faithful_int _ (by simp)) (by decide) (by decide) (by decide) (by decide) (by rintro i ⟨⟩; decide)
  (fun _ _ t _ hs _ => total_delta t hs)

omit [StarRing α] in
/-- The correlations of the states of one system, and of two readings of the state and the present sample. -/
theorem covariance_run {N M F : Nat} (E : (Ω → α) →ₗ[α] α) {A Bm : Nat → Nat → Nat → α} {x H : Nat → Nat → Ω → α} {Q S : Nat → Nat → Nat → α}
    (next : ∀ t m, t < N → m < M → H (t + 1) m = fun ω => ∑ j ∈ Finset.range M, A t m j * H t j ω + ∑ f ∈ Finset.range F, Bm t m f * x t f ω)
    (white : ∀ s t f g, s < N → t < N → f < F → g < F → E (fun ω => x s f ω * x t g ω) = if s = t then Q t f g else 0)
    (start : ∀ t m f, t < N → m < M → f < F → E (fun ω => H 0 m ω * x t f ω) = 0)
    (h0 : ∀ m k, m < M → k < M → S 0 m k = E fun ω => H 0 m ω * H 0 k ω)
    (hS : ∀ t m k, t < N → m < M → k < M → S (t + 1) m k =
      ∑ j ∈ Finset.range M, ∑ l ∈ Finset.range M, A t m j * A t k l * S t j l +
        ∑ f ∈ Finset.range F, ∑ g ∈ Finset.range F, Bm t m f * Bm t k g * Q t f g) :
    (∀ m k, m < M → k < M → E (fun ω => H N m ω * H N k ω) = S N m k) ∧
    ∀ t, t < N → ∀ c d c' d' : Nat → α, E (fun ω => (∑ j ∈ Finset.range M, c j * H t j ω + ∑ f ∈ Finset.range F, d f * x t f ω) *
        (∑ j ∈ Finset.range M, c' j * H t j ω + ∑ f ∈ Finset.range F, d' f * x t f ω)) =
      ∑ j ∈ Finset.range M, ∑ l ∈ Finset.range M, c j * c' l * S t j l + ∑ f ∈ Finset.range F, ∑ g ∈ Finset.range F, d f * d' g * Q t f g := by
  -- the state knows nothing of the samples to come
  have fresh : ∀ t m s f, t ≤ s → s < N → m < M → f < F → E (fun ω => H t m ω * x s f ω) = 0 := by
    intro t
    induction t with
    | zero => intro m s f _ hs hm hf; exact start s m f hs hm hf
    | succ t ih =>
      intro m s f hts hs hm hf
      have one := fun (n : Nat) (g : Nat → α) (v : Nat → Ω → α) => mean_mul_sum E n 1 g (fun _ => 1) v fun _ => x s f
      simp only [Finset.sum_range_one, one_mul, mul_one] at one
      rw [next t m (by omega) hm]
      simp only [add_mul]
      rw [mean_add, one M (A t m) (H t), one F (Bm t m) (x t)]
      rw [Finset.sum_eq_zero fun j hj => by rw [ih j s f (by omega) hs (Finset.mem_range.1 hj) hf, mul_zero],
        Finset.sum_eq_zero fun g hg => by
          rw [white t s g f (by omega) hs (Finset.mem_range.1 hg) hf, if_neg (by omega), mul_zero], add_zero]
  have read : ∀ t, t < N → (∀ m k, m < M → k < M → E (fun ω => H t m ω * H t k ω) = S t m k) →
      ∀ c d c' d' : Nat → α, E (fun ω => (∑ j ∈ Finset.range M, c j * H t j ω + ∑ f ∈ Finset.range F, d f * x t f ω) *
        (∑ j ∈ Finset.range M, c' j * H t j ω + ∑ f ∈ Finset.range F, d' f * x t f ω)) =
      ∑ j ∈ Finset.range M, ∑ l ∈ Finset.range M, c j * c' l * S t j l + ∑ f ∈ Finset.range F, ∑ g ∈ Finset.range F, d f * d' g * Q t f g := by
    intro t ht hs c d c' d'
    have e1 := mean_mul_sum E M M c c' (H t) (H t)
    have e2 := mean_mul_sum E M F c d' (H t) (x t)
    have e3 := mean_mul_sum E F M d c' (x t) (H t)
    have e4 := mean_mul_sum E F F d d' (x t) (x t)
    rw [Finset.sum_congr rfl fun j hj => Finset.sum_congr rfl fun l hl => by
      rw [hs j l (Finset.mem_range.1 hj) (Finset.mem_range.1 hl)]] at e1
    rw [Finset.sum_eq_zero fun j hj => Finset.sum_eq_zero fun f hf => by
      rw [fresh t j t f le_rfl ht (Finset.mem_range.1 hj) (Finset.mem_range.1 hf), mul_zero]] at e2
    rw [Finset.sum_eq_zero fun f hf => Finset.sum_eq_zero fun j hj => by
      rw [show (fun ω => x t f ω * H t j ω) = fun ω => H t j ω * x t f ω from funext fun ω => mul_comm _ _,
        fresh t j t f le_rfl ht (Finset.mem_range.1 hj) (Finset.mem_range.1 hf), mul_zero]] at e3
    rw [Finset.sum_congr rfl fun f hf => Finset.sum_congr rfl fun g hg => by
      rw [white t t f g ht ht (Finset.mem_range.1 hf) (Finset.mem_range.1 hg), if_pos rfl]] at e4
    simp only [add_mul, mul_add]
    rw [mean_add, mean_add, mean_add, e1, e2, e3, e4]
    ring
  have cov : ∀ t, t ≤ N → ∀ m k, m < M → k < M → E (fun ω => H t m ω * H t k ω) = S t m k := by
    intro t
    induction t with
    | zero => intro _ m k hm hk; rw [h0 m k hm hk]
    | succ t ih =>
      intro ht m k hm hk
      rw [hS t m k (by omega) hm hk, ← read t (by omega) (ih (by omega)), next t m (by omega) hm, next t k (by omega) hk]
  exact ⟨cov N le_rfl, fun t ht => read t ht (cov t ht.le)⟩

/-- **C88, `lti.state_space`: covariances.** Let the samples of the signal be uncorrelated with each other and with the initial state
and let `Q` be the matrix of their correlations at one time.  The correlations of the state follow `S' = A S Aᵀ + B Q Bᵀ`, and those of
the output are `C S Cᵀ + D Q Dᵀ`. -/
theorem C88_covariance {B N M P F : Nat} (E : (Ω → α) →ₗ[α] α) (A Bm C D : Nat → Nat → Nat → α) (x : Ω → Nat → Nat → Nat → α)
    (z : Ω → Nat → Nat → α) (Q : Nat → Nat → Nat → α) (S : Nat → Nat → Nat → Nat → α) {u : Option Int} (hM : 0 < M) (hN : 0 < N)
    (hu : ∀ i, u = some i → 1 ≤ i)
    (white : ∀ b s t f g, b < B → s < N → t < N → f < F → g < F → E (fun ω => x ω b s f * x ω b t g) = if s = t then Q b f g else 0)
    (start : ∀ b t m f, b < B → t < N → m < M → f < F → E (fun ω => z ω b m * x ω b t f) = 0)
    (h0 : ∀ b m k, b < B → m < M → k < M → S b 0 m k = E fun ω => z ω b m * z ω b k)
    (hS : ∀ b t m k, b < B → m < M → k < M → S b (t + 1) m k =
      ∑ j ∈ Finset.range M, ∑ l ∈ Finset.range M, A b m j * A b k l * S b t j l +
        ∑ f ∈ Finset.range F, ∑ g ∈ Finset.range F, Bm b m f * Bm b k g * Q b f g) :
    ∃ (y : Ω → Nat → Nat → Nat → α) (s : Ω → Nat → Nat → α),
      (∀ ω, Lti.stateSpace (t3 B M M A) (t3 B N F (x ω)) (some (t3 B M F Bm)) (some (t3 B P M C)) (some (t3 B P F D))
        (some (t2 B M (z ω))) u none = .ok (t3 B N P (y ω), some (t2 B M (s ω)))) ∧
      (∀ b m k, b < B → m < M → k < M → E (fun ω => s ω b m * s ω b k) = S b N m k) ∧
      ∀ b t p q, b < B → t < N → E (fun ω => y ω b t p * y ω b t q) =
        ∑ j ∈ Finset.range M, ∑ l ∈ Finset.range M, C b p j * C b q l * S b t j l +
          ∑ f ∈ Finset.range F, ∑ g ∈ Finset.range F, D b p f * D b q g * Q b f g := by
  refine ⟨fun ω b t p => ∑ m ∈ Finset.range M, C b p m * vecRec M (fun _ => A b) (z ω b)
      (fun t k => ∑ f ∈ Finset.range F, Bm b k f * x ω b t f) t m + ∑ f ∈ Finset.range F, D b p f * x ω b t f,
    fun ω b m => vecRec M (fun _ => A b) (z ω b) (fun t k => ∑ f ∈ Finset.range F, Bm b k f * x ω b t f) N m,
    fun ω => Lti.stateSpace_eq (.batched A) (.batchMat F Bm (x ω)) (.batchMat P C) (.batchMat P F D (x ω)) (.full (z ω)) hM hN hu, ?_⟩
  have run := fun b (hb : b < B) => covariance_run (N := N) (M := M) (F := F) E (A := fun _ => A b) (Bm := fun _ => Bm b) (x := fun t f ω => x ω b t f)
    (H := fun t m ω => vecRec M (fun _ => A b) (z ω b) (fun t k => ∑ f ∈ Finset.range F, Bm b k f * x ω b t f) t m) (Q := fun _ => Q b) (S := S b)
    (fun t m _ _ => rfl) (fun s t f g => white b s t f g hb) (fun t m f => start b t m f hb) (fun m k => h0 b m k hb)
    (fun t m k _ => hS b t m k hb)
  exact ⟨fun b m k hb => (run b hb).1 m k, fun b t p q hb ht => (run b hb).2 t ht (C b p) (D b p) (C b q) (D b q)⟩

/-- A delay line of two samples filled with white noise stays so: `S = 1` at all times. -/
example := C88_covariance (B := 3) (N := 7) (M := 2) (P := 1) (F := 1) (u := some 2) (total 9) (fun _ m k => if m = k + 1 then 1 else 0)
  (fun _ m _ => if m = 0 then 1 else 0) (fun b _ k => (b : ℤ) + k) (fun _ _ _ => 5) (fun ω _ t _ => if ω.val = t then 1 else 0)
  (fun ω _ m => if ω.val = m + 7 then 1 else 0) (fun _ _ _ => 1) (fun _ _ m k => if m = k then 1 else 0) (by decide) (by decide)
  (by rintro i ⟨⟩; decide) (fun _ _ t _ _ _ hs _ _ _ => total_delta t (by omega))
  (fun _ t m _ _ ht hm _ => (total_delta t (by omega)).trans (if_neg (by omega)))
  (fun _ m k _ hm _ => by rw [total_delta (k + 7) (by omega)]; simp)
  (fun _ _ m k _ hm hk => by
    have : ∀ m, m < 2 → ∀ k, k < 2 → (if m = k then (1 : ℤ) else 0) =
      ∑ j ∈ Finset.range 2, ∑ l ∈ Finset.range 2, (if m = j + 1 then 1 else 0) * (if k = l + 1 then 1 else 0) * (if j = l then 1 else 0) +
        ∑ f ∈ Finset.range 1, ∑ g ∈ Finset.range 1, (if m = 0 then 1 else 0) * (if k = 0 then 1 else 0) * 1 := by decide
    exact this m hm k hk)

/-- **C88, `lpv.state_space`: covariances**, with matrices and correlations that change in time. -/
theorem C88_lpv_covariance {B N M P F : Nat} (E : (Ω → α) →ₗ[α] α) (A Bm C D : Nat → Nat → Nat → Nat → α) (x : Ω → Nat → Nat → Nat → α)
    (z : Ω → Nat → Nat → α) (Q : Nat → Nat → Nat → Nat → α) (S : Nat → Nat → Nat → Nat → α) {u : Option Int} (hB : 0 < B) (hM : 0 < M) (hN : 0 < N)
    (hu : FilterUnroll M N u)
    (white : ∀ b s t f g, b < B → s < N → t < N → f < F → g < F → E (fun ω => x ω b s f * x ω b t g) = if s = t then Q b t f g else 0)
    (start : ∀ b t m f, b < B → t < N → m < M → f < F → E (fun ω => z ω b m * x ω b t f) = 0)
    (h0 : ∀ b m k, b < B → m < M → k < M → S b 0 m k = E fun ω => z ω b m * z ω b k)
    (hS : ∀ b t m k, b < B → m < M → k < M → S b (t + 1) m k =
      ∑ j ∈ Finset.range M, ∑ l ∈ Finset.range M, A b t m j * A b t k l * S b t j l +
        ∑ f ∈ Finset.range F, ∑ g ∈ Finset.range F, Bm b t m f * Bm b t k g * Q b t f g) :
    ∃ (y : Ω → Nat → Nat → Nat → α) (s : Ω → Nat → Nat → α),
      (∀ ω, Lpv.stateSpace (t4 B N M M A) (t3 B N F (x ω)) (some (t4 B N M F Bm)) (some (t4 B N P M C)) (some (t4 B N P F D))
        (some (t2 B M (z ω))) u none = .ok (t3 B N P (y ω), some (t2 B M (s ω)))) ∧
      (∀ b m k, b < B → m < M → k < M → E (fun ω => s ω b m * s ω b k) = S b N m k) ∧
      ∀ b t p q, b < B → t < N → E (fun ω => y ω b t p * y ω b t q) =
        ∑ j ∈ Finset.range M, ∑ l ∈ Finset.range M, C b t p j * C b t q l * S b t j l +
          ∑ f ∈ Finset.range F, ∑ g ∈ Finset.range F, D b t p f * D b t q g * Q b t f g := by
  have code := fun ω => C09_state_space_partial (B := B) (.batched A) (.batchTimeMat F Bm (x ω)) (.batchTimeMat P C) (.batchTimeMat P F D (x ω))
    (.full (z ω)) hB hM hN hu
  choose s hs e using code
  simp only [signal, Option.isSome_some, if_pos] at e
  refine ⟨_, fun ω b m => s ω b N m, e, ?_⟩
  have run := fun b (hb : b < B) => covariance_run (N := N) (M := M) (F := F) E (A := A b) (Bm := Bm b) (x := fun t f ω => x ω b t f)
    (H := fun t m ω => s ω b t m) (Q := Q b) (S := S b) (fun t m _ _ => funext fun ω => (hs ω b m).2 t) (fun s t f g => white b s t f g hb)
    (fun t m f => by simp only [(hs _ b m).1]; exact start b t m f hb)
    (fun m k => by simp only [(hs _ b _).1]; exact h0 b m k hb) (fun t m k _ => hS b t m k hb)
  exact ⟨fun b m k hb => (run b hb).1 m k, fun b t p q hb ht => (run b hb).2 t ht (C b t p) (D b t p) (C b t q) (D b t q)⟩

example := C88_lpv_covariance (B := 3) (N := 7) (M := 2) (P := 1) (F := 1) (u := some 2) (total 9) (fun _ _ m k => if m = k + 1 then 1 else 0)
  (fun _ _ m _ => if m = 0 then 1 else 0) (fun b t _ k => (b : ℤ) + t * k) (fun _ t _ _ => t) (fun ω _ t _ => if ω.val = t then 1 else 0)
  (fun ω _ m => if ω.val = m + 7 then 1 else 0) (fun _ _ _ _ => 1) (fun _ _ m k => if m = k then 1 else 0) (by decide) (by decide) (by decide)
  (by unfold FilterUnroll GoodUnroll FewPrimes; decide +kernel) (fun _ _ t _ _ _ hs _ _ _ => total_delta t (by omega))
  (fun _ t m _ _ ht hm _ => (total_delta t (by omega)).trans (if_neg (by omega)))
  (fun _ m k _ hm _ => by rw [total_delta (k + 7) (by omega)]; simp)
  (fun _ _ m k _ hm hk => by
    have : ∀ m, m < 2 → ∀ k, k < 2 → (if m = k then (1 : ℤ) else 0) =
      ∑ j ∈ Finset.range 2, ∑ l ∈ Finset.range 2, (if m = j + 1 then 1 else 0) * (if k = l + 1 then 1 else 0) * (if j = l then 1 else 0) +
        ∑ f ∈ Finset.range 1, ∑ g ∈ Finset.range 1, (if m = 0 then 1 else 0) * (if k = 0 then 1 else 0) * 1 := by decide
    exact this m hm k hk)

end Props
