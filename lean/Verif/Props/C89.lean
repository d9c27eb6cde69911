import Verif.Props.C57

/-!
# C89: blocks of samples as one sample

A system that reads and writes `L` samples at a time: state, input and output matrices are
`A^L`, `(A^(L-1) B, …, A B, B)`, `(C, C A, …, C A^(L-1))` and the lower triangular matrix of `D, C B, C A B, …`.
-/

namespace Props
open Torch Torch.Tensor Spec Phil Matrix
open Phil.Lti (ok_pair)
variable {α : Type} [CommRing α]

/-- The columns `A^(L-1-j) B` for sample `j` of a block. -/
def blockIn (L M F : Nat) (A Bm : Nat → Nat → α) : Nat → Nat → α := fun m q => fm (mat M M A ^ (L - 1 - q / F) * mat M F Bm) m (q % F)

/-- The rows `C A^j` for sample `j` of a block. -/
def blockOut (M P : Nat) (A C : Nat → Nat → α) : Nat → Nat → α := fun r m => fm (mat P M C * mat M M A ^ (r / P)) (r % P) m

/-- From sample `i` to sample `j` of a block: nothing for `j < i`, `D` for `j = i`, `C A^(j-1-i) B` for `j > i`. -/
def blockThrough (M P F : Nat) (A Bm C D : Nat → Nat → α) : Nat → Nat → α := fun r q =>
  if r / P < q / F then 0 else if r / P = q / F then D (r % P) (q % F)
  else fm (mat P M C * mat M M A ^ (r / P - 1 - q / F) * mat M F Bm) (r % P) (q % F)

theorem fm_mulVec {M K : Nat} (X : Matrix (Fin M) (Fin K) α) (g : Nat → α) {m : Nat} (hm : m < M) :
    ∑ k ∈ Finset.range K, fm X m k * g k = (X *ᵥ vect K g) ⟨m, hm⟩ := by
  have h := congrFun (vect_sum (M := M) (F := K) (fm X) g) ⟨m, hm⟩
  rw [mat_fm] at h
  exact h

/-- The state `j` samples later. -/
theorem later_state {M F : Nat} (A Bm : Nat → Nat → α) (z : Nat → α) (x : Nat → Nat → α) (t j : Nat) :
    vect M (vecRec M (fun _ => A) z (fun t k => ∑ f ∈ Finset.range F, Bm k f * x t f) (t + j)) =
      mat M M A ^ j *ᵥ vect M (vecRec M (fun _ => A) z (fun t k => ∑ f ∈ Finset.range F, Bm k f * x t f) t) +
        ∑ k ∈ Finset.range j, (mat M M A ^ (j - 1 - k) * mat M F Bm) *ᵥ vect F (x (t + k)) := by
  rw [vecRec_add, vecRec_closed]
  refine congrArg₂ (· + ·) rfl (Finset.sum_congr rfl fun k _ => ?_)
  rw [vect_sum, mulVec_mulVec]

/-- The states of the system on blocks are every `L`-th state. -/
theorem block_state {L M F : Nat} (A Bm : Nat → Nat → α) (z : Nat → α) (x : Nat → Nat → α) (t : Nat) :
    ∀ m, m < M → vecRec M (fun _ => fm (mat M M A ^ L)) z
        (fun t k => ∑ q ∈ Finset.range (L * F), blockIn L M F A Bm k q * x (t * L + q / F) (q % F)) t m =
      vecRec M (fun _ => A) z (fun t k => ∑ f ∈ Finset.range F, Bm k f * x t f) (t * L) m := by
  induction t with
  | zero => intro m _; rw [Nat.zero_mul]; rfl
  | succ t ih =>
    intro m hm
    have e := congrFun (later_state (M := M) (F := F) A Bm z x (t * L) L) ⟨m, hm⟩
    rw [Nat.succ_mul]
    refine Eq.trans ?_ e.symm
    have g : ∑ k ∈ Finset.range M, fm (mat M M A ^ L) m k * vecRec M (fun _ => fm (mat M M A ^ L)) z
          (fun t k => ∑ q ∈ Finset.range (L * F), blockIn L M F A Bm k q * x (t * L + q / F) (q % F)) t k =
        ∑ k ∈ Finset.range M, fm (mat M M A ^ L) m k *
          vecRec M (fun _ => A) z (fun t k => ∑ f ∈ Finset.range F, Bm k f * x t f) (t * L) k :=
      Finset.sum_congr rfl fun k hk => by rw [ih k (Finset.mem_range.1 hk)]
    have g' : ∑ q ∈ Finset.range (L * F), blockIn L M F A Bm m q * x (t * L + q / F) (q % F) =
        ∑ k ∈ Finset.range L, ((mat M M A ^ (L - 1 - k) * mat M F Bm) *ᵥ vect F (x (t * L + k))) ⟨m, hm⟩ := by
      simp only [blockIn]
      rw [sum_range_mul_div L F fun j f => fm (mat M M A ^ (L - 1 - j) * mat M F Bm) m f * x (t * L + j) f]
      exact Finset.sum_congr rfl fun j _ => fm_mulVec _ _ hm
    rw [vecRec]
    beta_reduce
    rw [g, g', fm_mulVec _ _ hm, Pi.add_apply, Finset.sum_apply]

variable [StarRing α]

/-- **C89, `lti.state_space`.** Running on the samples one at a time or on blocks of `L` of them gives the same output samples and the
same final state. -/
theorem C89_blocks {B n L M P F : Nat} (A Bm C D x : Nat → Nat → Nat → α) (z : Nat → Nat → α) {u u' : Option Int} (hM : 0 < M) (hn : 0 < n)
    (hL : 0 < L) (hu : ∀ i, u = some i → 1 ≤ i) (hu' : ∀ i, u' = some i → 1 ≤ i) :
    ∃ (y : Nat → Nat → Nat → α) (f : Tensor α),
      Lti.stateSpace (t3 B M M A) (t3 B (n * L) F x) (some (t3 B M F Bm)) (some (t3 B P M C)) (some (t3 B P F D)) (some (t2 B M z)) u none =
        .ok (t3 B (n * L) P y, some f) ∧
      Lti.stateSpace (t3 B M M fun b => fm (mat M M (A b) ^ L)) (t3 B n (L * F) fun b t q => x b (t * L + q / F) (q % F))
        (some (t3 B M (L * F) fun b => blockIn L M F (A b) (Bm b))) (some (t3 B (L * P) M fun b => blockOut M P (A b) (C b)))
        (some (t3 B (L * P) (L * F) fun b => blockThrough M P F (A b) (Bm b) (C b) (D b))) (some (t2 B M z)) u' none =
        .ok (t3 B n (L * P) fun b t r => y b (t * L + r / P) (r % P), some f) := by
  refine ⟨fun b t p => ∑ m ∈ Finset.range M, C b p m * vecRec M (fun _ => A b) (z b)
      (fun t k => ∑ f ∈ Finset.range F, Bm b k f * x b t f) t m + ∑ f ∈ Finset.range F, D b p f * x b t f,
    t2 B M fun b m => vecRec M (fun _ => A b) (z b) (fun t k => ∑ f ∈ Finset.range F, Bm b k f * x b t f) (n * L) m,
    Lti.stateSpace_eq (.batched A) (.batchMat F Bm x) (.batchMat P C) (.batchMat P F D x) (.full z) hM (Nat.mul_pos hn hL) hu,
    (Lti.stateSpace_eq (.batched _) (.batchMat (L * F) _ _) (.batchMat (L * P) _) (.batchMat (L * P) (L * F) _ _) (.full z) hM hn hu').trans
      (ok_pair ?_ (congrArg some (t2_congr rfl rfl fun b m _ hm => block_state _ _ _ _ _ m hm)))⟩
  rw [signal]
  refine t3_congr rfl rfl rfl fun b t r _ _ hr => ?_
  have hP : 0 < P := Nat.pos_of_ne_zero fun h => by rw [h, Nat.mul_zero] at hr; omega
  have hp : r % P < P := Nat.mod_lt _ hP
  have hj : r / P < L := Nat.div_lt_of_lt_mul (by rwa [Nat.mul_comm])
  -- the samples of a block before, at and after the present one
  have through : ∑ q ∈ Finset.range (L * F), blockThrough M P F (A b) (Bm b) (C b) (D b) r q * x b (t * L + q / F) (q % F) =
      (∑ k ∈ Finset.range (r / P), ((mat P M (C b) * mat M M (A b) ^ (r / P - 1 - k) * mat M F (Bm b)) *ᵥ vect F (x b (t * L + k))) ⟨r % P, hp⟩) +
        ∑ f ∈ Finset.range F, D b (r % P) f * x b (t * L + r / P) f := by
    simp only [blockThrough]
    generalize r / P = j at *
    rw [sum_range_mul_div L F fun i f => (if j < i then 0 else if j = i then D b (r % P) f
      else fm (mat P M (C b) * mat M M (A b) ^ (j - 1 - i) * mat M F (Bm b)) (r % P) f) * x b (t * L + i) f]
    obtain ⟨d, rfl⟩ : ∃ d, L = j + 1 + d := ⟨L - (j + 1), by omega⟩
    rw [Finset.sum_range_add, Finset.sum_range_succ,
      Finset.sum_eq_zero (s := Finset.range d) fun i _ => Finset.sum_eq_zero fun f _ => by rw [if_pos (by omega), zero_mul], add_zero]
    refine congrArg₂ (· + ·) (Finset.sum_congr rfl fun k hk => ?_) (Finset.sum_congr rfl fun f _ => ?_)
    · have hk := Finset.mem_range.1 hk
      rw [← fm_mulVec _ _ hp]
      exact Finset.sum_congr rfl fun f _ => by rw [if_neg (by omega), if_neg (by omega)]
    · rw [if_neg (by omega), if_pos rfl]
  have state : ∑ m ∈ Finset.range M, blockOut M P (A b) (C b) r m * vecRec M (fun _ => fm (mat M M (A b) ^ L)) (z b)
      (fun t k => ∑ q ∈ Finset.range (L * F), blockIn L M F (A b) (Bm b) k q * x b (t * L + q / F) (q % F)) t m =
      ((mat P M (C b) * mat M M (A b) ^ (r / P)) *ᵥ
        vect M (vecRec M (fun _ => A b) (z b) (fun t k => ∑ f ∈ Finset.range F, Bm b k f * x b t f) (t * L))) ⟨r % P, hp⟩ := by
    rw [← fm_mulVec _ _ hp]
    exact Finset.sum_congr rfl fun m hm => by rw [block_state (A b) (Bm b) (z b) (x b) t m (Finset.mem_range.1 hm), blockOut]
  have plain : ∑ m ∈ Finset.range M, C b (r % P) m * vecRec M (fun _ => A b) (z b)
      (fun t k => ∑ f ∈ Finset.range F, Bm b k f * x b t f) (t * L + r / P) m = (mat P M (C b) *ᵥ vect M (vecRec M (fun _ => A b) (z b)
        (fun t k => ∑ f ∈ Finset.range F, Bm b k f * x b t f) (t * L + r / P))) ⟨r % P, hp⟩ :=
    congrFun (vect_sum (M := P) (F := M) (C b) _) ⟨r % P, hp⟩
  rw [state, through]
  beta_reduce
  rw [plain, later_state, mulVec_add, mulVec_mulVec, mulVec_sum, Pi.add_apply, Finset.sum_apply, add_assoc]
  refine congrArg₂ (· + ·) rfl (congrArg₂ (· + ·) (Finset.sum_congr rfl fun k _ => ?_) rfl)
  rw [mulVec_mulVec, Matrix.mul_assoc]

example := C89_blocks (B := 3) (n := 2) (L := 4) (M := 2) (P := 3) (F := 2) (u := none) (u' := some 2) (fun b i j => (b : ℤ) + i * j) (fun b i j => b - i * j)
  (fun b i j => b * i + j) (fun _ i j => i - j) (fun b t f => b + t * f) (fun b m => b - m) (by decide) (by decide) (by decide) (by simp)
  (by rintro i ⟨⟩; decide)

end Props
