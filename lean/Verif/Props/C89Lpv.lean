import Verif.Props.C89
import Verif.Props.C86

/-!
# C89 for time-varying systems

`lpv.state_space` on blocks of samples.  Powers of `A` become products `A_{t-1} … A_k` (`Spec.transition`).
-/

namespace Props
open Torch Torch.Tensor Spec Phil Matrix
open Phil.Lti (ok_pair)
variable {α : Type} [CommRing α]

/-- The product of the matrices of block `t` from sample `k` up to sample `j` of the block. -/
def within (L M : Nat) (A : Nat → Nat → Nat → α) (t k j : Nat) : Matrix (Fin M) (Fin M) α := transition (fun s => mat M M (A (t * L + s))) k j

/-- The columns for sample `j` of block `t`: `A_{L-1} … A_{j+1} B_j`. -/
def blockInTv (L M F : Nat) (A Bm : Nat → Nat → Nat → α) : Nat → Nat → Nat → α := fun t m q =>
  fm (within L M A t (q / F + 1) L * mat M F (Bm (t * L + q / F))) m (q % F)

/-- The rows for sample `j` of block `t`: `C_j A_{j-1} … A_0`. -/
def blockOutTv (L M P : Nat) (A C : Nat → Nat → Nat → α) : Nat → Nat → Nat → α := fun t r m =>
  fm (mat P M (C (t * L + r / P)) * within L M A t 0 (r / P)) (r % P) m

/-- From sample `i` to sample `j` of block `t`: nothing for `j < i`, `D_j` for `j = i`, `C_j A_{j-1} … A_{i+1} B_i` for `j > i`. -/
def blockThroughTv (L M P F : Nat) (A Bm C D : Nat → Nat → Nat → α) : Nat → Nat → Nat → α := fun t r q =>
  if r / P < q / F then 0 else if r / P = q / F then D (t * L + r / P) (r % P) (q % F)
  else fm (mat P M (C (t * L + r / P)) * within L M A t (q / F + 1) (r / P) * mat M F (Bm (t * L + q / F))) (r % P) (q % F)

/-- The state `j` samples into block `t`. -/
theorem later_state_tv {L M F : Nat} (A Bm : Nat → Nat → Nat → α) (z : Nat → α) (x : Nat → Nat → α) (t j : Nat) :
    vect M (vecRec M A z (fun t k => ∑ f ∈ Finset.range F, Bm t k f * x t f) (t * L + j)) =
      within L M A t 0 j *ᵥ vect M (vecRec M A z (fun t k => ∑ f ∈ Finset.range F, Bm t k f * x t f) (t * L)) +
        ∑ k ∈ Finset.range j, (within L M A t (k + 1) j * mat M F (Bm (t * L + k))) *ᵥ vect F (x (t * L + k)) := by
  rw [vecRec_add, vecRec_transition]
  refine congrArg₂ (· + ·) rfl (Finset.sum_congr rfl fun k _ => ?_)
  rw [vect_sum, mulVec_mulVec]
  rfl

/-- The states of the system on blocks are every `L`-th state. -/
theorem block_state_tv {L M F : Nat} (A Bm : Nat → Nat → Nat → α) (z : Nat → α) (x : Nat → Nat → α) (t : Nat) :
    ∀ m, m < M → vecRec M (fun t => fm (within L M A t 0 L)) z
        (fun t k => ∑ q ∈ Finset.range (L * F), blockInTv L M F A Bm t k q * x (t * L + q / F) (q % F)) t m =
      vecRec M A z (fun t k => ∑ f ∈ Finset.range F, Bm t k f * x t f) (t * L) m := by
  induction t with
  | zero => intro m _; rw [Nat.zero_mul]; rfl
  | succ t ih =>
    intro m hm
    have e := congrFun (later_state_tv (L := L) (M := M) (F := F) A Bm z x t L) ⟨m, hm⟩
    rw [Nat.succ_mul]
    refine Eq.trans ?_ e.symm
    have g : ∑ k ∈ Finset.range M, fm (within L M A t 0 L) m k * vecRec M (fun t => fm (within L M A t 0 L)) z
          (fun t k => ∑ q ∈ Finset.range (L * F), blockInTv L M F A Bm t k q * x (t * L + q / F) (q % F)) t k =
        ∑ k ∈ Finset.range M, fm (within L M A t 0 L) m k *
          vecRec M A z (fun t k => ∑ f ∈ Finset.range F, Bm t k f * x t f) (t * L) k :=
      Finset.sum_congr rfl fun k hk => by rw [ih k (Finset.mem_range.1 hk)]
    have g' : ∑ q ∈ Finset.range (L * F), blockInTv L M F A Bm t m q * x (t * L + q / F) (q % F) =
        ∑ k ∈ Finset.range L, ((within L M A t (k + 1) L * mat M F (Bm (t * L + k))) *ᵥ vect F (x (t * L + k))) ⟨m, hm⟩ := by
      simp only [blockInTv]
      rw [sum_range_mul_div L F fun j f => fm (within L M A t (j + 1) L * mat M F (Bm (t * L + j))) m f * x (t * L + j) f]
      exact Finset.sum_congr rfl fun j _ => fm_mulVec _ _ hm
    rw [vecRec]
    beta_reduce
    rw [g, g', fm_mulVec _ _ hm, Pi.add_apply, Finset.sum_apply]

variable [StarRing α]

/-- `lpv.state_space` with the states written as a recursion. -/
theorem lpv_state_space_eq {B N M P F : Nat} (A Bm C D : Nat → Nat → Nat → Nat → α) (x : Nat → Nat → Nat → α) (z : Nat → Nat → α) {u : Option Int}
    (hB : 0 < B) (hM : 0 < M) (hN : 0 < N) (hu : FilterUnroll M N u) :
    Lpv.stateSpace (t4 B N M M A) (t3 B N F x) (some (t4 B N M F Bm)) (some (t4 B N P M C)) (some (t4 B N P F D)) (some (t2 B M z)) u none =
      .ok (t3 B N P fun b t p => ∑ m ∈ Finset.range M, C b t p m * vecRec M (A b) (z b) (fun t k => ∑ f ∈ Finset.range F, Bm b t k f * x b t f) t m +
          ∑ f ∈ Finset.range F, D b t p f * x b t f,
        some (t2 B M fun b m => vecRec M (A b) (z b) (fun t k => ∑ f ∈ Finset.range F, Bm b t k f * x b t f) N m)) := by
  obtain ⟨s, hs, e⟩ := C09_state_space_partial (B := B) (.batched A) (.batchTimeMat F Bm x) (.batchTimeMat P C) (.batchTimeMat P F D x) (.full z) hB hM hN hu
  have hv : s = fun b => vecRec M (A b) (z b) (fun t k => ∑ f ∈ Finset.range F, Bm b t k f * x b t f) := by
    funext b t
    induction t with
    | zero => funext m; exact (hs b m).1
    | succ t ih => funext m; rw [(hs b m).2 t, ih]; rfl
  rw [hv] at e
  exact e

/-- **C89, `lpv.state_space`.** Running on the samples one at a time or on blocks of `L` of them gives the same output samples and the
same final state, for the unroll factors of C07. -/
theorem C89_lpv_blocks {B n L M P F : Nat} (A Bm C D : Nat → Nat → Nat → Nat → α) (x : Nat → Nat → Nat → α) (z : Nat → Nat → α) {u u' : Option Int}
    (hB : 0 < B) (hM : 0 < M) (hn : 0 < n) (hL : 0 < L) (hu : FilterUnroll M (n * L) u) (hu' : FilterUnroll M n u') :
    ∃ (y : Nat → Nat → Nat → α) (f : Tensor α),
      Lpv.stateSpace (t4 B (n * L) M M A) (t3 B (n * L) F x) (some (t4 B (n * L) M F Bm)) (some (t4 B (n * L) P M C)) (some (t4 B (n * L) P F D))
        (some (t2 B M z)) u none = .ok (t3 B (n * L) P y, some f) ∧
      Lpv.stateSpace (t4 B n M M fun b t => fm (within L M (A b) t 0 L)) (t3 B n (L * F) fun b t q => x b (t * L + q / F) (q % F))
        (some (t4 B n M (L * F) fun b => blockInTv L M F (A b) (Bm b))) (some (t4 B n (L * P) M fun b => blockOutTv L M P (A b) (C b)))
        (some (t4 B n (L * P) (L * F) fun b => blockThroughTv L M P F (A b) (Bm b) (C b) (D b))) (some (t2 B M z)) u' none =
        .ok (t3 B n (L * P) fun b t r => y b (t * L + r / P) (r % P), some f) := by
  refine ⟨_, _, lpv_state_space_eq A Bm C D x z hB hM (Nat.mul_pos hn hL) hu, (lpv_state_space_eq _ _ _ _ _ z hB hM hn hu').trans
    (ok_pair (t3_congr rfl rfl rfl fun b t r _ _ hr => ?_) (congrArg some (t2_congr rfl rfl fun b m _ hm => block_state_tv _ _ _ _ _ m hm)))⟩
  have hP : 0 < P := Nat.pos_of_ne_zero fun h => by rw [h, Nat.mul_zero] at hr; omega
  have hp : r % P < P := Nat.mod_lt _ hP
  have hj : r / P < L := Nat.div_lt_of_lt_mul (by rwa [Nat.mul_comm])
  -- the samples of a block before, at and after the present one
  have through : ∑ q ∈ Finset.range (L * F), blockThroughTv L M P F (A b) (Bm b) (C b) (D b) t r q * x b (t * L + q / F) (q % F) =
      (∑ k ∈ Finset.range (r / P), ((mat P M (C b (t * L + r / P)) * within L M (A b) t (k + 1) (r / P) * mat M F (Bm b (t * L + k))) *ᵥ
          vect F (x b (t * L + k))) ⟨r % P, hp⟩) +
        ∑ f ∈ Finset.range F, D b (t * L + r / P) (r % P) f * x b (t * L + r / P) f := by
    simp only [blockThroughTv]
    rw [sum_range_mul_div L F fun i f => (if r / P < i then 0 else if r / P = i then D b (t * L + r / P) (r % P) f
      else fm (mat P M (C b (t * L + r / P)) * within L M (A b) t (i + 1) (r / P) * mat M F (Bm b (t * L + i))) (r % P) f) * x b (t * L + i) f]
    have split : ∀ g : Nat → α, (∀ i, r / P < i → g i = 0) → ∑ i ∈ Finset.range L, g i = ∑ i ∈ Finset.range (r / P), g i + g (r / P) := by
      intro g hg
      obtain ⟨d, hd⟩ : ∃ d, L = r / P + 1 + d := ⟨L - (r / P + 1), by omega⟩
      rw [hd, Finset.sum_range_add, Finset.sum_range_succ, Finset.sum_eq_zero (s := Finset.range d) fun i _ => hg _ (by omega), add_zero]
    rw [split _ fun i hi => Finset.sum_eq_zero fun f _ => by rw [if_pos hi, zero_mul]]
    refine congrArg₂ (· + ·) (Finset.sum_congr rfl fun k hk => ?_) (Finset.sum_congr rfl fun f _ => ?_)
    · have hk := Finset.mem_range.1 hk
      rw [← fm_mulVec _ _ hp]
      exact Finset.sum_congr rfl fun f _ => by rw [if_neg (by omega), if_neg (by omega)]
    · rw [if_neg (by omega), if_pos rfl]
  have state : ∑ m ∈ Finset.range M, blockOutTv L M P (A b) (C b) t r m * vecRec M (fun t => fm (within L M (A b) t 0 L)) (z b)
      (fun t k => ∑ q ∈ Finset.range (L * F), blockInTv L M F (A b) (Bm b) t k q * x b (t * L + q / F) (q % F)) t m =
      ((mat P M (C b (t * L + r / P)) * within L M (A b) t 0 (r / P)) *ᵥ
        vect M (vecRec M (A b) (z b) (fun t k => ∑ f ∈ Finset.range F, Bm b t k f * x b t f) (t * L))) ⟨r % P, hp⟩ := by
    rw [← fm_mulVec _ _ hp]
    exact Finset.sum_congr rfl fun m hm => by rw [block_state_tv (A b) (Bm b) (z b) (x b) t m (Finset.mem_range.1 hm), blockOutTv]
  have plain : ∑ m ∈ Finset.range M, C b (t * L + r / P) (r % P) m * vecRec M (A b) (z b)
      (fun t k => ∑ f ∈ Finset.range F, Bm b t k f * x b t f) (t * L + r / P) m = (mat P M (C b (t * L + r / P)) *ᵥ vect M (vecRec M (A b) (z b)
        (fun t k => ∑ f ∈ Finset.range F, Bm b t k f * x b t f) (t * L + r / P))) ⟨r % P, hp⟩ :=
    congrFun (vect_sum (M := P) (F := M) (C b (t * L + r / P)) _) ⟨r % P, hp⟩
  rw [state, through, plain, later_state_tv, mulVec_add, mulVec_mulVec, mulVec_sum, Pi.add_apply, Finset.sum_apply, add_assoc]
  refine congrArg₂ (· + ·) rfl (congrArg₂ (· + ·) (Finset.sum_congr rfl fun k _ => ?_) rfl)
  rw [mulVec_mulVec, Matrix.mul_assoc]

example := C89_lpv_blocks (B := 3) (n := 2) (L := 4) (M := 2) (P := 3) (F := 2) (u := none) (u' := some 2) (fun b t i j => (b : ℤ) + t + i * j)
  (fun b t i j => b * t - i * j) (fun b t i j => b * i + t * j) (fun _ t i j => t * i - j) (fun b t f => b + t * f) (fun b m => b - m) (by decide) (by decide)
  (by decide) (by decide) (by unfold FilterUnroll GoodUnroll FewPrimes; decide +kernel) (by unfold FilterUnroll GoodUnroll FewPrimes; decide +kernel)

end Props
