import Verif.Proof.ClosedForm
import Verif.Proof.Stream
import Verif.Proof.LpvUnroll
import Verif.Proof.LtiFiltfilt
import Verif.Props.C58
import Mathlib.LinearAlgebra.Matrix.ToLinearEquiv
import Mathlib.LinearAlgebra.Matrix.Charpoly.Eigs
import Mathlib.FieldTheory.IsAlgClosed.Spectrum
import Mathlib.LinearAlgebra.Matrix.NonsingularInverse

/-!
# C82 for state-space models

`lti.state_space` and `lpv.state_space` with a signal (and, for the second, matrices) of period `L`.
-/

namespace Props
open Torch Torch.Tensor Spec Phil Matrix

section ring
variable {α : Type} [CommRing α]

/-- The states have period `L` if they return once. -/
theorem vecRec_periodic {M L : Nat} {A : Nat → Nat → Nat → α} {z : Nat → α} {v : Nat → Nat → α} (hA : ∀ t i k, A (t + L) i k = A t i k)
    (hv : ∀ t m, v (t + L) m = v t m) (hz : ∀ m, m < M → vecRec M A z v L m = z m) (t : Nat) {m : Nat} (hm : m < M) :
    vecRec M A z v (t + L) m = vecRec M A z v t m := by
  rw [Nat.add_comm, vecRec_add]
  exact vecRec_congr hz (fun s _ i k _ _ => by rw [Nat.add_comm, hA]) (fun s _ i _ => by rw [Nat.add_comm, hv]) hm

theorem transition_const {M : Nat} (A : Matrix (Fin M) (Fin M) α) (t : Nat) : transition (fun _ => A) 0 t = A ^ t := by
  induction t with
  | zero => rfl
  | succ t ih => rw [transition, if_neg (by omega), ih, pow_succ']

theorem t2_eq_iff {B M : Nat} {f g : Nat → Nat → α} : t2 B M f = t2 B M g ↔ ∀ b m, b < B → m < M → f b m = g b m := by
  refine ⟨fun h b m hb hm => ?_, fun h => t2_congr rfl rfl h⟩
  have := congrArg (fun T : Tensor α => T.get [b, m]) h
  rwa [get_t2 hb hm, get_t2 hb hm] at this

variable [StarRing α]

/-- **C82, `lti.state_space`** (any ring): if the signal has period `L` and a call with one period returns the initial state, then the
output for any number of samples has period `L`. -/
theorem C82_state_space_periodic {B M P F L : Nat} {A Bm C D x : Nat → Nat → Nat → α} {z : Nat → Nat → α} {y0 : Tensor α}
    {u0 : Option Int} (hM : 0 < M) (hL : 0 < L) (hx : ∀ b t f, x b (t + L) f = x b t f) (hu0 : ∀ i, u0 = some i → 1 ≤ i)
    (h : Lti.stateSpace (t3 B M M A) (t3 B L F x) (some (t3 B M F Bm)) (some (t3 B P M C)) (some (t3 B P F D)) (some (t2 B M z)) u0 none
      = .ok (y0, some (t2 B M z))) :
    ∃ y : Nat → Nat → Nat → α, (∀ b t p, b < B → y b (t + L) p = y b t p) ∧
      ∀ (N : Nat) (u : Option Int), 0 < N → (∀ i, u = some i → 1 ≤ i) →
        ∃ zf, Lti.stateSpace (t3 B M M A) (t3 B N F x) (some (t3 B M F Bm)) (some (t3 B P M C)) (some (t3 B P F D)) (some (t2 B M z)) u
          none = .ok (t3 B N P y, some zf) := by
  have e := fun (N : Nat) (u : Option Int) (hN : 0 < N) hu =>
    Lti.stateSpace_eq (B := B) (u := u) (.batched A) (.batchMat (N := N) F Bm x) (.batchMat P C) (.batchMat P F D x) (.full z) hM hN hu
  rw [e L u0 hL hu0] at h
  have h := t2_eq_iff.1 (Option.some.inj (congrArg Prod.snd (Except.ok.inj h)))
  refine ⟨fun b t p => ∑ m ∈ Finset.range M, C b p m * vecRec M (fun _ => A b) (z b)
      (fun t k => ∑ f ∈ Finset.range F, Bm b k f * x b t f) t m + ∑ f ∈ Finset.range F, D b p f * x b t f,
    fun b t p hb => ?_, fun N u hN hu => ⟨_, e N u hN hu⟩⟩
  dsimp only
  refine congrArg₂ (· + ·) (Finset.sum_congr rfl fun m hm => congrArg _ ?_) (Finset.sum_congr rfl fun f _ => by rw [hx])
  exact vecRec_periodic (fun _ _ _ => rfl) (fun t m => Finset.sum_congr rfl fun f _ => by rw [hx]) (h b · hb) t (Finset.mem_range.1 hm)

/-- `h' = -h + x`, `y = h + x` with `x = 1, 1, 1, …`: the state goes from 0 to 1 and back to 0. -/
example := C82_state_space_periodic (α := ℤ) (B := 1) (M := 1) (P := 1) (F := 1) (L := 2) (A := fun _ _ _ => -1) (Bm := fun _ _ _ => 1)
  (C := fun _ _ _ => 1) (D := fun _ _ _ => 1) (x := fun _ _ _ => 1) (z := fun _ _ => 0) (u0 := some 1) (by decide) (by decide)
  (fun _ _ _ => rfl) (by rintro i ⟨⟩; decide)
  ((Lti.stateSpace_eq (.batched fun _ _ _ => -1) (.batchMat 1 (fun _ _ _ => 1) fun _ _ _ => 1) (.batchMat 1 fun _ _ _ => 1)
    (.batchMat 1 1 (fun _ _ _ => 1) fun _ _ _ => 1) (.full fun _ _ => 0) (by decide) (by decide) (by rintro i ⟨⟩; decide)).trans
    (Lti.ok_pair rfl (congrArg some (t2_congr (α := ℤ) rfl rfl fun b m _ _ => by simp [vecRec]))))

/-- **C82, `lpv.state_space`**: the same with matrices of period `L`, for the unroll factors for which the
blocked recursion is correct (C07). -/
theorem C82_lpv_state_space_periodic {B M P F L : Nat} {A Bm C D : Nat → Nat → Nat → Nat → α} {x : Nat → Nat → Nat → α}
    {z : Nat → Nat → α} {y0 : Tensor α} {u0 : Option Int} (hB : 0 < B) (hM : 0 < M) (hL : 0 < L)
    (hA : ∀ b t i k, A b (t + L) i k = A b t i k) (hBm : ∀ b t i k, Bm b (t + L) i k = Bm b t i k)
    (hC : ∀ b t i k, C b (t + L) i k = C b t i k) (hD : ∀ b t i k, D b (t + L) i k = D b t i k)
    (hx : ∀ b t f, x b (t + L) f = x b t f) (hu0 : FilterUnroll M L u0)
    (h : Lpv.stateSpace (t4 B L M M A) (t3 B L F x) (some (t4 B L M F Bm)) (some (t4 B L P M C)) (some (t4 B L P F D)) (some (t2 B M z))
      u0 none = .ok (y0, some (t2 B M z))) :
    ∃ y : Nat → Nat → Nat → α, (∀ b t p, b < B → y b (t + L) p = y b t p) ∧
      ∀ (N : Nat) (u : Option Int), 0 < N → FilterUnroll M N u →
        ∃ zf, Lpv.stateSpace (t4 B N M M A) (t3 B N F x) (some (t4 B N M F Bm)) (some (t4 B N P M C)) (some (t4 B N P F D))
          (some (t2 B M z)) u none = .ok (t3 B N P y, some zf) := by
  have e := fun (N : Nat) (u : Option Int) (hN : 0 < N) hu =>
    Lpv.stateSpace_filter (B := B) (u := u) (.batched (N := N) A) (.batchTimeMat F Bm x) (.batchTimeMat P C) (.batchTimeMat P F D x) (.full z) hB hM hN hu
  rw [e L u0 hL hu0] at h
  have h := t2_eq_iff.1 (Option.some.inj (congrArg Prod.snd (Except.ok.inj h)))
  refine ⟨fun b t p => ∑ m ∈ Finset.range M, C b t p m * vecRec M (A b) (z b)
      (fun t k => ∑ f ∈ Finset.range F, Bm b t k f * x b t f) t m + ∑ f ∈ Finset.range F, D b t p f * x b t f,
    fun b t p hb => ?_, fun N u hN hu => ⟨_, e N u hN hu⟩⟩
  dsimp only
  refine congrArg₂ (· + ·) (Finset.sum_congr rfl fun m hm => congrArg₂ _ (hC ..) ?_) (Finset.sum_congr rfl fun f _ => by rw [hx, hD])
  exact vecRec_periodic (hA b) (fun t m => Finset.sum_congr rfl fun f _ => by rw [hx, hBm]) (h b · hb) t (Finset.mem_range.1 hm)

/-- `h' = a_t h + 1` with `a = 1, -1, 1, -1, …`: the state goes from 0 to 1 and back to 0. -/
example := C82_lpv_state_space_periodic (α := ℤ) (B := 1) (M := 1) (P := 1) (F := 1) (L := 2)
  (A := fun _ t _ _ => if t % 2 = 0 then 1 else -1) (Bm := fun _ _ _ _ => 1) (C := fun _ _ _ _ => 1) (D := fun _ _ _ _ => 1)
  (x := fun _ _ _ => 1) (z := fun _ _ => 0) (u0 := some 1) (by decide) (by decide) (by decide) (fun _ t _ _ => by simp)
  (fun _ _ _ _ => rfl) (fun _ _ _ _ => rfl) (fun _ _ _ _ => rfl) (fun _ _ _ => rfl) (Or.inl ⟨by decide, Or.inl (by decide)⟩)
  ((Lpv.stateSpace_filter (.batched fun _ t _ _ => if t % 2 = 0 then 1 else -1) (.batchTimeMat 1 (fun _ _ _ _ => 1) fun _ _ _ => 1)
    (.batchTimeMat 1 fun _ _ _ _ => 1) (.batchTimeMat 1 1 (fun _ _ _ _ => 1) fun _ _ _ => 1) (.full fun _ _ => 0) (by decide) (by decide)
    (by decide) (Or.inl ⟨by decide, Or.inl (by decide)⟩)).trans
    (Lti.ok_pair rfl (congrArg some (t2_congr (α := ℤ) rfl rfl fun b m _ _ => by simp [vecRec]))))

end ring

section field
variable {α : Type} [Field α]

/-- Exactly one fixed point of `z ↦ Φ z + c`. -/
theorem fixed_unique {M B : Nat} (Φ : Nat → Matrix (Fin M) (Fin M) α) (c : Nat → Fin M → α) :
    (∃ z : Nat → Nat → α, ∀ z' : Nat → Nat → α, (∀ b, b < B → Φ b *ᵥ vect M (z' b) + c b = vect M (z' b)) ↔
      ∀ b m, b < B → m < M → z' b m = z b m) ↔ ∀ b, b < B → (1 - Φ b).det ≠ 0 := by
  have ext : ∀ f g : Nat → α, vect M f = vect M g ↔ ∀ m, m < M → f m = g m := fun f g =>
    ⟨fun h m hm => congrFun h ⟨m, hm⟩, fun h => funext fun m => h m m.2⟩
  have lift : ∀ w : Fin M → α, ∃ f : Nat → α, vect M f = w := fun w =>
    ⟨fun m => if h : m < M then w ⟨m, h⟩ else 0, funext fun m => by simp [vect]⟩
  constructor
  · rintro ⟨z, h⟩ b hb hdet
    obtain ⟨w, hw, e⟩ := Matrix.exists_mulVec_eq_zero_iff.2 hdet
    obtain ⟨d, rfl⟩ := lift w
    rw [sub_mulVec, one_mulVec, sub_eq_zero] at e
    have hz := (h z).2 fun _ _ _ _ => rfl
    have := (h fun i m => if i = b then z i m + d m else z i m).1 fun i hi => by
      by_cases k : i = b
      · subst k
        have s : vect M (fun m => if i = i then z i m + d m else z i m) = vect M (z i) + vect M d := funext fun m => by simp [vect]
        rw [s, mulVec_add, ← e, add_right_comm, hz i hi]
      · simp only [if_neg k]; exact hz i hi
    refine hw (funext fun m => ?_)
    have := this b m hb m.2
    simpa [vect] using this
  · intro h
    choose z hz using fun b => lift ((1 - Φ b)⁻¹ *ᵥ c b)
    refine ⟨z, fun z' => ?_⟩
    have one : ∀ b, b < B → (Φ b *ᵥ vect M (z' b) + c b = vect M (z' b) ↔ vect M (z' b) = vect M (z b)) := fun b hb => by
      have u : IsUnit (1 - Φ b).det := (h b hb).isUnit
      rw [hz]
      constructor
      · intro e
        have : (1 - Φ b) *ᵥ vect M (z' b) = c b := by
          rw [sub_mulVec, one_mulVec, sub_eq_iff_eq_add, add_comm]; exact e.symm
        rw [← this, mulVec_mulVec, nonsing_inv_mul _ u, one_mulVec]
      · intro e
        have : (1 - Φ b) *ᵥ vect M (z' b) = c b := by rw [e, mulVec_mulVec, mul_nonsing_inv _ u, one_mulVec]
        rw [sub_mulVec, one_mulVec, sub_eq_iff_eq_add, add_comm] at this
        exact this.symm
    exact ⟨fun e b m hb => (ext _ _).1 ((one b hb).1 (e b hb)) m, fun e b hb => (one b hb).2 ((ext _ _).2 fun m => e b m hb)⟩

theorem returns_iff {M B L : Nat} (A : Nat → Nat → Nat → Nat → α) (v : Nat → Nat → Nat → α) (z : Nat → Nat → α) :
    (t2 B M (fun b m => vecRec M (A b) (z b) (v b) L m) = t2 B M z) ↔
      ∀ b, b < B → transition (fun t => mat M M (A b t)) 0 L *ᵥ vect M (z b) +
        ∑ k ∈ Finset.range L, transition (fun t => mat M M (A b t)) (k + 1) L *ᵥ vect M (v b k) = vect M (z b) := by
  rw [t2_eq_iff]
  refine ⟨fun h b hb => ?_, fun h b m hb hm => ?_⟩
  · rw [← vecRec_transition]; exact funext fun m => h b m hb m.2
  · have := h b hb
    rw [← vecRec_transition] at this
    exact congrFun this ⟨m, hm⟩

variable [StarRing α]

/-- **C82, `lti.state_space`, steady state** (any field): exactly one state returns after `L` samples just when `I - A^L` has nonzero
determinant for every batch item, whatever the signal. -/
theorem C82_state_space_steady_state {B M P F L : Nat} (A Bm C D x : Nat → Nat → Nat → α) {u : Option Int} (hM : 0 < M) (hL : 0 < L)
    (hu : ∀ i, u = some i → 1 ≤ i) :
    (∃ z : Nat → Nat → α, ∀ z' : Nat → Nat → α,
      (∃ y, Lti.stateSpace (t3 B M M A) (t3 B L F x) (some (t3 B M F Bm)) (some (t3 B P M C)) (some (t3 B P F D)) (some (t2 B M z')) u none
        = .ok (y, some (t2 B M z'))) ↔ ∀ b m, b < B → m < M → z' b m = z b m) ↔
      ∀ b, b < B → (1 - mat M M (A b) ^ L).det ≠ 0 := by
  have k := fixed_unique (B := B) (fun b => transition (fun _ => mat M M (A b)) 0 L) fun b => ∑ k ∈ Finset.range L,
    transition (fun _ => mat M M (A b)) (k + 1) L *ᵥ vect M (fun i => ∑ f ∈ Finset.range F, Bm b i f * x b k f)
  simp only [transition_const] at k
  rw [← k]
  refine exists_congr fun z => forall_congr' fun z' => Eq.to_iff (congrArg (· ↔ _) (propext ?_))
  rw [Lti.stateSpace_eq (.batched A) (.batchMat F Bm x) (.batchMat P C) (.batchMat P F D x) (.full z') hM hL hu]
  have r := returns_iff (M := M) (B := B) (L := L) (fun b _ => A b) (fun b t k => ∑ f ∈ Finset.range F, Bm b k f * x b t f) z'
  simp only [transition_const] at r
  rw [← r]
  exact ⟨fun ⟨y, e⟩ => Option.some.inj (congrArg Prod.snd (Except.ok.inj e)), fun e => ⟨_, congrArg Except.ok (congrArg (Prod.mk _) (congrArg some e))⟩⟩

/-- `A = [[0, 1], [-1, 0]]`: exactly one state returns after 2 samples, but not after 4 samples (`A⁴ = I`). -/
example : (1 - mat 2 2 (fun i k => if i = 0 then (if k = 1 then 1 else 0) else if k = 0 then (-1 : ℚ) else 0) ^ 2).det ≠ 0 ∧
    (1 - mat 2 2 (fun i k => if i = 0 then (if k = 1 then 1 else 0) else if k = 0 then (-1 : ℚ) else 0) ^ 4).det = 0 := by
  constructor <;> simp [Matrix.det_fin_two, mat, pow_succ, Matrix.mul_apply, Fin.sum_univ_two]

example := C82_state_space_steady_state (α := ℚ) (B := 2) (M := 2) (P := 2) (F := 1) (L := 3) (fun b i k => b + i - k)
  (fun b i k => b + i + k) (fun _ i k => i * k) (fun _ i _ => i) (fun b t _ => b + t) (u := some 2) (by decide) (by decide)
  (by rintro i ⟨⟩; decide)

/-- **C82, `lpv.state_space`, steady state** (any field): exactly one state returns after `L` samples just when `I - A_{L-1} … A_0` has
nonzero determinant for every batch item; for the unroll factors of C07. -/
theorem C82_lpv_state_space_steady_state {B M P F L : Nat} (A Bm C D : Nat → Nat → Nat → Nat → α) (x : Nat → Nat → Nat → α)
    {u : Option Int} (hB : 0 < B) (hM : 0 < M) (hL : 0 < L) (hu : FilterUnroll M L u) :
    (∃ z : Nat → Nat → α, ∀ z' : Nat → Nat → α,
      (∃ y, Lpv.stateSpace (t4 B L M M A) (t3 B L F x) (some (t4 B L M F Bm)) (some (t4 B L P M C)) (some (t4 B L P F D))
        (some (t2 B M z')) u none = .ok (y, some (t2 B M z'))) ↔ ∀ b m, b < B → m < M → z' b m = z b m) ↔
      ∀ b, b < B → (1 - transition (fun t => mat M M (A b t)) 0 L).det ≠ 0 := by
  rw [← fixed_unique (B := B) (fun b => transition (fun t => mat M M (A b t)) 0 L) fun b => ∑ k ∈ Finset.range L,
    transition (fun t => mat M M (A b t)) (k + 1) L *ᵥ vect M (fun i => ∑ f ∈ Finset.range F, Bm b k i f * x b k f)]
  refine exists_congr fun z => forall_congr' fun z' => Eq.to_iff (congrArg (· ↔ _) (propext ?_))
  rw [Lpv.stateSpace_filter (.batched A) (.batchTimeMat F Bm x) (.batchTimeMat P C) (.batchTimeMat P F D x) (.full z') hB hM hL hu,
    ← returns_iff (M := M) (B := B) (L := L) A (fun b t k => ∑ f ∈ Finset.range F, Bm b t k f * x b t f) z']
  exact ⟨fun ⟨y, e⟩ => Option.some.inj (congrArg Prod.snd (Except.ok.inj e)), fun e => ⟨_, congrArg Except.ok (congrArg (Prod.mk _) (congrArg some e))⟩⟩

example := C82_lpv_state_space_steady_state (α := ℚ) (B := 2) (M := 2) (P := 2) (F := 1) (L := 3) (fun b t i k => b + t * i - k)
  (fun b t i k => b + t + i + k) (fun _ t i k => t + i * k) (fun _ t i _ => t * i) (fun b t _ => b + t) (u := some 2) (by decide)
  (by decide) (by decide) (Or.inl ⟨by decide, Or.inl (by decide)⟩)

end field

theorem det_pow_ne_zero {M L : Nat} (A : Matrix (Fin M) (Fin M) ℂ) (hL : 0 < L) :
    (1 - A ^ L).det ≠ 0 ↔ ∀ l, A.charpoly.IsRoot l → l ^ L ≠ 1 := by
  have e : (1 - A ^ L).det = 0 ↔ (1 : ℂ) ∈ spectrum ℂ (A ^ L) := by
    rw [Matrix.mem_spectrum_iff_isRoot_charpoly, Polynomial.IsRoot, Matrix.eval_charpoly, map_one]
  rw [ne_eq, e, spectrum.map_pow_of_pos A hL]
  simp only [Set.mem_image, not_exists, not_and, Matrix.mem_spectrum_iff_isRoot_charpoly, ne_eq]

/-- **C82, `lti.state_space`, steady state** (complex numbers): exactly one state returns after `L` samples just when no eigenvalue `l` of
a state matrix has `l^L = 1`. -/
theorem C82_state_space_eigenvalues {B M P F L : Nat} (A Bm C D x : Nat → Nat → Nat → ℂ) {u : Option Int} (hM : 0 < M) (hL : 0 < L)
    (hu : ∀ i, u = some i → 1 ≤ i) :
    (∃ z : Nat → Nat → ℂ, ∀ z' : Nat → Nat → ℂ,
      (∃ y, Lti.stateSpace (t3 B M M A) (t3 B L F x) (some (t3 B M F Bm)) (some (t3 B P M C)) (some (t3 B P F D)) (some (t2 B M z')) u none
        = .ok (y, some (t2 B M z'))) ↔ ∀ b m, b < B → m < M → z' b m = z b m) ↔
      ∀ b, b < B → ∀ l, (mat M M (A b)).charpoly.IsRoot l → l ^ L ≠ 1 := by
  rw [C82_state_space_steady_state A Bm C D x hM hL hu]
  exact forall_congr' fun b => forall_congr' fun _ => det_pow_ne_zero _ hL

example := C82_state_space_eigenvalues (B := 2) (M := 2) (P := 2) (F := 1) (L := 3) (fun b i k => b + i - k)
  (fun b i k => b + i + k) (fun _ i k => i * k) (fun _ i _ => i) (fun b t _ => b + t) (u := some 2) (by decide) (by decide)
  (by rintro i ⟨⟩; decide)

/-- **C82, `lti.state_space`, settling**: if all eigenvalues lie inside the unit circle and the signal has period `L`, there is one
output of period `L` that the outputs approach exponentially from every initial state. -/
theorem C82_state_space_settles {B M P F L : Nat} {A Bm C D x : Nat → Nat → Nat → ℂ} (hM : 0 < M) (hL : 0 < L)
    (hx : ∀ b t f, x b (t + L) f = x b t f) (h : ∀ b l, (mat M M (A b)).charpoly.IsRoot l → ‖l‖ < 1) :
    ∃ (y : Nat → Nat → Nat → ℂ) (r : Nat → ℝ), (∀ b t p, b < B → y b (t + L) p = y b t p) ∧ (∀ b, 0 ≤ r b ∧ r b < 1) ∧
      ∀ z : Nat → Nat → ℂ, ∃ G : Nat → Nat → ℝ, ∀ (N : Nat) (u : Option Int), 0 < N → (∀ i, u = some i → 1 ≤ i) →
        ∃ y' zf, Lti.stateSpace (t3 B M M A) (t3 B N F x) (some (t3 B M F Bm)) (some (t3 B P M C)) (some (t3 B P F D)) (some (t2 B M z))
            u none = .ok (t3 B N P y', some zf) ∧
          ∀ b t p, ‖y' b t p - y b t p‖ ≤ G b p * r b ^ t := by
  have e := fun (z : Nat → Nat → ℂ) (N : Nat) (u : Option Int) (hN : 0 < N) hu =>
    Lti.stateSpace_eq (B := B) (u := u) (.batched A) (.batchMat (N := N) F Bm x) (.batchMat P C) (.batchMat P F D x) (.full z) hM hN hu
  have one : ∀ i, (none : Option Int) = some i → 1 ≤ i := by simp
  obtain ⟨s, hs⟩ := (C82_state_space_eigenvalues (B := B) (P := P) A Bm C D x hM hL one).2 fun b _ l hl h1 => by
    have := h b l hl
    have k : ‖l‖ ^ L = 1 := by rw [← norm_pow, h1, norm_one]
    exact absurd k (pow_lt_one₀ (norm_nonneg _) this hL.ne').ne
  obtain ⟨y0, hy0⟩ := (hs s).2 fun _ _ _ _ => rfl
  rw [e s L none hL one] at hy0
  have hret := t2_eq_iff.1 (Option.some.inj (congrArg Prod.snd (Except.ok.inj hy0)))
  choose G r hG hr hr1 hb using fun b => vecRec_decay (A b) (h b)
  refine ⟨fun b t p => ∑ m ∈ Finset.range M, C b p m * vecRec M (fun _ => A b) (s b)
      (fun t k => ∑ f ∈ Finset.range F, Bm b k f * x b t f) t m + ∑ f ∈ Finset.range F, D b p f * x b t f, r,
    fun b t p hb => ?_, fun b => ⟨hr b, hr1 b⟩, fun z =>
    ⟨fun b p => ∑ m ∈ Finset.range M, ‖C b p m‖ * (G b * ∑ m ∈ Finset.range M, ‖z b m - s b m‖), fun N u hN hu =>
      ⟨fun b t p => ∑ m ∈ Finset.range M, C b p m * vecRec M (fun _ => A b) (z b)
      (fun t k => ∑ f ∈ Finset.range F, Bm b k f * x b t f) t m + ∑ f ∈ Finset.range F, D b p f * x b t f, _, e z N u hN hu,
      fun b t p => ?_⟩⟩⟩
  · dsimp only
    refine congrArg₂ (· + ·) (Finset.sum_congr rfl fun m hm => congrArg _ ?_) (Finset.sum_congr rfl fun f _ => by rw [hx])
    exact vecRec_periodic (fun _ _ _ => rfl) (fun t m => Finset.sum_congr rfl fun f _ => by rw [hx]) (hret b · hb) t (Finset.mem_range.1 hm)
  · dsimp only
    rw [add_sub_add_right_eq_sub, ← Finset.sum_sub_distrib, Finset.sum_mul]
    refine (norm_sum_le _ _).trans (Finset.sum_le_sum fun m hm => ?_)
    rw [← mul_sub, norm_mul, mul_assoc]
    refine mul_le_mul_of_nonneg_left ?_ (norm_nonneg _)
    have lin := vecRec_linear M (fun _ => A b) (-1) (s b) (z b) (fun t k => ∑ f ∈ Finset.range F, Bm b k f * x b t f)
      (fun t k => ∑ f ∈ Finset.range F, Bm b k f * x b t f) t m
    simp only [neg_one_mul, neg_add_cancel, neg_add_eq_sub] at lin
    rw [← lin]
    have k := hb b (fun k => z b k - s b k) (fun _ _ => 0) (∑ m ∈ Finset.range M, ‖z b m - s b m‖) 0
      (fun m hm => Finset.single_le_sum (f := fun m => ‖z b m - s b m‖) (fun _ _ => norm_nonneg _) (Finset.mem_range.2 hm))
      (by simp) (Finset.sum_nonneg fun _ _ => norm_nonneg _) le_rfl t m (Finset.mem_range.1 hm)
    rw [mul_zero, add_zero] at k
    linarith

/-- `h' = h / 2 + x`, `y = h + x` with `x = 0, 1, 0, 1, …`. -/
example := C82_state_space_settles (B := 2) (M := 1) (P := 1) (F := 1) (L := 2) (A := fun _ _ _ => 1 / 2) (Bm := fun _ _ _ => 1)
  (C := fun _ _ _ => 1) (D := fun _ _ _ => 1) (x := fun _ t _ => if t % 2 = 0 then 0 else 1) (by decide) (by decide)
  (fun _ t _ => by simp) (fun _ l h => by rw [(half_eigenvalue l).1 h]; norm_num)

end Props
