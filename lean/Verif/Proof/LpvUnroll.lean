import Verif.Proof.LpvSsmAny
import Verif.Proof.LpvFiltering

/-!
# Which unroll factors are right for constant matrices and for companion matrices
-/

namespace Phil.Lpv
open Torch Torch.Tensor Finset Spec Phil.Mat
open Phil.Lti (XT xe OT OV)
variable {α : Type} [CommRing α]

theorem few_of_good {N : Nat} {u : Option Int} (h : Props.GoodUnroll N u) : Props.FewPrimes N u := by
  refine ⟨h.1, h.2.imp id (Or.imp id fun hp => ?_)⟩
  rw [Nat.primeFactorsList_prime hp]
  simp

/-! ## Right -/

theorem recOn_commuting {B N M : Nat} {Av : Nat → Nat → Nat → Nat → α} (z : Nat → Nat → α) {u : Int} (hB : 0 < B) (hM : 0 < M)
    (hN : 0 < N) (hc : ∀ b i j, i < N → j < N → Commute (mat M M (Av b i)) (mat M M (Av b j)))
    (hu : Props.FewPrimes N (some u)) : RecOn B N M Av z u :=
  fun _ _ _ hA hx o ho => stateSpaceRecursion_layout_commuting hA hx z u o ho hB hM hN hu.1 hc hu.2

theorem recOn_const {B N M : Nat} (Av : Nat → Nat → Nat → α) (z : Nat → Nat → α) {u : Int} (hB : 0 < B) (hM : 0 < M)
    (hN : 0 < N) (hu : Props.FewPrimes N (some u)) : RecOn B N M (fun b _ => Av b) z u :=
  recOn_commuting z hB hM hN (fun _ _ _ _ _ => Commute.refl _) hu

theorem recOn_filter {B N M : Nat} (Av : Nat → Nat → Nat → Nat → α) (z : Nat → Nat → α) {u : Int} (hB : 0 < B) (hM : 0 < M)
    (hN : 0 < N) (hu : Props.FilterUnroll M N (some u)) : RecOn B N M Av z u := by
  rcases hu with hu | ⟨rfl, hu⟩
  · exact recOn_good Av z hB hM hN hu
  · refine recOn_commuting z hB hM hN (fun b i j _ _ => ?_) hu
    ext k l
    simp only [Matrix.mul_apply, Fin.sum_univ_one]
    rw [Subsingleton.elim k 0, Subsingleton.elim l 0, mul_comm]

theorem stateSpace_filter [StarRing α] {B N M : Nat} {A x : Tensor α} {Bm C D zi : Option (Tensor α)} {k : Option Nat}
    {Av : Nat → Nat → Nat → Nat → α} {v d : Nat → Nat → Nat → α} {r : Nat → Nat → (Nat → α) → Nat → α}
    {z : Nat → Nat → α} {u : Option Int} (hA : MatSeq B N M M A Av) (hB : LpvInput B N M Bm x v)
    (hC : LpvReadout B N M C k r) (hD : LpvFeed B N D x k d)
    (hz : InitState B M zi z) (hB0 : 0 < B) (hM : 0 < M) (hN : 0 < N) (hu : Props.FilterUnroll M N u) :
    stateSpace A x Bm C D zi u none =
      .ok (signal k B N fun b t p => r b t (vecRec M (Av b) (z b) (v b) t) p + d b t p,
        if zi.isSome then some (t2 B M fun b m => vecRec M (Av b) (z b) (v b) N m) else none) :=
  stateSpaceWith_eq hA hB hC hD hz hN _ (fun _ _ => rfl) fun _ hBx => recOn_filter Av z hB0 hM hN hu hA hBx none trivial

/-! ## Wrong -/

/-- Unit impulse at time `w`. -/
def impulse (w : Nat) : Nat → α := fun t => if t = w then 1 else 0

theorem anyRec_impulse {u : Nat} (hu : 1 < u) {N M : Nat} (hM : 0 < M) (hN : u < N) (A : Nat → Nat → Nat → α) {w : Nat}
    (hw : w < u - 1) {i : Nat} (hi : i < M) :
    anyRec M N u A (fun _ => 0) (first (impulse w)) u i = fm (cumsAt u (fun t => mat M M (A t)) 0 w) i 0 := by
  let F : Nat → Matrix (Fin M) (Fin M) α := fun t => mat M M (A t)
  let x : Nat → Nat → Nat → α := fun _ t _ => impulse w t
  obtain ⟨y, hy, hy1⟩ := aux_block (fun s d => recursionLoop_eq s d) u hu (N + 1) false false (B := 1) (fun _ => F) (fun _ _ => 0) x none trivial
    (by omega) hM hN (by omega)
  have h0 := stateSpaceRecursion_any (α := α) (B := 1) (N := N) (M := M) (MatSeq.shared fun t => fm (F t))
    (Drive.scalar fun _ => impulse w) (fun _ _ => 0) u none trivial (by omega) hM (by omega) (by omega)
  unfold stateSpaceRecursion at h0
  have h1 := hy.symm.trans (h0 : stateSpaceRecursionAux _ _ _ _ _ _ _ = _)
  have hyv := congrArg (fun T => Tensor.get T [0, u - 1, i]) (Except.ok.inj h1)
  simp only [OT] at hyv
  rw [get_t3 (by omega) (by omega : u - 1 < N) hi, get_t3 (by omega) (by omega : u - 1 < N) hi] at hyv
  rw [hy1, Nat.sub_add_cancel (by omega)] at hyv
  simp only [mul_zero, sum_const_zero, zero_add] at hyv
  have pick : ∀ (g : Nat → Nat → α), (∑ t ∈ range u, ∑ k ∈ range M, xe false (x 0) t k * g t k) = g w 0 := by
    intro g
    rw [sum_eq_single w, sum_eq_single 0]
    · simp [xe, x, impulse]
    · intro k _ hk; simp [xe, hk]
    · intro h; exact absurd (mem_range.2 hM) h
    · intro t _ ht
      refine sum_eq_zero fun k _ => ?_
      simp [xe, x, impulse, ht]
    · intro h; exact absurd (mem_range.2 (by omega)) h
  rw [pick fun t k => fm (if t < u - 1 then cumsAt u (F) 0 t else 1) i k, if_pos hw] at hyv
  rw [hyv]
  exact anyRec_congr (by omega) (fun _ _ => rfl) (fun t _ i j hi hj => (fm_mat _ hi hj).symm) (fun _ _ _ _ => rfl) hi

theorem vecRec_impulse {u M : Nat} (hM : 0 < M) (A : Nat → Nat → Nat → α) {w : Nat} (hw : w < u - 1) {i : Nat} (hi : i < M) :
    vecRec M A (fun _ => 0) (first (impulse w)) u i = fm (mprod (fun t => mat M M (A t)) (w + 1) (u - 1 - w)) i 0 := by
  rw [vecRec_congr (A' := fun t => fm (mat M M (A t))) (fun _ _ => rfl) (fun t _ i j hi hj => (fm_mat _ hi hj).symm) (fun _ _ _ _ => rfl) hi,
    vecRec_var _ _ _ _ hi]
  simp only [mul_zero, sum_const_zero, zero_add]
  rw [sum_eq_single w, sum_eq_single 0]
  · simp [first, impulse]
  · intro k _ hk; simp [first, hk]
  · intro h; exact absurd (mem_range.2 hM) h
  · intro t _ ht
    refine sum_eq_zero fun k _ => ?_
    simp [first, impulse, ht]
  · intro h; exact absurd (mem_range.2 (by omega)) h

theorem two_factors {P : Nat} (h2 : 2 ≤ P) (hP : ¬ P.Prime) : ∃ q n rs, P.primeFactorsList = q :: n :: rs ∧ 2 ≤ q ∧ q < P := by
  obtain ⟨q, n, rs, hf⟩ : ∃ q n rs, P.primeFactorsList = q :: n :: rs := by
    match hl : P.primeFactorsList with
    | [] =>
      have := (Nat.primeFactorsList_eq_nil _).1 hl
      omega
    | [p] =>
      exfalso
      apply hP
      have h1 := Nat.prod_primeFactorsList (n := P) (by omega)
      rw [hl, List.prod_singleton] at h1
      rw [← h1]
      exact Nat.prime_of_mem_primeFactorsList (n := P) (hl ▸ by simp)
    | q :: n :: rs => exact ⟨q, n, rs, rfl⟩
  have hpr : ∀ x ∈ q :: n :: rs, x.Prime := fun x hx => Nat.prime_of_mem_primeFactorsList (n := P) (hf ▸ hx)
  have hq := (hpr q (by simp)).two_le
  refine ⟨q, n, rs, hf, hq, ?_⟩
  have h1 := Nat.prod_primeFactorsList (n := P) (by omega)
  rw [hf, List.prod_cons] at h1
  have h2 : 2 ≤ (n :: rs).prod := by
    rw [List.prod_cons]
    have := (hpr n (by simp)).two_le
    have h3 : 0 < rs.prod := List.prod_pos fun x hx => (hpr x (by simp [hx])).pos
    nlinarith
  nlinarith

theorem three_factors {P : Nat} (hP : 3 ≤ P.primeFactorsList.length) :
    ∃ q n n' rs, P.primeFactorsList = q :: n :: n' :: rs ∧ 0 < n * q ∧ n * q < P := by
  obtain ⟨q, n, n', rs, hf⟩ : ∃ q n n' rs, P.primeFactorsList = q :: n :: n' :: rs := by
    match hl : P.primeFactorsList with
    | [] => rw [hl] at hP; simp at hP
    | [_] => rw [hl] at hP; simp at hP
    | [_, _] => rw [hl] at hP; simp at hP
    | q :: n :: n' :: rs => exact ⟨q, n, n', rs, rfl⟩
  have hpr : ∀ x ∈ q :: n :: n' :: rs, x.Prime := fun x hx => Nat.prime_of_mem_primeFactorsList (n := P) (hf ▸ hx)
  have hpos : 0 < n * q := Nat.mul_pos (hpr n (by simp)).pos (hpr q (by simp)).pos
  refine ⟨q, n, n', rs, hf, hpos, ?_⟩
  have hP0 : P ≠ 0 := by rintro rfl; simp at hf
  have h1 := Nat.prod_primeFactorsList hP0
  rw [hf, List.prod_cons, List.prod_cons] at h1
  have h2 : 2 ≤ (n' :: rs).prod := by
    rw [List.prod_cons]
    have := (hpr n' (by simp)).two_le
    have h3 : 0 < rs.prod := List.prod_pos fun x hx => (hpr x (by simp [hx])).pos
    nlinarith
  have h4 : q * (n * (n' :: rs).prod) = n * q * (n' :: rs).prod := by ring
  rw [h4] at h1
  nlinarith

/-- What the recursion computes and what it should compute on an impulse, when `u - 1` is composite: the last factor is
multiplied from the wrong side. -/
theorem impulse_second {u q n : Nat} {rs : List Nat} (hf : (u - 1).primeFactorsList = q :: n :: rs) (hq : 2 ≤ q) (hqu : q < u - 1)
    {N M : Nat} (hM : 0 < M) (hN : u < N) (A : Nat → Nat → Nat → α) (U Y : Nat → Nat → α) (hU : ∀ t, t ≠ u - 1 - q → A t = U)
    (hY : A (u - 1 - q) = Y) {i : Nat} (hi : i < M) :
    anyRec M N u A (fun _ => 0) (first (impulse (u - 1 - 1 - q))) u i = fm (mat M M Y * mat M M U ^ q) i 0 ∧
      vecRec M A (fun _ => 0) (first (impulse (u - 1 - 1 - q))) u i = fm (mat M M U ^ q * mat M M Y) i 0 := by
  rw [anyRec_impulse (by omega) hM hN A (by omega) hi, vecRec_impulse hM A (by omega) hi]
  have hr := prefix_mprod (fun t => mat M M (A t)) u 0 (u - 1 - 1 - q) (by omega)
  rw [Nat.zero_add, show u - 1 - 1 - (u - 1 - 1 - q) + 1 = q + 1 by omega] at hr
  have hpre : ((List.range q).map fun p => mat M M (A (0 + (u - 1 - 1 - p + 1)))).prod = mat M M U ^ q := by
    rw [List.map_congr_left (g := fun _ => mat M M U) fun p hp => by
      rw [hU _ (by have := List.mem_range.1 hp; omega)]]
    simp
  have hFq : mat M M (A (0 + (u - 1 - 1 - q + 1))) = mat M M Y := by
    rw [show 0 + (u - 1 - 1 - q + 1) = u - 1 - q by omega, hY]
  rw [← hr, cumsAt, show u - 1 - 1 - (u - 1 - 1 - q) = q by omega, cd_second hf, prod_range_succ_list _ q, hpre, hFq]
  exact ⟨rfl, rfl⟩

/-- The same when `u - 1` has three prime factors: only one factor of the product is left. -/
theorem impulse_third {u q n n' : Nat} {rs : List Nat} (hf : (u - 1).primeFactorsList = q :: n :: n' :: rs) (h0 : 0 < n * q)
    (hqu : n * q < u - 1) {N M : Nat} (hM : 0 < M) (hN : u < N) (A : Nat → Nat → Nat → α) {i : Nat} (hi : i < M) :
    anyRec M N u A (fun _ => 0) (first (impulse (u - 1 - 1 - n * q))) u i = fm (mat M M (A (u - 1 - n * q))) i 0 ∧
      vecRec M A (fun _ => 0) (first (impulse (u - 1 - 1 - n * q))) u i =
        fm ((List.range (n * q + 1)).map fun p => mat M M (A (u - 1 - p))).prod i 0 := by
  rw [anyRec_impulse (by omega) hM hN A (by omega) hi, vecRec_impulse hM A (by omega) hi]
  have hr := prefix_mprod (fun t => mat M M (A t)) u 0 (u - 1 - 1 - n * q) (by omega)
  rw [Nat.zero_add, show u - 1 - 1 - (u - 1 - 1 - n * q) + 1 = n * q + 1 by omega] at hr
  rw [← hr, cumsAt, show u - 1 - 1 - (u - 1 - 1 - n * q) = n * q by omega, cd_third hf]
  refine ⟨by rw [show 0 + (u - 1 - 1 - n * q + 1) = u - 1 - n * q by omega], ?_⟩
  rw [List.map_congr_left fun p hp => by
    rw [show 0 + (u - 1 - 1 - p + 1) = u - 1 - p by have := List.mem_range.1 hp; omega]]

/-! ### Companion matrices -/

/-- Denominators: `-1, 0, …` except for `0, -1, 0, …` at one time. -/
def badCoefs (t₀ : Nat) (t k : Nat) : α := if t = t₀ then (if k = 1 then -1 else 0) else if k = 0 then -1 else 0

theorem comp_pow {M : Nat} (hM : 2 ≤ M) (q : Nat) :
    (∀ j, (mat M M (comp fun k => if k = 0 then (-1 : α) else 0) ^ q) ⟨0, by omega⟩ j = if j.1 = 0 then 1 else 0) ∧
      (mat M M (comp fun k => if k = 0 then (-1 : α) else 0) ^ (q + 1)) ⟨1, by omega⟩ ⟨0, by omega⟩ = 1 := by
  have h0 : ∀ j, (mat M M (comp fun k => if k = 0 then (-1 : α) else 0) ^ q) ⟨0, by omega⟩ j = if j.1 = 0 then 1 else 0 := by
    induction q with
    | zero => intro j; simp [Matrix.one_apply, Fin.ext_iff, eq_comm]
    | succ q ih =>
      intro j
      rw [pow_succ', Matrix.mul_apply, sum_eq_single (⟨0, by omega⟩ : Fin M), ih]
      · simp [mat, comp]
      · intro k _ hk
        have : k.1 ≠ 0 := fun h => hk (Fin.ext h)
        simp [mat, comp, this]
      · intro h; exact absurd (mem_univ _) h
  refine ⟨h0, ?_⟩
  rw [pow_succ', Matrix.mul_apply, sum_eq_single (⟨0, by omega⟩ : Fin M), h0]
  · simp [mat, comp]
  · intro k _ hk
    have : k.1 ≠ 0 := fun h => hk (Fin.ext h)
    simp [mat, comp, this]
  · intro h; exact absurd (mem_univ _) h

theorem comp_code {M : Nat} (hM : 2 ≤ M) {q : Nat} (hq : 1 ≤ q) :
    (mat M M (comp fun k => if k = 1 then (-1 : α) else 0) * mat M M (comp fun k => if k = 0 then (-1 : α) else 0) ^ q)
      ⟨0, by omega⟩ ⟨0, by omega⟩ = 1 := by
  obtain ⟨q, rfl⟩ : ∃ p, q = p + 1 := ⟨q - 1, by omega⟩
  rw [Matrix.mul_apply, sum_eq_single (⟨1, by omega⟩ : Fin M), (comp_pow hM q).2]
  · simp [mat, comp]
  · intro k _ hk
    have : k.1 ≠ 1 := fun h => hk (Fin.ext h)
    simp [mat, comp, this]
  · intro h; exact absurd (mem_univ _) h

theorem comp_right {M : Nat} (hM : 2 ≤ M) (q : Nat) :
    (mat M M (comp fun k => if k = 0 then (-1 : α) else 0) ^ q * mat M M (comp fun k => if k = 1 then (-1 : α) else 0))
      ⟨0, by omega⟩ ⟨0, by omega⟩ = 0 := by
  rw [Matrix.mul_apply, sum_eq_zero]
  intro k _
  rw [(comp_pow hM q).1 k]
  by_cases hk : k.1 = 0
  · simp [mat, comp, hk]
  · simp [hk]

omit [CommRing α] in
theorem mat_transpose {M : Nat} (f : Nat → Nat → α) : mat M M (fun i j => f j i) = (mat M M f).transpose := rfl

/-- Companion matrices for which the recursion is wrong, `u - 1` composite. -/
theorem comp_wrong [Nontrivial α] {u : Nat} (hu : 2 < u) (hP : ¬ (u - 1).Prime) {N M : Nat} (hM : 2 ≤ M) (hN : u < N) :
    ∃ t₀ w, anyRec M N u (fun t => comp (badCoefs (α := α) t₀ t)) (fun _ => 0) (first (impulse w)) u 0 ≠
      vecRec M (fun t => comp (badCoefs (α := α) t₀ t)) (fun _ => 0) (first (impulse w)) u 0 := by
  obtain ⟨q, n, rs, hf, hq, hqu⟩ := two_factors (by omega) hP
  refine ⟨u - 1 - q, u - 1 - 1 - q, ?_⟩
  have h := impulse_second hf hq hqu (by omega : 0 < M) hN (fun t => comp (badCoefs (α := α) (u - 1 - q) t))
    (comp fun k => if k = 0 then -1 else 0) (comp fun k => if k = 1 then -1 else 0)
    (fun t ht => by congr 1; funext k; exact if_neg ht) (by congr 1; funext k; exact if_pos rfl) (i := 0) (by omega)
  rw [h.1, h.2, fm, fm, dif_pos ⟨by omega, by omega⟩, dif_pos ⟨by omega, by omega⟩, comp_code hM (by omega), comp_right hM]
  exact one_ne_zero

/-- Transposed companion matrices for which the recursion is wrong, `u - 1` composite. -/
theorem compT_wrong [Nontrivial α] {u : Nat} (hu : 2 < u) (hP : ¬ (u - 1).Prime) {N M : Nat} (hM : 2 ≤ M) (hN : u < N) :
    ∃ t₀ w, anyRec M N u (fun t i j => comp (badCoefs (α := α) t₀ t) j i) (fun _ => 0) (first (impulse w)) u 0 ≠
      vecRec M (fun t i j => comp (badCoefs (α := α) t₀ t) j i) (fun _ => 0) (first (impulse w)) u 0 := by
  obtain ⟨q, n, rs, hf, hq, hqu⟩ := two_factors (by omega) hP
  refine ⟨u - 1 - q, u - 1 - 1 - q, ?_⟩
  have h := impulse_second hf hq hqu (by omega : 0 < M) hN (fun t i j => comp (badCoefs (α := α) (u - 1 - q) t) j i)
    (fun i j => comp (fun k => if k = 0 then -1 else 0) j i) (fun i j => comp (fun k => if k = 1 then -1 else 0) j i)
    (fun t ht => by
      have : badCoefs (α := α) (u - 1 - q) t = fun k => if k = 0 then -1 else 0 := funext fun k => if_neg ht
      simp only [this])
    (by
      have : badCoefs (α := α) (u - 1 - q) (u - 1 - q) = fun k => if k = 1 then -1 else 0 := funext fun k => if_pos rfl
      simp only [this]) (i := 0) (by omega)
  rw [mat_transpose (comp fun k => if k = 0 then (-1 : α) else 0), mat_transpose (comp fun k => if k = 1 then (-1 : α) else 0), ← Matrix.transpose_pow, ← Matrix.transpose_mul, ← Matrix.transpose_mul] at h
  rw [h.1, h.2, fm, fm, dif_pos ⟨by omega, by omega⟩, dif_pos ⟨by omega, by omega⟩, Matrix.transpose_apply, Matrix.transpose_apply,
    comp_code hM (by omega), comp_right hM]
  exact zero_ne_one

/-- First-order denominators: `-1` except for `0` at one time. -/
def badCoef (t₀ : Nat) (t _k : Nat) : α := if t = t₀ then 0 else -1

/-- First-order companion matrices for which the recursion is wrong, `u - 1` with three prime factors. -/
theorem comp_wrong_one [Nontrivial α] {u : Nat} (hP : 3 ≤ (u - 1).primeFactorsList.length) {N : Nat} (hN : u < N) :
    ∃ t₀ w, anyRec 1 N u (fun t => comp (badCoef (α := α) t₀ t)) (fun _ => 0) (first (impulse w)) u 0 ≠
        vecRec 1 (fun t => comp (badCoef (α := α) t₀ t)) (fun _ => 0) (first (impulse w)) u 0 ∧
      anyRec 1 N u (fun t i j => comp (badCoef (α := α) t₀ t) j i) (fun _ => 0) (first (impulse w)) u 0 ≠
        vecRec 1 (fun t i j => comp (badCoef (α := α) t₀ t) j i) (fun _ => 0) (first (impulse w)) u 0 := by
  obtain ⟨q, n, n', rs, hf, h0, hqu⟩ := three_factors hP
  have key : anyRec 1 N u (fun t => comp (badCoef (α := α) (u - 1) t)) (fun _ => 0) (first (impulse (u - 1 - 1 - n * q))) u 0 ≠
        vecRec 1 (fun t => comp (badCoef (α := α) (u - 1) t)) (fun _ => 0) (first (impulse (u - 1 - 1 - n * q))) u 0 := by
    have h := impulse_third hf h0 hqu (M := 1) (by omega) hN (fun t => comp (badCoef (α := α) (u - 1) t)) (i := 0) (by omega)
    rw [h.1, h.2]
    have hz : mat 1 1 (comp (badCoef (α := α) (u - 1) (u - 1 - 0))) = 0 := by
      ext i j; simp [mat, comp, badCoef]
    rw [List.range_succ_eq_map, List.map_cons, List.prod_cons, hz, zero_mul]
    have hne : ¬ (u - 1 - n * q = u - 1) := by omega
    simp [fm, mat, comp, badCoef, hne]
  refine ⟨u - 1, u - 1 - 1 - n * q, key, ?_⟩
  have e : ∀ t i j, i < 1 → j < 1 → comp (badCoef (α := α) (u - 1) t) j i = comp (badCoef (α := α) (u - 1) t) i j := by
    intro t i j hi hj
    rw [show i = j by omega]
  have hu : 1 < u := by omega
  rw [anyRec_congr (A' := fun t => comp (badCoef (α := α) (u - 1) t)) (by omega) (fun _ _ => rfl) (fun t _ i j hi hj => e t i j hi hj)
      (fun _ _ _ _ => rfl) (by omega),
    vecRec_congr (A' := fun t => comp (badCoef (α := α) (u - 1) t)) (fun _ _ => rfl) (fun t _ i j hi hj => e t i j hi hj)
      (fun _ _ _ _ => rfl) (by omega)]
  exact key

/-! ### Constant matrices -/

/-- Constant matrices of size at least 2 for which the recursion is wrong, `u - 1` with three prime factors. -/
theorem const_wrong [Nontrivial α] {u : Nat} (hP : 3 ≤ (u - 1).primeFactorsList.length) {N M : Nat} (hM : 2 ≤ M) (hN : u < N) :
    ∃ w, anyRec M N u (fun _ i j => if i = 1 ∧ j = 0 then (1 : α) else 0) (fun _ => 0) (first (impulse w)) u 1 ≠
      vecRec M (fun _ i j => if i = 1 ∧ j = 0 then (1 : α) else 0) (fun _ => 0) (first (impulse w)) u 1 := by
  obtain ⟨q, n, n', rs, hf, h0, hqu⟩ := three_factors hP
  refine ⟨u - 1 - 1 - n * q, ?_⟩
  have h := impulse_third hf h0 hqu (by omega : 0 < M) hN (fun _ i j => if i = 1 ∧ j = 0 then (1 : α) else 0) (i := 1) (by omega)
  rw [h.1, h.2]
  have hz : mat M M (fun i j => if i = 1 ∧ j = 0 then (1 : α) else 0) * mat M M (fun i j => if i = 1 ∧ j = 0 then (1 : α) else 0) = 0 := by
    ext i j
    rw [Matrix.mul_apply, sum_eq_zero, Matrix.zero_apply]
    intro k _
    by_cases hk : k.1 = 0
    · have : ¬ (k.1 = 1) := by omega
      simp [mat, this]
    · simp [mat, hk]
  obtain ⟨p, hp⟩ : ∃ p, n * q = p + 1 := ⟨n * q - 1, by omega⟩
  rw [hp, List.map_const', List.length_range, List.prod_replicate, pow_succ, pow_succ, mul_assoc, hz, mul_zero, fm, fm,
    dif_pos ⟨by omega, by omega⟩, dif_pos ⟨by omega, by omega⟩]
  simp [mat]

/-! ### Filters -/

theorem anyRec_one {M N : Nat} (A : Nat → Nat → Nat → α) (z : Nat → α) (v : Nat → Nat → α) (t : Nat) {m : Nat} (hm : m < M) :
    anyRec M N 1 A z v t m = vecRec M A z v t m := by
  rw [anyRec, blockRec, if_pos (Or.inl (by rfl : Int.toNat 1 = 1))]
  exact vecRec_congr (fun _ _ => rfl) (fun t _ i j hi hj => fm_mat _ hi hj) (fun _ _ _ _ => rfl) hm

/-- Denominators for which the recursion is wrong, for every unroll factor that is not listed in `FilterUnroll`. -/
theorem filter_wrong [StarRing α] [Nontrivial α] {M N : Nat} (hM : 0 < M) {u : Int} (h1 : 1 ≤ u) (h : ¬ Props.FilterUnroll M N (some u)) :
    1 < u.toNat ∧ u.toNat < N ∧
    (∃ (a : Nat → Nat → α) (w : Nat), anyRec M N u (fun t => comp (a t)) (fun _ => 0) (first (impulse w)) u.toNat 0 ≠
      anyRec M N 1 (fun t => comp (a t)) (fun _ => 0) (first (impulse w)) u.toNat 0) ∧
    ∃ (a : Nat → Nat → α) (w : Nat), (∀ t k, star (a t k) = a t k) ∧
      anyRec M N u (fun t i j => comp (a t) j i) (fun _ => 0) (first (impulse w)) u.toNat 0 ≠
        anyRec M N 1 (fun t i j => comp (a t) j i) (fun _ => 0) (first (impulse w)) u.toNat 0 := by
  have hg : ¬ (u ≤ 2 ∨ (N : Int) ≤ u ∨ (u.toNat - 1).Prime) := fun hc => h (Or.inl ⟨h1, hc⟩)
  push Not at hg
  obtain ⟨hg1, hg2, hg3⟩ := hg
  simp only [anyRec_one _ _ _ _ hM]
  by_cases hM1 : M = 1
  · subst hM1
    have hf : ¬ (u.toNat - 1).primeFactorsList.length ≤ 2 := fun hc => h (Or.inr ⟨rfl, h1, Or.inr (Or.inr hc)⟩)
    lift u to ℕ using by omega
    rw [Int.toNat_natCast] at hf ⊢
    obtain ⟨t₀, w, hw, hw'⟩ := comp_wrong_one (α := α) (u := u) (by omega) (N := N) (by omega)
    refine ⟨by omega, by omega, ⟨badCoef t₀, w, hw⟩, badCoef t₀, w, fun t k => ?_, hw'⟩
    unfold badCoef
    split <;> simp
  · lift u to ℕ using by omega
    rw [Int.toNat_natCast] at hg3 ⊢
    obtain ⟨t₀, w, hw⟩ := comp_wrong (α := α) (u := u) (by omega) hg3 (N := N) (M := M) (by omega) (by omega)
    obtain ⟨t₁, w', hw'⟩ := compT_wrong (α := α) (u := u) (by omega) hg3 (N := N) (M := M) (by omega) (by omega)
    refine ⟨by omega, by omega, ⟨badCoefs t₀, w, hw⟩, badCoefs t₁, w', fun t k => ?_, hw'⟩
    unfold badCoefs
    split <;> split <;> simp

end Phil.Lpv
