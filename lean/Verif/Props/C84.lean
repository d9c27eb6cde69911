import Verif.Props.C56
import Verif.Props.C83

/-!
# C84: a finite test decides

Two filters that answer alike to one impulse of a length known in advance answer alike to every signal.
-/

namespace Props
open Torch Torch.Tensor Spec Phil Matrix
open Phil.Lti (Form ok_pair lfilter)
variable {α : Type} [CommRing α]

/-- A numerator times a denominator ends after `K + P` coefficients. -/
theorem conv_end {K P n : Nat} (b a : Nat → α) (hn : K + P ≤ n) : conv (zext K b) (denom P a) n = 0 := by
  refine Finset.sum_eq_zero fun k hk => ?_
  by_cases h : k < K
  · have : denom P a (n - k) = 0 := by
      rw [denom, if_neg (by omega), if_neg (by omega)]
    rw [this, mul_zero]
  · rw [zext, if_neg h, zero_mul]

section filters
variable [StarRing α]

/-- **C84, `lfilter`**: two filters return the same output for all signals just when they do for an impulse of
`max (K + P') (K' + P)` samples, whatever the forms and unroll factors. -/
theorem C84_lfilter {B K P K' P' : Nat} {b a b' a' : Tensor α} {bv av bv' av' : Nat → Nat → α} {form form' : Form}
    {u u' : Option Int} (hb : Rows B K b bv) (ha : Rows B P a av) (hb' : Rows B K' b' bv') (ha' : Rows B P' a' av')
    (hf : Faithful α form) (hf' : Faithful α form') (hB : 0 < B) (hK : 0 < K) (hK' : 0 < K')
    (hM : 0 < max P (K - 1)) (hM' : 0 < max P' (K' - 1)) (hu : ∀ i, u = some i → 1 ≤ i) (hu' : ∀ i, u' = some i → 1 ≤ i) :
    (∀ N x, 0 < N → lfilter b a (t2 B N x) none form u = lfilter b' a' (t2 B N x) none form' u') ↔
      lfilter b a (t2 B (max (K + P') (K' + P)) fun _ => impulse) none form u =
        lfilter b' a' (t2 B (max (K + P') (K' + P)) fun _ => impulse) none form' u' := by
  have hD : 0 < max (K + P') (K' + P) := by omega
  refine ⟨fun h => h _ _ hD, fun h => ?_⟩
  rw [C56_transfer_iff hb ha hb' ha' hf hf' hB hK hK' hM hM' hu hu']
  intro i hi
  obtain ⟨y, hy, e⟩ := lfilter_series2 hb ha (fun _ => impulse) hf hB hK hM hD hu
  obtain ⟨y', hy', e'⟩ := lfilter_series2 hb' ha' (fun _ => impulse) hf' hB hK' hM' hD hu'
  have same := t2_eq_iff.1 (congrArg Prod.fst (Except.ok.inj (e.symm.trans (h.trans e'))))
  have hy := hy i
  have hy' := hy' i
  rw [mk_impulse, mul_one] at hy hy'
  funext n
  by_cases hn : n < max (K + P') (K' + P)
  · -- below the length of the test: from the outputs
    have c : ∀ f g : Nat → α, conv f g n = PowerSeries.coeff n (PowerSeries.mk f * PowerSeries.mk g) := fun f g => by
      rw [← mk_conv, PowerSeries.coeff_mk]
    rw [c, c, ← hy, ← hy', mul_assoc, mul_assoc, mul_comm (PowerSeries.mk (y i)), mul_comm (PowerSeries.mk (y' i)), ← mul_assoc, ← mul_assoc,
      mul_comm (PowerSeries.mk (denom P' (av' i)))]
    rw [← mk_conv, ← c, ← c]
    exact Finset.sum_congr rfl fun k hk => by rw [same i (n - k) hi (by omega)]
  · rw [conv_end _ _ (by omega), conv_end _ _ (by omega)]

example := C84_lfilter (B := 3) (K := 3) (P := 2) (K' := 2) (P' := 4) (form := .df2) (form' := .tdf1) (u := some 2) (u' := none)
  (.shared fun k => (k : ℤ) + 1) (.batched fun i k => (i : ℤ) - k) (.batched fun i k => (i : ℤ) + k) (.shared fun k => (k : ℤ) - 1)
  (faithful_int _ (by simp)) (faithful_int _ (by simp)) (by decide) (by decide) (by decide) (by decide) (by decide)
  (by rintro i ⟨⟩; decide) (by simp)

/-- **A shorter test does not decide**: the delay by `K - 1` samples and the zero filter have the same response to an impulse of
`K - 1` samples (here `max (K + P') (K' + P) = K`), but not of `K` samples. -/
theorem C84_lfilter_sharp [Nontrivial α] {K : Nat} {form : Form} (hf : Faithful α form) (hK : 1 < K) :
    lfilter (t1 K fun k => if k = K - 1 then (1 : α) else 0) (t1 0 fun _ => 0) (t2 1 (K - 1) fun _ => impulse) none form none =
        lfilter (t1 K fun _ => (0 : α)) (t1 0 fun _ => 0) (t2 1 (K - 1) fun _ => impulse) none form none ∧
      lfilter (t1 K fun k => if k = K - 1 then (1 : α) else 0) (t1 0 fun _ => 0) (t2 1 K fun _ => impulse) none form none ≠
        lfilter (t1 K fun _ => (0 : α)) (t1 0 fun _ => 0) (t2 1 K fun _ => impulse) none form none := by
  have fir : ∀ (g : Nat → α) (N : Nat), 0 < N → lfilter (t1 K g) (t1 0 fun _ => (0 : α)) (t2 1 N fun _ => impulse) none form none =
      .ok (t2 1 N fun _ => zext K g, none) := fun g N hN => by
    obtain ⟨y, hy, e⟩ := lfilter_series2 (B := 1) (u := none) (Rows.shared g) (Rows.shared (K := 0) fun _ => (0 : α)) (fun _ => impulse) hf
      (by decide) (by omega : 0 < K) (by omega) hN (by simp)
    refine e.trans (ok_pair (t2_congr rfl rfl fun i t _ _ => ?_) rfl)
    have d : PowerSeries.mk (denom 0 fun _ => (0 : α)) = 1 := by
      rw [← mk_impulse]; congr 1
    have := hy i
    rw [d, one_mul, mk_impulse, mul_one] at this
    exact congrFun (mk_inj this) t
  rw [fir _ _ (by omega), fir _ _ (by omega), fir _ _ (by omega), fir _ _ (by omega)]
  constructor
  · refine ok_pair (t2_congr rfl rfl fun i t _ ht => ?_) rfl
    simp only [zext]
    split <;> [rw [if_neg (by omega)]; rfl]
  · intro h
    have e := t2_eq_iff.1 (Prod.mk.inj (Except.ok.inj h)).1
    have := e 0 (K - 1) Nat.one_pos (by omega)
    simp only [zext, if_pos (show K - 1 < K by omega), if_true] at this
    exact one_ne_zero this

example := C84_lfilter_sharp (α := ℤ) (K := 5) (form := .tdf2) (faithful_int _ (by simp)) (by decide)

end filters

/-- The powers of two matrices are the same combinations of their first `M + M'` powers. -/
theorem pow_combination₂ {M M' : Nat} (A : Matrix (Fin M) (Fin M) α) (A' : Matrix (Fin M') (Fin M') α) (t : Nat) :
    ∃ c : Nat → α, A ^ t = ∑ i ∈ Finset.range (M + M'), c i • A ^ i ∧ A' ^ t = ∑ i ∈ Finset.range (M + M'), c i • A' ^ i := by
  nontriviality α
  have mon : (A.charpoly * A'.charpoly).Monic := A.charpoly_monic.mul A'.charpoly_monic
  have deg : (A.charpoly * A'.charpoly).natDegree = M + M' := by
    rw [A.charpoly_monic.natDegree_mul A'.charpoly_monic, A.charpoly_natDegree_eq_dim, A'.charpoly_natDegree_eq_dim, Fintype.card_fin,
      Fintype.card_fin]
  by_cases h0 : M + M' = 0
  · obtain ⟨rfl, rfl⟩ : M = 0 ∧ M' = 0 := by omega
    exact ⟨fun _ => 0, Subsingleton.elim _ _, Subsingleton.elim _ _⟩
  have hd : (Polynomial.X ^ t %ₘ (A.charpoly * A'.charpoly)).natDegree < M + M' := by
    have := Polynomial.natDegree_modByMonic_lt (Polynomial.X ^ t) mon (fun h => by rw [h, Polynomial.natDegree_one] at deg; omega)
    rwa [deg] at this
  have key : ∀ {m : Nat} (G : Matrix (Fin m) (Fin m) α), Polynomial.aeval G (A.charpoly * A'.charpoly) = 0 →
      G ^ t = ∑ i ∈ Finset.range (M + M'), (Polynomial.X ^ t %ₘ (A.charpoly * A'.charpoly)).coeff i • G ^ i := fun G hG => by
    rw [← Polynomial.aeval_eq_sum_range' hd G]
    have := congrArg (Polynomial.aeval G) (Polynomial.modByMonic_add_div (Polynomial.X ^ t) (A.charpoly * A'.charpoly))
    rw [map_add, map_mul, hG, zero_mul, add_zero, map_pow, Polynomial.aeval_X] at this
    exact this.symm
  exact ⟨_, key A (by rw [map_mul, Matrix.aeval_self_charpoly, zero_mul]), key A' (by rw [map_mul, Matrix.aeval_self_charpoly, mul_zero])⟩

section space
variable [StarRing α]

/-- **C84, `lti.state_space`** (any ring): two models, with `M` and `M'` states, that give the same output from rest for an impulse of
`M + M' + 1` samples at each input give the same output from rest for every signal. -/
theorem C84_state_space {B M M' P F : Nat} {A Bm C D A' Bm' C' D' : Nat → Nat → Nat → α} (hM : 0 < M) (hM' : 0 < M') {u u' : Option Int}
    (hu : ∀ i, u = some i → 1 ≤ i) (hu' : ∀ i, u' = some i → 1 ≤ i)
    (h : ∀ j, j < F → ∃ y f f',
      Lti.stateSpace (t3 B M M A) (t3 B (M + M' + 1) F fun _ t i => if t = 0 ∧ i = j then 1 else 0) (some (t3 B M F Bm)) (some (t3 B P M C))
        (some (t3 B P F D)) (some (t2 B M fun _ _ => 0)) u none = .ok (y, some f) ∧
      Lti.stateSpace (t3 B M' M' A') (t3 B (M + M' + 1) F fun _ t i => if t = 0 ∧ i = j then 1 else 0) (some (t3 B M' F Bm'))
        (some (t3 B P M' C')) (some (t3 B P F D')) (some (t2 B M' fun _ _ => 0)) u' none = .ok (y, some f'))
    (N : Nat) (x : Nat → Nat → Nat → α) (hN : 0 < N) {v v' : Option Int} (hv : ∀ i, v = some i → 1 ≤ i) (hv' : ∀ i, v' = some i → 1 ≤ i) :
    ∃ y f f',
      Lti.stateSpace (t3 B M M A) (t3 B N F x) (some (t3 B M F Bm)) (some (t3 B P M C)) (some (t3 B P F D)) (some (t2 B M fun _ _ => 0)) v
        none = .ok (y, some f) ∧
      Lti.stateSpace (t3 B M' M' A') (t3 B N F x) (some (t3 B M' F Bm')) (some (t3 B P M' C')) (some (t3 B P F D'))
        (some (t2 B M' fun _ _ => 0)) v' none = .ok (y, some f') := by
  have zero : ∀ m, vect m (fun _ => (0 : α)) = 0 := fun _ => rfl
  have unit : ∀ j (hj : j < F), vect F (fun i => if i = j then (1 : α) else 0) = Pi.single ⟨j, hj⟩ 1 := fun j hj => by
    funext i; simp only [vect, Pi.single_apply, Fin.ext_iff]
  -- the outputs of the test
  have test : ∀ b j t, b < B → j < F → t < M + M' + 1 →
      ((if t = 0 then mat P F (D b) else mat P M (C b) * mat M M (A b) ^ (t - 1) * mat M F (Bm b)) *ᵥ
          vect F (fun i => if i = j then (1 : α) else 0) =
        (if t = 0 then mat P F (D' b) else mat P M' (C' b) * mat M' M' (A' b) ^ (t - 1) * mat M' F (Bm' b)) *ᵥ
          vect F (fun i => if i = j then (1 : α) else 0)) := by
    intro b j t hb hj ht
    obtain ⟨y0, f0, f0', e, e'⟩ := h j hj
    obtain ⟨y1, f1, e1, k1, -⟩ := C57_markov (B := B) (P := P) A Bm C D (fun _ t i => if t = 0 ∧ i = j then (1 : α) else 0) (fun _ _ => 0) hM
      (Nat.succ_pos (M + M')) hu
    obtain ⟨y2, f2, e2, k2, -⟩ := C57_markov (B := B) (P := P) A' Bm' C' D' (fun _ t i => if t = 0 ∧ i = j then (1 : α) else 0) (fun _ _ => 0) hM'
      (Nat.succ_pos (M + M')) hu'
    have ey := (congrArg Prod.fst (Except.ok.inj (e1.symm.trans e))).trans (congrArg Prod.fst (Except.ok.inj (e2.symm.trans e'))).symm
    have : vect P (y1 b t) = vect P (y2 b t) := funext fun p => by
      have := congrArg (fun T : Tensor α => T.get [b, t, p]) ey
      dsimp only at this
      rwa [get_t3 hb ht p.2, get_t3 hb ht p.2] at this
    have imp : ∀ s, vect F (fun i => if s = 0 ∧ i = j then (1 : α) else 0) = if s = 0 then vect F (fun i => if i = j then (1 : α) else 0) else 0 :=
      fun s => by
        split
        · rename_i hs; simp [hs]
        · rename_i hs; simp only [hs, false_and, if_false]; rfl
    rw [k1, k2] at this
    simp only [zero, mulVec_zero, zero_add, imp] at this
    rcases t with _ | t
    · simpa using this
    · rw [Finset.sum_eq_single_of_mem 0 (by simp) (fun s _ hs => by rw [if_neg hs, mulVec_zero]),
        Finset.sum_eq_single_of_mem 0 (by simp) (fun s _ hs => by rw [if_neg hs, mulVec_zero])] at this
      simpa using this
  have cols : ∀ (X Y : Matrix (Fin P) (Fin F) α), (∀ j, j < F → X *ᵥ vect F (fun i => if i = j then (1 : α) else 0) =
      Y *ᵥ vect F (fun i => if i = j then (1 : α) else 0)) → X = Y := fun X Y hXY => by
    ext p j
    have := congrFun (hXY j j.2) p
    rw [unit j j.2] at this
    simpa using this
  have eD : ∀ b, b < B → mat P F (D b) = mat P F (D' b) := fun b hb => cols _ _ fun j hj => by
    simpa using test b j 0 hb hj (by omega)
  have eM : ∀ b t, b < B → t < M + M' → mat P M (C b) * mat M M (A b) ^ t * mat M F (Bm b) =
      mat P M' (C' b) * mat M' M' (A' b) ^ t * mat M' F (Bm' b) := fun b t hb ht => cols _ _ fun j hj => by
    simpa using test b j (t + 1) hb hj (by omega)
  have all : ∀ b t, b < B → mat P M (C b) * mat M M (A b) ^ t * mat M F (Bm b) =
      mat P M' (C' b) * mat M' M' (A' b) ^ t * mat M' F (Bm' b) := fun b t hb => by
    obtain ⟨c, h1, h2⟩ := pow_combination₂ (mat M M (A b)) (mat M' M' (A' b)) t
    rw [h1, h2]
    simp only [Matrix.mul_sum, Matrix.sum_mul, Matrix.mul_smul, Matrix.smul_mul]
    exact Finset.sum_congr rfl fun i hi => by rw [eM b i hb (Finset.mem_range.1 hi)]
  obtain ⟨y1, f1, e1, k1, -⟩ := C57_markov (B := B) (P := P) A Bm C D x (fun _ _ => 0) hM hN hv
  obtain ⟨y2, f2, e2, k2, -⟩ := C57_markov (B := B) (P := P) A' Bm' C' D' x (fun _ _ => 0) hM' hN hv'
  refine ⟨_, _, _, e1, e2.trans (ok_pair (t3_congr rfl rfl rfl fun b t p hb ht hp => ?_) rfl)⟩
  have : vect P (y2 b t) = vect P (y1 b t) := by
    rw [k1, k2, zero, zero, mulVec_zero, mulVec_zero, mulVec_zero, mulVec_zero, eD b hb]
    exact congrArg₂ (· + ·) (congrArg₂ (· + ·) rfl (Finset.sum_congr rfl fun k _ => by rw [all b _ hb])) rfl
  exact congrFun this ⟨p, hp⟩

/-- Shift register and pole at zero: `y_t = x_{t-1}`, once with one state and once with two. -/
example := C84_state_space (α := ℤ) (B := 1) (M := 1) (M' := 2) (P := 1) (F := 1) (A := fun _ _ _ => 0) (Bm := fun _ _ _ => 1)
  (C := fun _ _ _ => 1) (D := fun _ _ _ => 0) (A' := fun _ _ _ => 0) (Bm' := fun _ i _ => if i = 0 then 1 else 0) (C' := fun _ _ _ => 1)
  (D' := fun _ _ _ => 0) (by decide) (by decide) (u := none) (u' := none) (by simp) (by simp)
  (fun j hj => by
    obtain ⟨y, f, e, k, -⟩ := C57_markov (α := ℤ) (B := 1) (N := 4) (M := 1) (P := 1) (F := 1) (u := none) (fun _ _ _ => 0) (fun _ _ _ => 1)
      (fun _ _ _ => 1) (fun _ _ _ => 0) (fun _ t i => if t = 0 ∧ i = j then 1 else 0) (fun _ _ => 0) (by decide) (by decide) (by simp)
    obtain ⟨y', f', e', k', -⟩ := C57_markov (α := ℤ) (B := 1) (N := 4) (M := 2) (P := 1) (F := 1) (u := none) (fun _ _ _ => 0)
      (fun _ i _ => if i = 0 then 1 else 0) (fun _ _ _ => 1) (fun _ _ _ => 0) (fun _ t i => if t = 0 ∧ i = j then 1 else 0) (fun _ _ => 0)
      (by decide) (by decide) (by simp)
    refine ⟨_, _, _, e, e'.trans (ok_pair (t3_congr rfl rfl rfl fun b t p hb ht hp => ?_) rfl)⟩
    obtain rfl : j = 0 := by omega
    refine congrFun (?_ : vect 1 (y' b t) = vect 1 (y b t)) ⟨p, hp⟩
    rw [k, k']
    interval_cases t <;> decide +kernel)

/-- **`M + M'` samples do not decide**: `s' = s + x` and `s' = 2 s + x`, both with output `s`, answer alike to an impulse of two
samples but not of three. -/
theorem C84_state_space_sharp :
    (∃ y f f', Lti.stateSpace (t3 1 1 1 fun _ _ _ => (1 : ℤ)) (t3 1 2 1 fun _ t _ => impulse t) (some (t3 1 1 1 fun _ _ _ => 1))
        (some (t3 1 1 1 fun _ _ _ => 1)) (some (t3 1 1 1 fun _ _ _ => 0)) (some (t2 1 1 fun _ _ => 0)) none none = .ok (y, some f) ∧
      Lti.stateSpace (t3 1 1 1 fun _ _ _ => (2 : ℤ)) (t3 1 2 1 fun _ t _ => impulse t) (some (t3 1 1 1 fun _ _ _ => 1))
        (some (t3 1 1 1 fun _ _ _ => 1)) (some (t3 1 1 1 fun _ _ _ => 0)) (some (t2 1 1 fun _ _ => 0)) none none = .ok (y, some f')) ∧
    ¬ ∃ y f f', Lti.stateSpace (t3 1 1 1 fun _ _ _ => (1 : ℤ)) (t3 1 3 1 fun _ t _ => impulse t) (some (t3 1 1 1 fun _ _ _ => 1))
        (some (t3 1 1 1 fun _ _ _ => 1)) (some (t3 1 1 1 fun _ _ _ => 0)) (some (t2 1 1 fun _ _ => 0)) none none = .ok (y, some f) ∧
      Lti.stateSpace (t3 1 1 1 fun _ _ _ => (2 : ℤ)) (t3 1 3 1 fun _ t _ => impulse t) (some (t3 1 1 1 fun _ _ _ => 1))
        (some (t3 1 1 1 fun _ _ _ => 1)) (some (t3 1 1 1 fun _ _ _ => 0)) (some (t2 1 1 fun _ _ => 0)) none none = .ok (y, some f') := by
  have run := fun (N : Nat) (hN : 0 < N) (c : ℤ) => C57_markov (B := 1) (M := 1) (P := 1) (F := 1) (u := none) (fun _ _ _ => c)
    (fun _ _ _ => 1) (fun _ _ _ => 1) (fun _ _ _ => 0) (fun _ t _ => impulse t) (fun _ _ => 0) (by decide) hN (by simp)
  constructor
  · obtain ⟨y, f, e, k, -⟩ := run 2 (by decide) 1
    obtain ⟨y', f', e', k', -⟩ := run 2 (by decide) 2
    refine ⟨_, _, _, e, e'.trans (ok_pair (t3_congr rfl rfl rfl fun b t p hb ht hp => ?_) rfl)⟩
    refine congrFun (?_ : vect 1 (y' b t) = vect 1 (y b t)) ⟨p, hp⟩
    rw [k, k']
    interval_cases t <;> decide +kernel
  · rintro ⟨y0, f0, f0', h, h'⟩
    obtain ⟨y, f, e, k, -⟩ := run 3 (by decide) 1
    obtain ⟨y', f', e', k', -⟩ := run 3 (by decide) 2
    have ey := (congrArg Prod.fst (Except.ok.inj (e.symm.trans h))).trans (congrArg Prod.fst (Except.ok.inj (e'.symm.trans h'))).symm
    have ey := congrArg (fun T : Tensor ℤ => T.get [0, 2, 0]) ey
    dsimp only at ey
    rw [get_t3 (by decide) (by decide) (by decide), get_t3 (by decide) (by decide) (by decide)] at ey
    have ev : vect 1 (y 0 2) = vect 1 (y' 0 2) := funext fun p => by rw [Subsingleton.elim p 0]; exact ey
    rw [k, k'] at ev
    exact absurd ev (by decide +kernel)

end space
end Props
