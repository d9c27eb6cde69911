import Verif.Model.ProtoPoly
import Verif.Proof.ListPoly
import Verif.Proof.Poly
import Mathlib.Data.List.GetD

/-! # Lemmas about philtorch/prototype/poly.py -/

namespace Phil.Proto
open Torch Spec Polynomial
variable {α : Type}

section
variable [CommRing α] [DecidableEq α]

/-- A coefficient list without superfluous leading zeros. -/
def Trimmed (l : List α) : Prop := 1 ≤ l.length ∧ (1 < l.length → l.getD 0 0 ≠ 0)

omit [CommRing α] in
theorem mem_nonzero [Zero α] (p : List α) (i : Nat) : i ∈ nonzero p ↔ i < p.length ∧ p.getD i 0 ≠ 0 := by
  simp [nonzero]

omit [CommRing α] in
theorem nonzero_sorted [Zero α] (p : List α) : (nonzero p).Pairwise (· < ·) := List.pairwise_lt_range.filter _

omit [CommRing α] in
theorem nonzero_head [Zero α] {p : List α} {i : Nat} {l : List Nat} (h : nonzero p = i :: l) :
    i < p.length ∧ p.getD i 0 ≠ 0 ∧ ∀ j < i, p.getD j 0 = 0 := by
  have hi := (mem_nonzero p i).1 (h ▸ List.mem_cons_self)
  refine ⟨hi.1, hi.2, fun j hj => ?_⟩
  by_contra hne
  have hm := (mem_nonzero p j).2 ⟨by omega, hne⟩
  have hs := nonzero_sorted p
  rw [h] at hm hs
  rcases List.mem_cons.1 hm with e | e
  · omega
  · have := (List.pairwise_cons.1 hs).1 j e
    omega

omit [CommRing α] in
theorem nonzero_nil [Zero α] {p : List α} (h : nonzero p = []) : p = List.replicate p.length 0 := by
  refine List.eq_replicate_iff.2 ⟨rfl, fun b hb => ?_⟩
  obtain ⟨i, hi, rfl⟩ := List.getElem_of_mem hb
  by_contra hne
  have := (mem_nonzero p i).2 ⟨hi, by rwa [List.getD_eq_getElem _ _ hi]⟩
  rw [h] at this
  cases this

omit [CommRing α] [DecidableEq α] in
theorem take_zeros [Zero α] {p : List α} {i : Nat} (hi : i ≤ p.length) (h : ∀ j < i, p.getD j 0 = 0) :
    p.take i = List.replicate i 0 := by
  refine List.ext_getElem (by simp [hi]) fun j h1 h2 => ?_
  have hj : j < i := by simpa using h2
  rw [List.getElem_take, List.getElem_replicate, ← h j hj, List.getD_eq_getElem _ _ (by omega)]

theorem listPoly_trim (p : List α) : listPoly (trimZeros p) = listPoly p := by
  unfold trimZeros
  split
  · rfl
  · split
    · rename_i h
      conv_rhs => rw [nonzero_nil h]
      rw [listPoly_zeros]; exact listPoly_zeros 1
    · rename_i i l h
      obtain ⟨h1, _, h3⟩ := nonzero_head h
      conv_rhs => rw [← List.take_append_drop i p, take_zeros h1.le h3, listPoly_zeros_append]

theorem trimmed_trim (p : List α) : Trimmed (trimZeros p) := by
  unfold trimZeros
  split
  · rename_i h; exact ⟨h.ge, fun h' => absurd h' (by omega)⟩
  · split
    · exact ⟨le_rfl, fun h' => absurd h' (by simp)⟩
    · rename_i i l h
      obtain ⟨h1, h2, _⟩ := nonzero_head h
      refine ⟨by rw [List.length_drop]; omega, fun _ => ?_⟩
      rw [List.getD_eq_getElem _ _ (by rw [List.length_drop]; omega), List.getElem_drop]
      rwa [List.getD_eq_getElem _ _ h1] at h2

omit [DecidableEq α] in
theorem degree_trimmed {l : List α} (h : Trimmed l) (h1 : 1 < l.length) : (listPoly l).natDegree = l.length - 1 := by
  refine natDegree_eq_of_le_of_coeff_ne_zero ?_ ?_
  · rw [natDegree_le_iff_coeff_eq_zero]
    intro k hk
    rw [coeff_listPoly, if_neg (by omega)]
  · rw [coeff_listPoly, if_pos (by omega), show l.length - 1 - (l.length - 1) = 0 by omega]
    exact h.2 h1

omit [DecidableEq α] in
/-- A trimmed list has one entry exactly if its polynomial is constant. -/
theorem length_trimmed {l : List α} (h : Trimmed l) : l.length = (listPoly l).natDegree + 1 := by
  rcases h.1.lt_or_eq with h1 | h1
  · rw [degree_trimmed h h1]; omega
  · obtain ⟨a, rfl⟩ := List.length_eq_one_iff.1 h1.symm
    rw [listPoly_singleton, natDegree_C]; rfl

theorem length_trim (p : List α) : (trimZeros p).length = (listPoly p).natDegree + 1 := by
  rw [length_trimmed (trimmed_trim p), listPoly_trim]

omit [DecidableEq α] in
theorem head_trimmed {l : List α} (h : Trimmed l) (h0 : listPoly l ≠ 0) : l.getD 0 0 ≠ 0 := by
  rcases h.1.lt_or_eq with h1 | h1
  · exact h.2 h1
  · obtain ⟨a, rfl⟩ := List.length_eq_one_iff.1 h1.symm
    rw [listPoly_singleton] at h0
    exact fun ha => h0 (by rw [show a = 0 from ha, C_0])

omit [DecidableEq α] in
theorem listPoly_polyadd (a b : List α) :
    listPoly (polyadd a b) = listPoly a + listPoly b ∧ (polyadd a b).length = max a.length b.length := by
  unfold polyadd
  simp only
  split
  · have h : a.length = b.length := by omega
    exact ⟨listPoly_zipWith_add _ _ h, by rw [List.length_zipWith]; omega⟩
  · split
    · have h : (List.replicate ((b.length : Int) - a.length).toNat 0 ++ a).length = b.length := by
        rw [List.length_append, List.length_replicate]; omega
      exact ⟨by rw [listPoly_zipWith_add _ _ h, listPoly_zeros_append], by rw [List.length_zipWith, h]; omega⟩
    · have h : a.length = (List.replicate (-((b.length : Int) - a.length)).toNat 0 ++ b).length := by
        rw [List.length_append, List.length_replicate]; omega
      exact ⟨by rw [listPoly_zipWith_add _ _ h, listPoly_zeros_append], by rw [List.length_zipWith, ← h]; omega⟩

omit [DecidableEq α] in
theorem listPoly_polysub (a b : List α) :
    listPoly (polysub a b) = listPoly a - listPoly b ∧ (polysub a b).length = max a.length b.length := by
  unfold polysub
  simp only
  split
  · have h : a.length = b.length := by omega
    exact ⟨listPoly_zipWith_sub _ _ h, by rw [List.length_zipWith]; omega⟩
  · split
    · have h : (List.replicate ((b.length : Int) - a.length).toNat 0 ++ a).length = b.length := by
        rw [List.length_append, List.length_replicate]; omega
      exact ⟨by rw [listPoly_zipWith_sub _ _ h, listPoly_zeros_append], by rw [List.length_zipWith, h]; omega⟩
    · have h : a.length = (List.replicate (-((b.length : Int) - a.length)).toNat 0 ++ b).length := by
        rw [List.length_append, List.length_replicate]; omega
      exact ⟨by rw [listPoly_zipWith_sub _ _ h, listPoly_zeros_append], by rw [List.length_zipWith, ← h]; omega⟩

omit [DecidableEq α] in
theorem getD_padded (p q : Nat) (x : List α) (j : Nat) :
    (List.replicate p 0 ++ x ++ List.replicate q 0).getD j 0 = if p ≤ j then x.getD (j - p) 0 else 0 := by
  rcases Nat.lt_or_ge j p with h | h
  · rw [if_neg (by omega), List.append_assoc, List.getD_append _ _ _ _ (by simpa using h)]
    simp
  · rw [if_pos h, List.append_assoc, List.getD_append_right _ _ _ _ (by simpa using h), List.length_replicate]
    rcases Nat.lt_or_ge (j - p) x.length with h' | h'
    · rw [List.getD_append _ _ _ _ h']
    · rw [List.getD_append_right _ _ _ _ h', List.getD_eq_default x _ h']
      simp

omit [DecidableEq α] in
theorem listPoly_map_range (L : Nat) (f : Nat → α) : listPoly ((List.range L).map f) = descPoly L f := by
  rw [listPoly, List.length_map, List.length_range, descPoly, descPoly]
  refine Finset.sum_congr rfl fun i hi => ?_
  have := Finset.mem_range.1 hi
  rw [List.getD_eq_getElem _ _ (by simpa using this)]
  simp

omit [DecidableEq α] in
theorem descPoly_list {L : Nat} {f : Nat → α} {l : List α} (hl : l.length = L) (h : ∀ t < L, f t = l.getD t 0) :
    descPoly L f = listPoly l := by
  rw [listPoly, hl, descPoly, descPoly]
  exact Finset.sum_congr rfl fun i hi => by rw [h i (Finset.mem_range.1 hi)]

omit [DecidableEq α] in
theorem descPoly_sum (L n : Nat) (w : Nat → α) (g : Nat → Nat → α) :
    descPoly L (fun t => ∑ k ∈ Finset.range n, w k * g k t) = ∑ k ∈ Finset.range n, C (w k) * descPoly L (g k) := by
  simp only [descPoly, Finset.mul_sum]
  rw [Finset.sum_comm]
  refine Finset.sum_congr rfl fun t _ => ?_
  rw [map_sum, Finset.sum_mul]
  refine Finset.sum_congr rfl fun k _ => ?_
  rw [C_mul]; ring

omit [DecidableEq α] in
/-- Convolution of the coefficients is multiplication. -/
theorem listPoly_conv1d (a b : List α) (ha : 1 ≤ a.length) (hab : a.length ≤ b.length) :
    listPoly (conv1d b a.reverse (a.length - 1)) = listPoly a * listPoly b ∧
      (conv1d b a.reverse (a.length - 1)).length = a.length + b.length - 1 := by
  constructor
  · unfold conv1d
    rw [listPoly_map_range, List.length_reverse, descPoly_sum]
    have key : ∀ k ∈ Finset.range a.length, descPoly (b.length + 2 * (a.length - 1) - a.length + 1)
        (fun t => (List.replicate (a.length - 1) 0 ++ b ++ List.replicate (a.length - 1) 0).getD (t + k) 0) =
        listPoly b * X ^ k := by
      intro k hk
      have hk := Finset.mem_range.1 hk
      have e : listPoly (List.replicate (a.length - 1 - k) 0 ++ b ++ List.replicate k 0) = listPoly b * X ^ k := by
        rw [listPoly_append, listPoly_zeros_append, listPoly_zeros, List.length_replicate, add_zero]
      rw [← e]
      refine descPoly_list (by simp; omega) fun t ht => ?_
      rw [getD_padded, getD_padded]
      by_cases h : a.length - 1 ≤ t + k
      · rw [if_pos h, if_pos (by omega)]; congr 1; omega
      · rw [if_neg h, if_neg (by omega)]
    rw [Finset.sum_congr rfl fun k hk => by rw [key k hk]]
    rw [show ∀ s : α[X], s * listPoly b = s * listPoly b from fun _ => rfl]
    have : listPoly a = ∑ k ∈ Finset.range a.length, C (a.reverse.getD k 0) * X ^ k := by
      rw [listPoly, descPoly, ← Finset.sum_range_reflect]
      refine Finset.sum_congr rfl fun k hk => ?_
      have hk := Finset.mem_range.1 hk
      rw [List.getD_eq_getElem _ _ (by omega), List.getD_eq_getElem _ _ (by simpa using hk), List.getElem_reverse]
      congr 2; omega
    rw [this, Finset.sum_mul]
    refine Finset.sum_congr rfl fun k _ => by ring
  · unfold conv1d
    simp only [List.length_map, List.length_range, List.length_reverse]
    omega

theorem listPoly_polymul (a b : List α) : listPoly (polymul a b) = listPoly a * listPoly b := by
  have h1 := trimmed_trim a
  have h2 := trimmed_trim b
  rw [← listPoly_trim a, ← listPoly_trim b, polymul, polymulTrimmed]
  split
  · rw [(listPoly_conv1d _ _ h2.1 (by omega)).1, mul_comm]
  · rw [(listPoly_conv1d _ _ h1.1 (by omega)).1]

theorem length_polymul (a b : List α) :
    (polymul a b).length = (trimZeros a).length + (trimZeros b).length - 1 := by
  have h1 := trimmed_trim a
  have h2 := trimmed_trim b
  rw [polymul, polymulTrimmed]
  split
  · rw [(listPoly_conv1d _ _ h2.1 (by omega)).2]; omega
  · rw [(listPoly_conv1d _ _ h1.1 (by omega)).2]

theorem polysmulAux_spec (fuel : Nat) : ∀ (ps : List (List α)), ps ≠ [] → ps.length ≤ fuel →
    ∃ r, polysmulAux fuel ps = .ok r ∧ listPoly r = (ps.map listPoly).prod := by
  induction fuel with
  | zero => intro ps h1 h2; exact absurd (List.length_eq_zero_iff.1 (by omega)) h1
  | succ fuel ih =>
    intro ps h1 h2
    have hl : 1 ≤ ps.length := List.length_pos_iff.2 h1
    unfold polysmulAux
    by_cases h : ps.length = 1
    · obtain ⟨p, rfl⟩ := List.length_eq_one_iff.1 h
      exact ⟨p, rfl, by simp⟩
    · rw [if_neg h]
      obtain ⟨r1, e1, s1⟩ := ih (ps.take (ps.length / 2)) (by
        intro hn; have := congrArg List.length hn; rw [List.length_take] at this; simp only [List.length_nil] at this; omega)
        (by rw [List.length_take]; omega)
      obtain ⟨r2, e2, s2⟩ := ih (ps.drop (ps.length / 2)) (by
        intro hn; have := congrArg List.length hn; rw [List.length_drop] at this; simp only [List.length_nil] at this; omega)
        (by rw [List.length_drop]; omega)
      refine ⟨polymul r1 r2, by rw [e1, e2]; rfl, ?_⟩
      rw [listPoly_polymul, s1, s2, ← List.prod_append, ← List.map_append, List.take_append_drop]

theorem polysmul_spec (ps : List (List α)) (h : ps ≠ []) :
    ∃ r, polysmul ps = .ok r ∧ listPoly r = (ps.map listPoly).prod := polysmulAux_spec _ ps h (by omega)

omit [DecidableEq α] in
theorem horner_scalar (x : α) (l : List α) (a : α) :
    l.foldl (hornerStep (.scalar x)) (.scalar a) = .scalar (l.foldl (fun y c => y * x + c) a) := by
  induction l generalizing a with
  | nil => rfl
  | cons c l ih => rw [List.foldl_cons, List.foldl_cons]; exact ih _

omit [DecidableEq α] in
theorem horner_vec (xs : List α) (l : List α) (f : α → α) :
    l.foldl (hornerStep (.vec xs)) (.vec (xs.map f)) = .vec (xs.map fun x => l.foldl (fun y c => y * x + c) (f x)) := by
  induction l generalizing f with
  | nil => rfl
  | cons c l ih =>
    rw [List.foldl_cons]
    rw [show hornerStep (.vec xs) (.vec (xs.map f)) c = .vec (xs.map fun x => f x * x + c) by
      simp only [hornerStep]
      congr 1
      rw [List.zipWith_map_left, List.zipWith_self]]
    rw [ih]; rfl

theorem polyval_scalar (p : List α) (x : α) (h : (listPoly p).natDegree ≠ 0) :
    polyval p (.scalar x) = .scalar ((listPoly p).eval x) := by
  have hl := length_trim p
  have hp := listPoly_trim p
  unfold polyval
  rw [if_neg (by omega), ← hp]
  cases e : trimZeros p with
  | nil => rw [e] at hl; simp at hl
  | cons a l => rw [eval_listPoly]; exact horner_scalar x l a

theorem polyval_vec (p : List α) (xs : List α) (h : (listPoly p).natDegree ≠ 0) :
    polyval p (.vec xs) = .vec (xs.map fun x => (listPoly p).eval x) := by
  have hl := length_trim p
  have hp := listPoly_trim p
  unfold polyval
  rw [if_neg (by omega), ← hp]
  cases e : trimZeros p with
  | nil => rw [e] at hl; simp at hl
  | cons a l =>
    cases l with
    | nil => rw [e] at hl; simp at hl; omega
    | cons c l =>
      rw [List.tail_cons, List.foldl_cons]
      rw [show hornerStep (.vec xs) (.scalar ((a :: c :: l).getD 0 0)) c = .vec (xs.map fun x => a * x + c) from rfl, horner_vec]
      refine congrArg Val.vec (List.map_congr_left fun x _ => ?_)
      rw [eval_listPoly]; rfl

theorem polyval_const (p : List α) (x : Val α) (h : (listPoly p).natDegree = 0) :
    polyval p x = .vec [(listPoly p).coeff 0] := by
  have hl := length_trim p
  unfold polyval
  rw [if_pos (by omega)]
  obtain ⟨a, ha⟩ := List.length_eq_one_iff.1 (show (trimZeros p).length = 1 by omega)
  rw [← listPoly_trim p, ha, listPoly_singleton, coeff_C_zero]

omit [DecidableEq α] in
theorem listPoly_derivative (l : List α) (hl : 1 ≤ l.length) :
    listPoly (l.dropLast.zipWith (· * ·) ((List.range (l.length - 1)).map fun i => ((l.length - 1 - i : Nat) : α))) =
      derivative (listPoly l) := by
  ext k
  rw [coeff_derivative, coeff_listPoly, coeff_listPoly]
  simp only [List.length_zipWith, List.length_dropLast, List.length_map, List.length_range, Nat.min_self]
  by_cases h : k < l.length - 1
  · rw [if_pos h, if_pos (by omega), List.getD_eq_getElem _ _ (by simp; omega), List.getElem_zipWith, List.getElem_dropLast,
      List.getElem_map, List.getElem_range, List.getD_eq_getElem _ _ (by omega)]
    have e1 : l.length - 1 - (k + 1) = l.length - 1 - 1 - k := by omega
    have e2 : l.length - 1 - (l.length - 1 - 1 - k) = k + 1 := by omega
    rw [e2]
    congr 1
    · congr 1; omega
    · push_cast; rfl
  · rw [if_neg h, if_neg (by omega), zero_mul]

theorem listPoly_polyder (m : Nat) (p : List α) : listPoly (polyderNat p m) = derivative^[m] (listPoly p) := by
  induction m generalizing p with
  | zero => rfl
  | succ m ih =>
    unfold polyderNat
    split
    · rename_i h
      have h0 : (listPoly p).natDegree = 0 := by have := length_trim p; omega
      rw [Function.iterate_succ_apply, derivative_of_natDegree_zero h0, iterate_derivative_zero, listPoly_singleton, C_0]
    · rw [ih, Function.iterate_succ_apply, listPoly_derivative _ (trimmed_trim p).1, listPoly_trim]

end
end Phil.Proto
