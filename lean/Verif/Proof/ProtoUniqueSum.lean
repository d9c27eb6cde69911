import Verif.Proof.ProtoUnique
import Verif.Proof.ProtoFactors
import Verif.Torch.Fails

/-! # `unique_roots` with an arbitrary tolerance; `_compute_factors` with powers -/

namespace Phil.Proto
open Torch Polynomial
variable {α : Type} [Field α] [DecidableEq α]

/-- Splitting off the elements of a group. -/
theorem filter_split (g used : Nat → Bool) (hg : ∀ j, g j = true → used j = false) (l : List Nat) (d : Nat → Bool)
    (hd : ∀ j ∈ l, d j = g j) :
    (l.filter g).length + (l.filter fun j => !(used j || d j)).length = (l.filter fun j => !used j).length := by
  induction l with
  | nil => rfl
  | cons j l ih =>
    have ih := ih fun k hk => hd k (List.mem_cons_of_mem _ hk)
    have hj := hd j (by simp)
    simp only [List.filter_cons, hj]
    cases h1 : g j with
    | true => simp [hg j h1, ← ih]; omega
    | false => cases h2 : used j <;> simp [← ih]; omega

omit [DecidableEq α] in
theorem uniqueLoop_sum {close : α → α → Bool} {p : List α} (hclose : ∀ x ∈ p, close x x = true) (cplx : List Bool) (c : Nat) :
    ∀ (i : Nat) (used : Nat → Bool), i + c = p.length → (∀ j < i, used j = true) →
    ∃ u, uniqueLoop close .mean p cplx c i used = .ok u ∧
      (u.map fun x => x.2.1).sum = ((List.range p.length).filter fun j => !used j).length := by
  induction c with
  | zero =>
    intro i used hn hu
    refine ⟨[], rfl, ?_⟩
    rw [List.filter_eq_nil_iff.2]
    · rfl
    · intro j hj
      have := hu j (by have := List.mem_range.1 hj; omega)
      simp [this]
  | succ c ih =>
    intro i used hn hu
    unfold uniqueLoop
    by_cases h : used i = true
    · rw [if_pos h]
      refine ih (i + 1) used (by omega) fun j hj => ?_
      rcases Nat.lt_succ_iff_lt_or_eq.1 hj with h1 | h1
      · exact hu j h1
      · rw [h1]; exact h
    · rw [if_neg h]
      have hi : i ∈ groupOf close p cplx used i := by
        refine List.mem_filter.2 ⟨List.mem_range.2 (by omega), ?_⟩
        have h1 : close (p.getD i 0) (p.getD i 0) = true := by
          rw [List.getD_eq_getElem _ _ (by omega)]
          exact hclose _ (List.getElem_mem _)
        rw [h1]
        have h2 : used i = false := by simpa using h
        rw [h2]
        cases cplx.getD i false <;> simp
      obtain ⟨u, hu1, hu2⟩ := ih (i + 1) (fun j => used j || decide (j ∈ groupOf close p cplx used i)) (by omega) (by
        intro j hj
        rcases Nat.lt_succ_iff_lt_or_eq.1 hj with h1 | h1
        · simp [hu j h1]
        · subst h1; simp [hi])
      refine ⟨_, bind_step (by rfl) (bind_step hu1 rfl), ?_⟩
      rw [List.map_cons, List.sum_cons, hu2]
      simp only
      unfold groupOf at hi ⊢
      refine filter_split _ used ?_ (List.range p.length) _ fun j hj => ?_
      · intro j hj
        simp only [Bool.and_eq_true] at hj
        simpa using hj.1.2
      · rw [Bool.eq_iff_iff, decide_eq_true_iff, List.mem_filter]
        exact ⟨fun h => h.2, fun h => ⟨hj, h⟩⟩

omit [DecidableEq α] in
theorem uniqueRoots_sum {close : α → α → Bool} {p : List α} (hp : p ≠ []) (hclose : ∀ x ∈ p, close x x = true)
    (cplx : Option (List Bool)) :
    ∃ u, uniqueRoots close .mean p cplx = .ok u ∧ (u.map fun x => x.2.1).sum = p.length := by
  obtain ⟨u, h1, h2⟩ := uniqueLoop_sum hclose (cplx.getD (List.replicate p.length true)) p.length 0 (fun _ => false) (by omega)
    (by intro j hj; omega)
  have h3 : (u.map fun x => x.2.1).sum = p.length := by rw [h2]; simp
  refine ⟨u, ?_, h3⟩
  unfold uniqueRoots
  refine check_step (by decide) (bind_step h1 (check_step ?_ rfl))
  rintro rfl
  exact hp (List.length_eq_zero_iff.1 h3.symm)

omit [DecidableEq α] in
theorem uniqueRoots_fails (close : α → α → Bool) {rtype : RType} (h : rtype ≠ .mean) (p : List α) (cplx : Option (List Bool)) :
    Fails (uniqueRoots close rtype p cplx) := by
  unfold uniqueRoots
  by_cases ho : rtype = .other
  · exact fails_check fun h1 => (h1 ho).elim
  · refine fails_bind fun _ _ => ?_
    cases p with
    | nil => exact fails_bind fun l hl => by cases hl; exact fails_check fun h1 => (h1 rfl).elim
    | cons x p =>
      refine fails_left ?_
      rw [List.length_cons]
      unfold uniqueLoop
      rw [if_neg (by simp)]
      refine fails_left ?_
      cases rtype with
      | mean => exact absurd rfl h
      | other => exact absurd rfl ho
      | max => exact fails_of_isOk rfl
      | min => exact fails_of_isOk rfl

omit [DecidableEq α] in
theorem facs_true (rm : List (α × Nat)) : ∀ pre : α[X],
    List.Forall₂ (fun x f => f * (X - C x.1) ^ x.2 = pre * prodPow rm)
      (rm.flatMap fun x => (List.range x.2).map fun s => (x.1, s + 1)) (facs true pre rm) := by
  induction rm with
  | nil => intro pre; exact .nil
  | cons x l ih =>
    intro pre
    rw [List.flatMap_cons]
    unfold facs
    refine List.rel_append ?_ ?_
    · have e : exps true x.2 = (List.range x.2).map fun s => x.2 - 1 - s := by
        unfold exps
        rw [List.filter_eq_self.2 (by simp)]
        refine List.ext_getElem (by simp) fun k h1 h2 => ?_
        simp
      rw [e, List.map_map, List.forall₂_map_left_iff, List.forall₂_map_right_iff, List.forall₂_same]
      intro s hs
      have hs := List.mem_range.1 hs
      simp only [Function.comp, prodPow, List.map_cons, List.prod_cons]
      have : (X - C x.1) ^ x.2 = (X - C x.1) ^ (x.2 - 1 - s) * (X - C x.1) ^ (s + 1) := by
        rw [← pow_add]; congr 1; omega
      rw [this]
      ring
    · have := ih (pre * (X - C x.1) ^ x.2)
      refine this.imp fun y f h => ?_
      rw [h, prodPow, prodPow, List.map_cons, List.prod_cons]; ring

end Phil.Proto
