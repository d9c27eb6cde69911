import Verif.Model.ProtoSignal
import Verif.Torch.Loop
import Mathlib.Data.List.Count
import Mathlib.Data.List.Perm.Basic
import Mathlib.Data.List.GetD
import Mathlib.Data.List.Nodup
import Mathlib.Algebra.CharZero.Defs
import Mathlib.Algebra.BigOperators.Group.List.Basic
import Mathlib.Tactic.Linarith

/-! # Grouping of roots, philtorch/prototype/signal.py -/

namespace Phil.Proto
open Torch

section
variable {κ : Type} [DecidableEq κ]

/-- The indices below `n` whose key occurs for the first time. -/
def firsts (key : Nat → κ) (i c : Nat) : List Nat := (List.range' i c).filter fun j => decide (∀ i' < j, key i' ≠ key j)

theorem firsts_nodup (key : Nat → κ) (n : Nat) : ((firsts key 0 n).map key).Nodup := by
  refine List.Nodup.map_on ?_ ((List.nodup_range' (step := 1)).filter _)
  intro x hx y hy h
  have h1 := of_decide_eq_true (List.mem_filter.1 hx).2
  have h2 := of_decide_eq_true (List.mem_filter.1 hy).2
  rcases lt_trichotomy x y with h3 | h3 | h3
  · exact absurd h (h2 x h3)
  · exact h3
  · exact absurd h.symm (h1 y h3)

theorem mem_firsts (key : Nat → κ) (n j : Nat) (hj : j < n) : key j ∈ (firsts key 0 n).map key := by
  induction j using Nat.strongRecOn with
  | _ j ih =>
    by_cases h : ∀ i' < j, key i' ≠ key j
    · exact List.mem_map.2 ⟨j, List.mem_filter.2 ⟨by rw [List.mem_range'_1]; omega, decide_eq_true h⟩, rfl⟩
    · simp only [not_forall, not_not] at h
      obtain ⟨i', h1, h2⟩ := h
      rw [← h2]
      exact ih i' h1 (by omega)

theorem firsts_perm (key : Nat → κ) (n : Nat) :
    ((firsts key 0 n).flatMap fun i => List.replicate ((List.range n).filter fun j => decide (key j = key i)).length (key i)).Perm
      ((List.range n).map key) := by
  rw [List.perm_iff_count]
  intro a
  have hc : ∀ i, ((List.range n).filter fun j => decide (key j = key i)).length = List.count (key i) ((List.range n).map key) := by
    intro i
    rw [List.count, List.countP_map, List.countP_eq_length_filter]
    rfl
  rw [List.count_flatMap]
  have : ∀ l : List Nat, (l.map (List.count a ∘ fun i =>
      List.replicate ((List.range n).filter fun j => decide (key j = key i)).length (key i))).sum =
      List.count a (l.map key) * List.count a ((List.range n).map key) := by
    intro l
    induction l with
    | nil => simp
    | cons i l ih =>
      rw [List.map_cons, List.sum_cons, ih, Function.comp, List.count_replicate, List.map_cons, List.count_cons, hc]
      by_cases h : key i = a
      · simp [h]; ring
      · simp [h]
  rw [this]
  by_cases ha : a ∈ (List.range n).map key
  · obtain ⟨j, hj, rfl⟩ := List.mem_map.1 ha
    rw [List.count_eq_one_of_mem (firsts_nodup key n) (mem_firsts key n j (List.mem_range.1 hj)), one_mul]
  · rw [List.count_eq_zero_of_not_mem ha, mul_zero]

end

section
variable {α : Type} [Field α] [DecidableEq α]

/-- A root with its flag. -/
def rootKey (p : List α) (cplx : List Bool) (j : Nat) : α × Bool := (p.getD j 0, cplx.getD j false)

theorem uniqueLoop_eq [CharZero α] {close : α → α → Bool} {p : List α} (hclose : ∀ x ∈ p, ∀ y ∈ p, close x y = decide (x = y))
    (cplx : List Bool) (c : Nat) : ∀ (i : Nat) (used : Nat → Bool), i + c = p.length →
    (∀ j < p.length, used j = true ↔ ∃ i' < i, rootKey p cplx i' = rootKey p cplx j) →
    uniqueLoop close .mean p cplx c i used = .ok ((firsts (rootKey p cplx) i c).map fun i =>
      (p.getD i 0, ((List.range p.length).filter fun j => decide (rootKey p cplx j = rootKey p cplx i)).length,
        cplx.getD i false)) := by
  induction c with
  | zero => intro i used _ _; rfl
  | succ c ih =>
    intro i used hn hu
    have hi : i < p.length := by omega
    have hlist : firsts (rootKey p cplx) i (c + 1) =
        if used i then firsts (rootKey p cplx) (i + 1) c else i :: firsts (rootKey p cplx) (i + 1) c := by
      unfold firsts
      rw [List.range'_succ, List.filter_cons]
      by_cases h : used i = true
      · rw [if_pos h, if_neg]
        obtain ⟨i', h1, h2⟩ := (hu i hi).1 h
        intro hd
        exact of_decide_eq_true hd i' h1 h2
      · rw [if_neg h, if_pos]
        refine decide_eq_true fun i' h1 h2 => h ((hu i hi).2 ⟨i', h1, h2⟩)
    have step : ∀ used' : Nat → Bool, (∀ j < p.length, used' j = true ↔ used j = true ∨ rootKey p cplx i = rootKey p cplx j) →
        ∀ j < p.length, used' j = true ↔ ∃ i' < i + 1, rootKey p cplx i' = rootKey p cplx j := by
      intro used' h j hj
      rw [h j hj, hu j hj]
      constructor
      · rintro (⟨i', h1, h2⟩ | h1)
        · exact ⟨i', by omega, h2⟩
        · exact ⟨i, by omega, h1⟩
      · rintro ⟨i', h1, h2⟩
        rcases Nat.lt_succ_iff_lt_or_eq.1 h1 with h3 | h3
        · exact Or.inl ⟨i', h3, h2⟩
        · exact Or.inr (h3 ▸ h2)
    unfold uniqueLoop
    rw [hlist]
    by_cases h : used i = true
    · rw [if_pos h, if_pos h]
      refine ih (i + 1) used (by omega) (step used fun j hj => ⟨Or.inl, ?_⟩)
      rintro (h1 | h1)
      · exact h1
      · obtain ⟨i', h2, h3⟩ := (hu i hi).1 h
        exact (hu j hj).2 ⟨i', h2, h3.trans h1⟩
    · rw [if_neg h, if_neg h]
      have hg : groupOf close p cplx used i = (List.range p.length).filter fun j => decide (rootKey p cplx j = rootKey p cplx i) := by
        unfold groupOf
        refine List.filter_congr fun j hj => ?_
        have hj : j < p.length := List.mem_range.1 hj
        have m : ∀ k, k < p.length → p.getD k 0 ∈ p := fun k hk => by
          rw [List.getD_eq_getElem _ _ hk]; exact List.getElem_mem _
        rw [hclose _ (m i hi) _ (m j hj)]
        rw [Bool.eq_iff_iff]
        simp only [Bool.and_eq_true, decide_eq_true_eq, Bool.not_eq_true', rootKey, Prod.mk.injEq]
        constructor
        · rintro ⟨⟨h1, _⟩, h3⟩
          refine ⟨h1.symm, ?_⟩
          cases e : cplx.getD i false <;> simp only [e] at h3 <;> simpa using h3
        · rintro ⟨h1, h2⟩
          refine ⟨⟨h1.symm, ?_⟩, ?_⟩
          · by_contra hc
            obtain ⟨i', h3, h4⟩ := (hu j hj).1 (by simpa using hc)
            refine h ((hu i hi).2 ⟨i', h3, ?_⟩)
            rw [h4]
            exact Prod.ext h1 h2
          · rw [h2]; cases cplx.getD i false <;> simp
      have hmem : i ∈ groupOf close p cplx used i := by
        rw [hg]; exact List.mem_filter.2 ⟨List.mem_range.2 hi, by simp⟩
      have hred : reduction .mean ((groupOf close p cplx used i).map fun j => p.getD j 0) = .ok (p.getD i 0) := by
        have he : (groupOf close p cplx used i).map (fun j => p.getD j 0) =
            List.replicate (groupOf close p cplx used i).length (p.getD i 0) := by
          refine List.eq_replicate_iff.2 ⟨by simp, fun b hb => ?_⟩
          obtain ⟨j, hj, rfl⟩ := List.mem_map.1 hb
          rw [hg] at hj
          exact congrArg Prod.fst (of_decide_eq_true (List.mem_filter.1 hj).2)
        have hlen : (groupOf close p cplx used i).length ≠ 0 := List.length_pos_of_mem hmem |>.ne'
        rw [he]
        unfold reduction
        simp only [List.sum_replicate, List.length_replicate, nsmul_eq_mul]
        rw [mul_div_cancel_left₀ _ (Nat.cast_ne_zero.2 hlen)]
      refine bind_step hred ?_
      refine bind_step (ih (i + 1) _ (by omega) (step _ fun j hj => ?_)) ?_
      · simp only [Bool.or_eq_true, decide_eq_true_eq]
        rw [hg, List.mem_filter, List.mem_range]
        simp only [hj, true_and, decide_eq_true_eq]
        exact or_congr Iff.rfl eq_comm
      · rw [hg]; rfl

/-- If roots closer than the tolerance are equal, `unique_roots` lists every root with flag once, with its multiplicity. -/
theorem uniqueRoots_eq [CharZero α] {close : α → α → Bool} {p : List α} (hp : p ≠ [])
    (hclose : ∀ x ∈ p, ∀ y ∈ p, close x y = decide (x = y)) (cplx : Option (List Bool))
    (hlen : ∀ c, cplx = some c → c.length = p.length) :
    ∃ u, uniqueRoots close .mean p cplx = .ok u ∧ (u.map fun x => (x.1, x.2.2)).Nodup ∧
      (u.flatMap fun x => List.replicate x.2.1 (x.1, x.2.2)).Perm (p.zip (cplx.getD (List.replicate p.length true))) ∧
      ∀ x ∈ u, 0 < x.2.1 := by
  obtain ⟨c, hc⟩ : ∃ c, c = cplx.getD (List.replicate p.length true) := ⟨_, rfl⟩
  have hcl : c.length = p.length := by
    cases cplx with
    | none => rw [hc]; simp
    | some d => rw [hc]; exact hlen d rfl
  have hl := uniqueLoop_eq hclose c p.length 0 (fun _ => false) (by omega) (by simp)
  have hkeys : (List.range p.length).map (rootKey p c) = p.zip c := by
    refine List.ext_getElem (by simp [hcl]) fun i h1 h2 => ?_
    have hi : i < p.length := by simpa using h1
    rw [List.getElem_map, List.getElem_range, List.getElem_zip, rootKey, List.getD_eq_getElem _ _ hi,
      List.getD_eq_getElem _ _ (by omega)]
  have e1 : uniqueRoots close .mean p cplx = .ok ((firsts (rootKey p c) 0 p.length).map fun i =>
      (p.getD i 0, ((List.range p.length).filter fun j => decide (rootKey p c j = rootKey p c i)).length, c.getD i false)) := by
    unfold uniqueRoots
    refine check_step (by simp) ?_
    rw [← hc]
    refine bind_step hl (check_step ?_ rfl)
    intro h
    have h0 := mem_firsts (rootKey p c) p.length 0 (List.length_pos_iff.2 hp)
    rw [List.map_eq_nil_iff.1 h] at h0
    cases h0
  refine ⟨_, e1, ?_, ?_, ?_⟩
  · rw [List.map_map]
    exact firsts_nodup (rootKey p c) p.length
  · rw [List.flatMap_map, ← hc, ← hkeys]
    exact firsts_perm (rootKey p c) p.length
  · intro x hx
    obtain ⟨i, hi, rfl⟩ := List.mem_map.1 hx
    have : i ∈ List.range p.length := by
      have := (List.mem_range'_1.1 (List.mem_filter.1 hi).1).2
      exact List.mem_range.2 (by omega)
    exact List.length_pos_of_mem (List.mem_filter.2 ⟨this, by simp⟩)

end
end Phil.Proto
