import Verif.Proof.ProtoPfe
import Verif.Proof.ProtoUnique
import Verif.Proof.ProtoRoots

/-! # `_compute_residues`, philtorch/prototype/signal.py -/

namespace Phil.Proto
open Torch Spec Polynomial
variable {α : Type} [Field α] [DecidableEq α]

/-- The tensor is 0-D. -/
def Val.IsScalar : Val α → Prop
  | .scalar _ => True
  | .vec _ => False

omit [DecidableEq α] in
theorem mapM_scalars (l : List (Val α)) (h : ∀ v ∈ l, v.IsScalar) :
    l.mapM Val.scalar? = some (l.map Val.value) := by
  induction l with
  | nil => rfl
  | cons v l ih =>
    rw [List.mapM_cons, ih fun w hw => h w (List.mem_cons_of_mem _ hw)]
    have := h v (by simp)
    cases v with
    | scalar a => rfl
    | vec l => exact this.elim

omit [DecidableEq α] in
theorem stackVals_scalars (l : List (Val α)) (hl : l ≠ []) (h : ∀ v ∈ l, v.IsScalar) : stackVals l = .ok (.flat (l.map Val.value)) := by
  cases l with
  | nil => exact absurd rfl hl
  | cons v l =>
    cases v with
    | vec w => exact (h (.vec w) (by simp)).elim
    | scalar a =>
      unfold stackVals
      simp only
      rw [mapM_scalars _ h]

omit [Field α] [DecidableEq α] in
theorem mapM_scalars_some (l : List (Val α)) {r : List α}
    (h : l.mapM Val.scalar? = some r) : ∀ v ∈ l, v.IsScalar := by
  induction l generalizing r with
  | nil => simp
  | cons v l ih =>
    rw [List.mapM_cons] at h
    cases v with
    | vec w => cases h
    | scalar a =>
      cases e : l.mapM Val.scalar? with
      | none => rw [e] at h; simp at h
      | some s =>
        intro w hw
        rcases List.mem_cons.1 hw with rfl | hw
        · trivial
        · exact ih e w hw

omit [Field α] [DecidableEq α] in
/-- `torch.stack` returns a 1-D tensor only if everything is 0-D. -/
theorem stackVals_flat (l : List (Val α)) (r : List α) (h : stackVals l = .ok (.flat r)) : ∀ v ∈ l, v.IsScalar := by
  unfold stackVals at h
  split at h
  · cases h
  · split at h
    · rename_i s e
      exact mapM_scalars_some _ e
    · cases h
  · split at h <;> cases h

theorem divVal_scalar (numer factor : List α) (p : α) :
    (divVal (polyval numer (.scalar p)) (polyval factor (.scalar p))).IsScalar ↔
      (listPoly numer).natDegree ≠ 0 ∧ (listPoly factor).natDegree ≠ 0 := by
  by_cases h1 : (listPoly numer).natDegree = 0 <;> by_cases h2 : (listPoly factor).natDegree = 0
  · rw [polyval_const _ _ h1, polyval_const _ _ h2]; simp [divVal, Val.IsScalar, h1]
  · rw [polyval_const _ _ h1, polyval_scalar _ _ h2]; simp [divVal, Val.IsScalar, h1]
  · rw [polyval_scalar _ _ h1, polyval_const _ _ h2]; simp [divVal, Val.IsScalar, h2]
  · rw [polyval_scalar _ _ h1, polyval_scalar _ _ h2]; simp [divVal, Val.IsScalar, h1, h2]

theorem residuesOf_scalar (small : α → Bool) (numer : List α) (p : α) (m : Nat) (factor : List α) :
    (∀ v ∈ residuesOf small numer p m factor, v.IsScalar) ↔
      (m = 1 → (listPoly numer).natDegree ≠ 0 ∧ (listPoly factor).natDegree ≠ 0) := by
  unfold residuesOf
  by_cases h : m = 1
  · rw [if_pos h]
    simp only [List.mem_singleton, forall_eq, divVal_scalar, h, true_implies]
  · rw [if_neg h]
    simp only [h, false_implies, iff_true]
    intro v hv
    rw [List.mem_reverse] at hv
    obtain ⟨a, _, rfl⟩ := List.mem_map.1 hv
    trivial

omit [DecidableEq α] in
theorem factor_facts {rm : List (α × Nat)} (hn : (rm.map fun x => x.1).Nodup) {x : α × Nat} (hx : x ∈ rm) {f : α[X]}
    (hf : f * (X - C x.1) ^ x.2 = prodPow rm) : f.eval x.1 ≠ 0 ∧ f.natDegree + x.2 = (prodPow rm).natDegree := by
  obtain ⟨l1, l2, rfl⟩ := List.append_of_mem hx
  have hp := (List.perm_middle.map fun x : α × Nat => x.1).nodup_iff.1 hn
  rw [List.map_cons, List.nodup_cons] at hp
  have hf' : f = prodPow (l1 ++ l2) := by
    rw [prodPow_append, prodPow_cons] at hf
    refine mul_right_cancel₀ (pow_ne_zero x.2 (X_sub_C_ne_zero x.1)) ?_
    rw [hf, prodPow_append]; ring
  constructor
  · rw [hf']
    refine prodPow_eval_ne _ _ fun y hy he => hp.1 (List.mem_map.2 ⟨y, hy, he.symm⟩)
  · rw [← hf, (hf' ▸ prodPow_monic _ : f.Monic).natDegree_mul ((monic_X_sub_C _).pow _), (monic_X_sub_C _).natDegree_pow,
      natDegree_X_sub_C, mul_one]

omit [Field α] [DecidableEq α] in
theorem length_repeatPoles (rm : List (α × Nat)) : (repeatPoles rm).length = (rm.map fun x => x.2).sum := by
  induction rm with
  | nil => rfl
  | cons x rm ih => rw [repeatPoles, List.flatMap_cons, List.length_append, List.length_replicate, List.map_cons, List.sum_cons, ← ih]; rfl

omit [DecidableEq α] in
theorem prod_repeatPoles (rm : List (α × Nat)) : ((repeatPoles rm).map fun z => X - C z).prod = prodPow rm := by
  induction rm with
  | nil => rfl
  | cons x rm ih =>
    rw [repeatPoles, List.flatMap_cons, List.map_append, List.prod_append, List.map_replicate, List.prod_replicate, prodPow_cons, ← ih]
    rfl

/-- The list handed to `torch.stack`. -/
theorem computeResidues_vals (small : α → Bool) (h0 : small 0 = true) (rm : List (α × Nat)) (hrm : rm ≠ [])
    (hn : (rm.map fun x => x.1).Nodup) (hm : ∀ x ∈ rm, 0 < x.2) (numer : List α) :
    ∃ V : List (Val α), computeResidues small rm numer = stackVals V ∧ V ≠ [] ∧
      ((∀ v ∈ V, v.IsScalar) ↔ ((listPoly numer).natDegree ≠ 0 ∧ 2 ≤ rm.length) ∨ ∀ x ∈ rm, x.2 ≠ 1) ∧
      ((listPoly numer).degree < (prodPow rm).degree → (V.map Val.value).length = (repeatPoles rm).length ∧
        ∀ z, (prodPow rm).eval z ≠ 0 →
          (listPoly numer).eval z / (prodPow rm).eval z = pfe (V.map Val.value) (repeatPoles rm) z) := by
  obtain ⟨F, D, hc, hF, hD⟩ := computeFactors_spec false rm hrm
  have hall := facs_false rm hm 1
  rw [← hF, List.forall₂_map_right_iff] at hall
  have hlen : rm.length = F.length := hall.length_eq
  have hzip : ∀ x ∈ rm.zip F, listPoly x.2 * (X - C x.1.1) ^ x.1.2 = prodPow rm ∧ x.1 ∈ rm := by
    intro x hx
    refine ⟨?_, (List.of_mem_zip hx).1⟩
    obtain ⟨_, h⟩ := List.forall₂_iff_zip.1 hall
    have := @h x.1 x.2 hx
    rwa [one_mul] at this
  have hmap : (rm.zip F).map (fun x => x.1) = rm := List.map_fst_zip (by omega)
  have hspec : ∀ x ∈ rm.zip F, ∃ R : List α, (residuesOf small numer x.1.1 x.1.2 x.2).map Val.value = R.reverse ∧ R.length = x.1.2 ∧
      ∃ Q, listPoly numer = listPoly x.2 * shiftPoly x.1.1 R + Q * (X - C x.1.1) ^ x.1.2 := fun x hx =>
    residuesOf_spec small h0 numer _ _ _ (hm _ (hzip x hx).2) (factor_facts hn (hzip x hx).2 (hzip x hx).1).1
  refine ⟨_, bind_step hc rfl, ?_, ?_, fun hN => ?_⟩
  · cases rm with
    | nil => exact absurd rfl hrm
    | cons x rm =>
      cases F with
      | nil => simp at hlen
      | cons f F =>
        intro he
        rw [List.zip_cons_cons, List.flatMap_cons, List.append_eq_nil_iff] at he
        obtain ⟨R, h1, h2, _⟩ := hspec ((x, f)) (by simp)
        simp only at he h1 h2
        rw [he.1, List.map_nil] at h1
        have := congrArg List.length h1
        rw [List.length_reverse, h2, List.length_nil] at this
        exact absurd this.symm (hm x (by simp)).ne'
  · simp only [List.mem_flatMap, forall_exists_index, and_imp]
    have key : (∀ v : Val α, ∀ x ∈ rm.zip F, v ∈ residuesOf small numer x.1.1 x.1.2 x.2 → v.IsScalar) ↔
        ∀ x ∈ rm.zip F, x.1.2 = 1 → (listPoly numer).natDegree ≠ 0 ∧ (listPoly x.2).natDegree ≠ 0 := by
      constructor
      · intro h x hx
        exact (residuesOf_scalar small numer x.1.1 x.1.2 x.2).1 fun v hv => h v x hx hv
      · intro h v x hx hv
        exact (residuesOf_scalar small numer x.1.1 x.1.2 x.2).2 (h x hx) v hv
    rw [key]
    have hdeg : ∀ x ∈ rm.zip F, x.1.2 = 1 → ((listPoly x.2).natDegree ≠ 0 ↔ 2 ≤ rm.length) := by
      intro x hx hx1
      obtain ⟨hf, hxm⟩ := hzip x hx
      have h1 := (factor_facts hn hxm hf).2
      rw [prodPow_natDegree] at h1
      obtain ⟨l1, l2, hl⟩ := List.append_of_mem hxm
      have hpos : ∀ l : List (α × Nat), (∀ y ∈ l, 0 < y.2) → l.length ≤ (l.map fun y => y.2).sum := by
        intro l hl
        induction l with
        | nil => simp
        | cons y l ih =>
          have h1 := hl y (by simp)
          have h2 := ih fun w hw => hl w (List.mem_cons_of_mem _ hw)
          rw [List.map_cons, List.sum_cons, List.length_cons]; omega
      have hsum : (rm.map fun y => y.2).sum = x.1.2 + ((l1 ++ l2).map fun y => y.2).sum := by
        rw [hl]; simp; omega
      have hlenr : rm.length = 1 + (l1 ++ l2).length := by rw [hl]; simp; omega
      rw [hsum] at h1
      constructor
      · intro h
        by_contra hlt
        have : (l1 ++ l2) = [] := List.length_eq_zero_iff.1 (by omega)
        rw [this] at h1
        simp at h1
        exact h h1
      · intro h
        have := hpos (l1 ++ l2) fun y hy => hm y (by
          rw [hl]
          rcases List.mem_append.1 hy with h | h
          · exact List.mem_append.2 (Or.inl h)
          · exact List.mem_append.2 (Or.inr (List.mem_cons_of_mem _ h)))
        omega
    constructor
    · intro h
      by_cases hs : ∀ x ∈ rm, x.2 ≠ 1
      · exact Or.inr hs
      · simp only [not_forall, not_not] at hs
        obtain ⟨y, hy, hy1⟩ := hs
        rw [← hmap] at hy
        obtain ⟨x, hx, rfl⟩ := List.mem_map.1 hy
        obtain ⟨h1, h2⟩ := h x hx hy1
        exact Or.inl ⟨h1, (hdeg x hx hy1).1 h2⟩
    · rintro (⟨h1, h2⟩ | h) x hx hx1
      · exact ⟨h1, (hdeg x hx hx1).2 h2⟩
      · exact absurd hx1 (h _ (hzip x hx).2)
  · have hR : ∃ R : (α × Nat) × List α → List α, ∀ x ∈ rm.zip F,
        (residuesOf small numer x.1.1 x.1.2 x.2).map Val.value = (R x).reverse ∧ (R x).length = x.1.2 ∧
        ∃ Q, listPoly numer = listPoly x.2 * shiftPoly x.1.1 (R x) + Q * (X - C x.1.1) ^ x.1.2 :=
      ⟨fun x => if h : x ∈ rm.zip F then (hspec x h).choose else [], fun x hx => by
        simp only [dif_pos hx]; exact (hspec x hx).choose_spec⟩
    obtain ⟨R, hR⟩ := hR
    have hvals : ((rm.zip F).flatMap fun x => residuesOf small numer x.1.1 x.1.2 x.2).map Val.value =
        ((rm.zip F).map fun x => (x.1, R x)).flatMap fun x => x.2.reverse := by
      rw [List.map_flatMap, List.flatMap_map]
      exact List.flatMap_congr fun x hx => (hR x hx).1
    have hfst : ((rm.zip F).map fun x => (x.1, R x)).map (fun x => x.1) = rm := by
      rw [List.map_map]; exact hmap
    have hnod : (((rm.zip F).map fun x => (x.1, R x)).map fun x => x.1.1).Nodup := by
      have : ((rm.zip F).map fun x => (x.1, R x)).map (fun x => x.1.1) =
          (((rm.zip F).map fun x => (x.1, R x)).map fun x => x.1).map fun x => x.1 := by simp only [List.map_map]; rfl
      rw [this, hfst]; exact hn
    have hlens : ∀ x ∈ (rm.zip F).map fun x => (x.1, R x), x.2.length = x.1.2 := by
      intro y hy
      obtain ⟨x, hx, rfl⟩ := List.mem_map.1 hy
      exact (hR x hx).2.1
    rw [hvals]
    constructor
    · rw [length_repeatPoles, List.length_flatMap]
      conv_rhs => rw [← hfst]
      rw [List.map_map, List.map_map, List.map_map]
      refine congrArg List.sum (List.map_congr_left fun x hx => ?_)
      simp only [Function.comp, List.length_reverse]
      exact (hR x hx).2.1
    · intro z hz
      have hzne := prodPow_eval_ne' rm z hz hm
      have h1 := pfe_flat ((rm.zip F).map fun x => (x.1, R x)) hnod hlens z (by
        intro y hy
        obtain ⟨x, hx, rfl⟩ := List.mem_map.1 hy
        exact hzne _ (hzip x hx).2)
      rw [hfst] at h1
      rw [h1, List.map_map]
      have h2 := eval_of_local ((rm.zip F).map fun x => (⟨x.1.1, x.1.2, listPoly x.2, shiftPoly x.1.1 (R x)⟩ : Part α)) (prodPow rm)
        (listPoly numer) (by rw [List.map_map]; exact congrArg prodPow hmap.symm)
        (by rw [List.map_map]; rw [List.map_map] at hnod; exact hnod)
        (by
          intro y hy
          obtain ⟨x, hx, rfl⟩ := List.mem_map.1 hy
          exact (hzip x hx).1)
        (by
          intro y hy
          obtain ⟨x, hx, rfl⟩ := List.mem_map.1 hy
          rw [← (hR x hx).2.1]
          exact shiftPoly_degree _ _)
        (by
          intro y hy
          obtain ⟨x, hx, rfl⟩ := List.mem_map.1 hy
          obtain ⟨Q, hQ⟩ := (hR x hx).2.2
          exact ⟨Q, by simp only; rw [hQ]; ring⟩) hN z hz
      rw [h2, List.map_map]
      rfl

end Phil.Proto
