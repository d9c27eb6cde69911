import Verif.Proof.ProtoSosReal
import Verif.Proof.ProtoOrdered
import Verif.Torch.Fails

/-! # The result of `sos2pfe`, philtorch/prototype/signal.py:172-373 -/

namespace Phil.Proto
open Torch Spec Polynomial
variable {α : Type} [Field α] [DecidableEq α]

local notation:max l "⟪" i "⟫" => List.getD l i (0, 0, false)

/-- A 1-D tensor, or a tensor with one column. -/
def resArr (one : Prop) [Decidable one] (r : List α) : Arr α := if one then .rows (r.map fun x => [x]) else .flat r

theorem stackVals_shaped (one : Prop) [Decidable one] (r : List α) (hr : r ≠ []) : stackVals (r.map (shaped one)) = .ok (resArr one r) := by
  unfold shaped resArr
  by_cases h : one
  · simp only [if_pos h]
    have hm : ∀ r : List α, (r.map fun x => (Val.vec [x] : Val α)).mapM (Val.vec? 1) = some (r.map fun x => [x]) := by
      intro r
      induction r with
      | nil => rfl
      | cons x r ih => rw [List.map_cons, List.mapM_cons, ih]; rfl
    cases r with
    | nil => exact absurd rfl hr
    | cons x r =>
      have h2 := hm (x :: r)
      rw [List.map_cons] at h2
      rw [List.map_cons]
      unfold stackVals
      simp only
      rw [show [x].length = 1 from rfl, h2]
  · simp only [if_neg h]
    rw [stackVals_scalars _ (by simpa using hr)]
    · rw [List.map_map]
      congr 2
      exact List.map_id _
    · intro v hv
      obtain ⟨x, _, rfl⟩ := List.mem_map.1 hv
      trivial

theorem repeatedBlocks_ok (l : List (α × Nat × Bool)) (rep : List Nat) (n s : List α) (F : Nat → List (Val α)) (is : List Nat)
    (h : ∀ i ∈ is, repeatedBlock l rep n s i = .ok (F i)) : repeatedBlocks l rep n s is = .ok (is.map F) := by
  induction is with
  | nil => rfl
  | cons i is ih =>
    unfold repeatedBlocks
    refine bind_step (h i (by simp)) ?_
    refine bind_step (ih fun j hj => h j (List.mem_cons_of_mem _ hj)) rfl

omit [DecidableEq α] in
theorem selectBlocks_all (l : List (α × Nat × Bool)) (c : Bool) (rep : List Nat) (F : Nat → List (Val α))
    (h : ∀ i ∈ rep, (l⟪i⟫).2.2 = c) : selectBlocks l c rep (rep.map F) = rep.flatMap F := by
  unfold selectBlocks
  induction rep with
  | nil => rfl
  | cons i rep ih =>
    have h1 : (l⟪i⟫).2.2 = c := h i (by simp)
    rw [List.map_cons, List.zip_cons_cons, List.filter_cons_of_pos (by simpa using h1), List.flatMap_cons, List.flatMap_cons,
      ih fun j hj => h j (List.mem_cons_of_mem _ hj)]

omit [DecidableEq α] in
theorem selectBlocks_none (l : List (α × Nat × Bool)) (c : Bool) (rep : List Nat) (F : Nat → List (Val α))
    (h : ∀ i ∈ rep, (l⟪i⟫).2.2 ≠ c) : selectBlocks l c rep (rep.map F) = [] := by
  unfold selectBlocks
  induction rep with
  | nil => rfl
  | cons i rep ih =>
    have h1 : (l⟪i⟫).2.2 ≠ c := h i (by simp)
    rw [List.map_cons, List.zip_cons_cons, List.filter_cons_of_neg (by simpa using h1), ih fun j hj => h j (List.mem_cons_of_mem _ hj)]

omit [DecidableEq α] in
theorem withFlag_all (l : List (α × Nat × Bool)) (c : Bool) (is : List Nat) (h : ∀ i ∈ is, (l⟪i⟫).2.2 = c) : withFlag l c is = is :=
  List.filter_eq_self.2 fun i hi => by simpa using h i hi

omit [DecidableEq α] in
theorem withFlag_none (l : List (α × Nat × Bool)) (c : Bool) (is : List Nat) (h : ∀ i ∈ is, (l⟪i⟫).2.2 ≠ c) : withFlag l c is = [] :=
  List.filter_eq_nil_iff.2 fun i hi => by simpa using h i hi

omit [DecidableEq α] in
theorem simpleAt_lt {l : List (α × Nat × Bool)} {i : Nat} (h : i ∈ simpleAt l) : i < l.length := List.mem_range.1 (List.mem_filter.1 h).1

omit [DecidableEq α] in
theorem repeatedAt_lt {l : List (α × Nat × Bool)} {i : Nat} (h : i ∈ repeatedAt l) : i < l.length := List.mem_range.1 (List.mem_filter.1 h).1

omit [DecidableEq α] in
theorem map_fix {re : α → α} {K : Type} [Field K] {φ : K →+* α} (hre : ∀ x, re (φ x) = φ x) {r : List α} (h : ∀ x ∈ r, x ∈ Set.range φ) :
    r.map re = r := by
  conv_rhs => rw [← List.map_id r]
  refine List.map_congr_left fun x hx => ?_
  obtain ⟨y, rfl⟩ := h x hx
  exact hre y

/-- Everything after the poles have been found, if all of them are real. -/
theorem pfeOf_real [CharZero α] {K : Type} [Field K] {φ : K →+* α} {re : α → α} (hre : ∀ x, re (φ x) = φ x) {sos : List (Section α)}
    {l : List (α × Nat × Bool)} (h : PoleData φ sos l) (hflag : ∀ x ∈ l, x.2.2 = false) (gain : α) :
    ∃ r p n, pfeOf re sos gain l = .ok ⟨resArr (l.length = 1) r, .flat [], p, [], n, [], gain⟩ ∧
      r.length = 2 * sos.length ∧ p.length = 2 * sos.length ∧ n.length = 2 * sos.length ∧ (∀ m ∈ n, 0 < m) ∧
      p.Perm (repeatPoles (polesOf l)) ∧
      ∀ z, (prodPow (polesOf l)).eval z ≠ 0 →
        gain * ((numerPoly sos).eval z / (prodPow (polesOf l)).eval z) = gain + pfePow r p n z := by
  obtain ⟨R, hR, hsimple, n, s, hn, hs, hb⟩ := h.residues
  have hf : ∀ i < l.length, (l⟪i⟫).2.2 = false := fun i hi => hflag _ (getD_mem_list l hi)
  have hfs : ∀ i ∈ simpleAt l, (l⟪i⟫).2.2 = false := fun i hi => hf i (simpleAt_lt hi)
  have hfr : ∀ i ∈ repeatedAt l, (l⟪i⟫).2.2 = false := fun i hi => hf i (repeatedAt_lt hi)
  have hm1 : ∀ i ∈ simpleAt l, (l⟪i⟫).2.1 = 1 := fun i hi => by
    have h1 := h.pos _ (getD_mem_list l (simpleAt_lt hi))
    have h2 : ¬1 < (l⟪i⟫).2.1 := by simpa using (List.mem_filter.1 hi).2
    omega
  have hll : l ≠ [] := by
    intro h0
    have := h.sum
    rw [h0, List.map_nil, List.sum_nil] at this
    have h3 := h.sos_ne
    have h4 : sos.length ≠ 0 := fun h5 => h3 (List.length_eq_zero_iff.1 h5)
    omega
  have hone : l.length = 1 → simpleAt l = [] := by
    intro h1
    refine List.filter_eq_nil_iff.2 fun i hi => ?_
    have hi := List.mem_range.1 hi
    have h2 := (h.others hi).2
    rw [(h.const_iff hi).2 h1, (numerPoly_monic sos).2] at h2
    have h4 : sos.length ≠ 0 := fun h5 => h.sos_ne (List.length_eq_zero_iff.1 h5)
    have : 1 < (l⟪i⟫).2.1 := by omega
    simpa using this
  have hall : ∀ i, i ∈ simpleAt l ∨ i ∈ repeatedAt l ↔ i < l.length := by
    intro i
    simp only [simpleAt, repeatedAt, List.mem_filter, List.mem_range]
    cases decide (1 < (l⟪i⟫).2.1) <;> simp
  -- residues
  have hpart : repeatedPart sos l (simpleAt l) (repeatedAt l) = .ok
      (if repeatedAt l = [] then .flat [] else resArr (l.length = 1) ((repeatedAt l).flatMap R), .flat []) := by
    unfold repeatedPart
    by_cases hr : repeatedAt l = []
    · rw [if_pos hr, if_pos hr]
    · rw [if_neg hr, if_neg hr]
      refine bind_step hn ?_
      have hblocks := repeatedBlocks_ok l (repeatedAt l) n s _ _ hb
      have hsel := selectBlocks_all l false (repeatedAt l) (fun i => (R i).map (shaped (l.length = 1))) hfr
      have hfl : (repeatedAt l).filter (fun i => (l⟪i⟫).2.2) = [] := List.filter_eq_nil_iff.2 fun i hi => by rw [hfr i hi]; simp
      have hst : stackVals (selectBlocks l false (repeatedAt l) ((repeatedAt l).map fun i => (R i).map (shaped (l.length = 1)))) =
          .ok (resArr (l.length = 1) ((repeatedAt l).flatMap R)) := by
        rw [hsel, ← List.map_flatMap]
        refine stackVals_shaped _ _ ?_
        obtain ⟨i, hi⟩ := List.exists_mem_of_ne_nil _ hr
        intro h0
        have h1 := List.flatMap_eq_nil_iff.1 h0 i hi
        have h2 := (hR i (repeatedAt_lt hi)).1
        have h3 := h.pos _ (getD_mem_list l (repeatedAt_lt hi))
        rw [h1, List.length_nil] at h2
        omega
      have hrest : (do
          let blocks ← repeatedBlocks l (repeatedAt l) (repeatedAt l |> fun _ => n) s (repeatedAt l)
          let r ← stackVals (selectBlocks l false (repeatedAt l) blocks)
          let c ← if ((repeatedAt l).filter fun i => (l⟪i⟫).2.2) = [] then .ok (.flat []) else stackVals (selectBlocks l true (repeatedAt l) blocks)
          return (r, c) : Res (Arr α × Arr α)) = .ok (resArr (l.length = 1) ((repeatedAt l).flatMap R), .flat []) := by
        refine bind_step hblocks ?_
        refine bind_step hst ?_
        simp only
        rw [if_pos hfl]
        rfl
      by_cases ho : simpleAt l = []
      · rw [if_pos ho] at hs
        simp only
        rw [if_pos ho]
        exact bind_step hs hrest
      · rw [if_neg ho] at hs
        simp only
        rw [if_neg ho]
        exact bind_step hs hrest
  -- the residues, poles and powers as lists over all poles
  have hsimR : (simpleAt l).map (fun i => simpleResidue sos l i) = (simpleAt l).flatMap R := by
    have : ∀ is : List Nat, (∀ i ∈ is, R i = [simpleResidue sos l i]) → is.map (fun i => simpleResidue sos l i) = is.flatMap R := by
      intro is
      induction is with
      | nil => intro _; rfl
      | cons i is ih =>
        intro hi
        rw [List.map_cons, List.flatMap_cons, ih fun j hj => hi j (List.mem_cons_of_mem _ hj), hi i (by simp)]; rfl
    exact this _ hsimple
  have hrange : ∀ is : List Nat, (∀ i ∈ is, i < l.length) → ∀ x ∈ is.flatMap R, x ∈ Set.range φ := by
    intro is hi x hx
    obtain ⟨i, h1, h2⟩ := List.mem_flatMap.1 hx
    exact (hR i (hi i h1)).2.1 x h2
  have hpoles : partPoles l false (simpleAt l) (repeatedAt l) =
      (simpleAt l ++ repeatedAt l).flatMap fun i => List.replicate (R i).length (l⟪i⟫).1 := by
    unfold partPoles
    rw [withFlag_all _ _ _ hfs, withFlag_all _ _ _ hfr, List.flatMap_append]
    congr 1
    · rw [← List.flatMap_singleton' ((simpleAt l).map _), List.flatMap_map]
      refine List.flatMap_congr fun i hi => ?_
      rw [hsimple i hi]; rfl
    · exact List.flatMap_congr fun i hi => by rw [(hR i (repeatedAt_lt hi)).1]
  have hpowers : partPowers l false (simpleAt l) (repeatedAt l) =
      (simpleAt l ++ repeatedAt l).flatMap fun i => (List.range (R i).length).map fun k => (R i).length - k := by
    unfold partPowers
    rw [withFlag_all _ _ _ hfs, withFlag_all _ _ _ hfr, List.flatMap_append]
    congr 1
    · rw [← List.flatMap_singleton' ((simpleAt l).map _), List.flatMap_map]
      refine List.flatMap_congr fun i hi => ?_
      rw [hsimple i hi]; rfl
    · exact List.flatMap_congr fun i hi => by rw [(hR i (repeatedAt_lt hi)).1]
  have hpermI : (simpleAt l ++ repeatedAt l).Perm (List.range l.length) := by
    unfold simpleAt repeatedAt
    refine List.perm_append_comm.trans ?_
    exact List.filter_append_perm (fun i => decide (1 < (l⟪i⟫).2.1)) (List.range l.length)
  have hcp : partPoles l true (simpleAt l) (repeatedAt l) = [] := by
    unfold partPoles
    rw [withFlag_none _ _ _ fun i hi => by rw [hfs i hi]; simp, withFlag_none _ _ _ fun i hi => by rw [hfr i hi]; simp]; rfl
  have hcw : partPowers l true (simpleAt l) (repeatedAt l) = [] := by
    unfold partPowers
    rw [withFlag_none _ _ _ fun i hi => by rw [hfs i hi]; simp, withFlag_none _ _ _ fun i hi => by rw [hfr i hi]; simp]; rfl
  have hplen : ((simpleAt l ++ repeatedAt l).flatMap fun i => List.replicate (R i).length (l⟪i⟫).1).Perm (repeatPoles (polesOf l)) := by
    refine (hpermI.flatMap_right _).trans (List.Perm.of_eq ?_)
    rw [repeatPoles, polesOf, ← map_range_getD l (fun x => (x.1, x.2.1)), List.flatMap_map]
    exact List.flatMap_congr fun i hi => by rw [(hR i (List.mem_range.1 hi)).1]
  have hRlen : ((simpleAt l ++ repeatedAt l).flatMap R).length = 2 * sos.length := by
    rw [← h.sum, (hpermI.flatMap_right R).length_eq, List.length_flatMap, ← map_range_getD l fun x => x.2.1]
    congr 1
    exact List.map_congr_left fun i hi => (hR i (List.mem_range.1 hi)).1
  have hcatlen : ∀ {β : Type} (f : Nat → List β), (∀ i, (f i).length = (R i).length) →
      ((simpleAt l ++ repeatedAt l).flatMap f).length = 2 * sos.length := by
    intro β f hfl
    rw [← hRlen, List.length_flatMap, List.length_flatMap]
    congr 1
    exact List.map_congr_left fun i _ => hfl i
  have hrl : ∀ i ∈ simpleAt l ++ repeatedAt l, i < l.length := fun i hi => (hall i).1 (List.mem_append.1 hi)
  have hreal : (catVec ((simpleAt l).map fun i => re (simpleResidue sos l i))
      ((if repeatedAt l = [] then .flat [] else resArr (l.length = 1) ((repeatedAt l).flatMap R) : Arr α).map re)) =
      .ok (resArr (l.length = 1) ((simpleAt l ++ repeatedAt l).flatMap R)) := by
    have h1 : (simpleAt l).map (fun i => re (simpleResidue sos l i)) = (simpleAt l).flatMap R := by
      have h2 : (simpleAt l).map (fun i => re (simpleResidue sos l i)) = ((simpleAt l).map fun i => simpleResidue sos l i).map re := by
        rw [List.map_map]; rfl
      rw [h2, hsimR, map_fix hre (hrange _ fun i hi => simpleAt_lt hi)]
    rw [h1, List.flatMap_append]
    by_cases hr : repeatedAt l = []
    · rw [if_pos hr, hr]
      have : l.length ≠ 1 := by
        intro h1
        have h2 := hone h1
        have h3 := (hall 0).2 (by omega)
        rw [h2, hr] at h3
        simp at h3
      unfold resArr
      rw [if_neg this]; rfl
    · rw [if_neg hr]
      unfold resArr
      by_cases h1 : l.length = 1
      · rw [if_pos h1, if_pos h1, hone h1]
        unfold Arr.map catVec
        simp only [List.flatMap_nil, if_true, List.nil_append, List.map_map]
        congr 2
        refine List.map_congr_left fun x hx => ?_
        obtain ⟨y, hy⟩ := hrange _ (fun i hi => repeatedAt_lt hi) x hx
        simp only [Function.comp, List.map_cons, List.map_nil, ← hy, hre]
      · rw [if_neg h1, if_neg h1]
        unfold Arr.map catVec
        simp only
        rw [map_fix hre (hrange _ fun i hi => repeatedAt_lt hi)]
  have hmul : ∀ r : List α, (resArr (l.length = 1) r).map (fun x => x * gain) = resArr (l.length = 1) (r.map fun x => x * gain) := by
    intro r
    unfold resArr
    by_cases h1 : l.length = 1
    · simp only [if_pos h1, Arr.map, List.map_map]; rfl
    · simp only [if_neg h1, Arr.map]
  refine ⟨((simpleAt l ++ repeatedAt l).flatMap R).map fun x => x * gain, _, _, ?_, by rw [List.length_map]; exact hRlen,
    hcatlen (fun i => List.replicate (R i).length (l⟪i⟫).1) (fun i => by simp),
    hcatlen (fun i => (List.range (R i).length).map fun k => (R i).length - k) (fun i => by simp), ?_, hplen, ?_⟩
  rotate_left
  · intro m hm
    obtain ⟨i, _, h2⟩ := List.mem_flatMap.1 hm
    obtain ⟨k, hk, rfl⟩ := List.mem_map.1 h2
    have := List.mem_range.1 hk
    omega
  rotate_left
  · unfold pfeOf
    refine bind_step hpart ?_
    simp only
    change (catVec ((withFlag l false (simpleAt l)).map fun i => re (simpleResidue sos l i)) _ >>= _) = _
    rw [withFlag_all _ _ _ hfs]
    refine bind_step hreal ?_
    change (catVec ((withFlag l true (simpleAt l)).map fun i => simpleResidue sos l i) _ >>= _) = _
    rw [withFlag_none _ _ _ fun i hi => by rw [hfs i hi]; simp]
    refine ok_bind _ _ |>.trans ?_
    change (check ((partPoles l true (simpleAt l) (repeatedAt l)).length % 2 = 0) _ >>= _) = _
    refine check_step (by rw [hcp]; rfl) ?_
    change Except.ok _ = _
    congr 1
    rw [Pfe.mk.injEq]
    refine ⟨hmul _, rfl, ?_, ?_, ?_, ?_, rfl⟩
    · change (partPoles l false (simpleAt l) (repeatedAt l)).map re = _
      rw [hpoles]
      refine map_fix hre fun x hx => ?_
      obtain ⟨i, h1, h2⟩ := List.mem_flatMap.1 hx
      rw [(List.mem_replicate.1 h2).2]
      exact h.range _ (getD_mem_list l (hrl i h1))
    · change everyOther (partPoles l true (simpleAt l) (repeatedAt l)) = _
      rw [hcp]; rfl
    · change partPowers l false (simpleAt l) (repeatedAt l) = _
      rw [hpowers]
    · change everyOther (partPowers l true (simpleAt l) (repeatedAt l)) = _
      rw [hcw]; rfl
  · intro z hz
    have hne : ∀ i ∈ simpleAt l ++ repeatedAt l, z ≠ (l⟪i⟫).1 := by
      intro i hi hzi
      refine hz ?_
      rw [hzi]
      exact root_of_mem (mem_polesOf l i (hrl i hi)) (h.pos _ (getD_mem_list l (hrl i hi)))
    rw [pfePow_mul, pfePow_flat (fun i => (l⟪i⟫).1) R _ z hne, h.expansion R (fun i hi => ⟨(hR i hi).1, (hR i hi).2.2⟩) z hz, mul_add, mul_one,
      mul_comm gain]
    congr 2
    rw [(hpermI.map _).sum_eq]
    congr 1
    exact List.map_congr_left fun i hi => by rw [(hR i (List.mem_range.1 hi)).1]

end Phil.Proto
