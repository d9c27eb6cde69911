import Verif.Proof.ProtoSosTop
import Mathlib.Algebra.Star.BigOperators

/-! # `sos2pfe` with complex poles, philtorch/prototype/signal.py:172-373 -/

namespace Phil.Proto
open Torch Spec Polynomial
variable {α : Type} [Field α] [DecidableEq α]

local notation:max l "⟪" i "⟫" => List.getD l i (0, 0, false)

/-! ## `unique_roots` of distinct roots -/

theorem uniqueLoop_nodup {close : α → α → Bool} {p : List α} (hclose : ∀ x ∈ p, ∀ y ∈ p, close x y = decide (x = y)) (hn : p.Nodup)
    (cplx : List Bool) (c : Nat) : ∀ (i : Nat) (used : Nat → Bool), i + c ≤ p.length → (∀ j, used j = true ↔ j < i) →
    uniqueLoop close .mean p cplx c i used = .ok ((List.range' i c).map fun j => (p.getD j 0, 1, cplx.getD j false)) := by
  induction c with
  | zero => intro i used _ _; rfl
  | succ c ih =>
    intro i used hi hu
    have hg : groupOf close p cplx used i = [i] := by
      unfold groupOf
      have h1 : ∀ j ∈ List.range p.length, (close (p.getD i 0) (p.getD j 0) && !used j &&
          (if cplx.getD i false then cplx.getD j false else !cplx.getD j false)) = decide (j = i) := by
        intro j hj
        have hj := List.mem_range.1 hj
        have hi' : i < p.length := by omega
        have hc := hclose _ (List.getElem_mem hi') _ (List.getElem_mem hj)
        rw [List.getD_eq_getElem _ _ hi', List.getD_eq_getElem _ _ hj, hc]
        have hinj : p[i] = p[j] ↔ i = j := hn.getElem_inj_iff
        by_cases hij : j = i
        · subst hij
          have : used j = false := by
            cases h : used j
            · rfl
            · exact absurd ((hu j).1 h) (by omega)
          rw [this]
          cases cplx.getD j false <;> simp
        · have : ¬ p[i] = p[j] := fun h => hij (hinj.1 h).symm
          simp [this, hij]
      rw [List.filter_congr h1]
      have h2 : ∀ n, i < n → (List.range n).filter (fun j => decide (j = i)) = [i] := by
        intro n
        induction n with
        | zero => intro h; omega
        | succ n ihn =>
          intro h
          rw [List.range_succ, List.filter_append]
          by_cases hin : i = n
          · subst hin
            rw [List.filter_eq_nil_iff.2 (by intro a ha; have := List.mem_range.1 ha; simp; omega)]
            simp
          · rw [ihn (by omega)]
            simp [Ne.symm hin]
      exact h2 _ (by omega)
    have hui : used i = false := by
      cases h : used i
      · rfl
      · exact absurd ((hu i).1 h) (by omega)
    unfold uniqueLoop
    rw [if_neg (by simp [hui])]
    rw [hg]
    refine bind_step (v := p.getD i 0) (by simp [reduction]) ?_
    refine bind_step (ih (i + 1) _ (by omega) fun j => ?_) ?_
    · rw [Bool.or_eq_true, hu]
      simp
      omega
    · rw [List.range'_succ]; rfl

theorem uniqueRoots_nodup {close : α → α → Bool} {p : List α} (hp : p ≠ []) (hclose : ∀ x ∈ p, ∀ y ∈ p, close x y = decide (x = y))
    (hn : p.Nodup) (flags : List Bool) :
    uniqueRoots close .mean p (some flags) = .ok ((List.range p.length).map fun j => (p.getD j 0, 1, flags.getD j false)) := by
  unfold uniqueRoots
  refine check_step (by simp) ?_
  have := uniqueLoop_nodup hclose hn flags p.length 0 (fun _ => false) (by omega) (by simp)
  rw [← List.range_eq_range'] at this
  refine bind_step this ?_
  refine check_step ?_ rfl
  intro h
  have := congrArg List.length h
  simp at this
  exact hp this

/-! ## Conjugate pairs -/

theorem everyOther_map_range {β : Type} (f : Nat → β) (n : Nat) : everyOther ((List.range (2 * n)).map f) = (List.range n).map fun k => f (2 * k) := by
  induction n generalizing f with
  | zero => rfl
  | succ n ih =>
    have h1 : (List.range (2 * (n + 1))).map f = f 0 :: f 1 :: (List.range (2 * n)).map fun k => f (k + 2) := by
      rw [show 2 * (n + 1) = 2 * n + 1 + 1 by omega, List.range_succ_eq_map, List.map_cons, List.map_map, List.range_succ_eq_map,
        List.map_cons, List.map_map]
      rfl
    rw [h1]
    unfold everyOther
    rw [ih, List.range_succ_eq_map, List.map_cons, List.map_map]
    rfl

omit [DecidableEq α] in
theorem sum_pairs (f : Nat → α) (n : Nat) : ((List.range (2 * n)).map f).sum = ((List.range n).map fun k => f (2 * k) + f (2 * k + 1)).sum := by
  induction n with
  | zero => rfl
  | succ n ih =>
    rw [show 2 * (n + 1) = 2 * n + 1 + 1 by omega, List.range_succ, List.range_succ, List.range_succ, List.map_append, List.map_append,
      List.sum_append, List.sum_append, ih, List.map_append, List.sum_append]
    simp [add_assoc]

/-- Everything after the poles have been found, if all of them are complex and simple. -/
theorem pfeOf_complex {re : α → α} {sos : List (Section α)} {l : List (α × Nat × Bool)} (hlen : l.length = 2 * sos.length)
    (hone : ∀ x ∈ l, x.2.1 = 1) (hflag : ∀ x ∈ l, x.2.2 = true) (gain : α) :
    pfeOf re sos gain l = .ok ⟨.flat [], .flat ((List.range sos.length).map fun k => simpleResidue sos l (2 * k) * gain), [],
      (List.range sos.length).map fun k => (l⟪2 * k⟫).1, [], (List.range sos.length).map fun _ => 1, gain⟩ := by
  have hrep : repeatedAt l = [] := List.filter_eq_nil_iff.2 fun i hi => by
    rw [hone _ (getD_mem_list l (List.mem_range.1 hi))]; simp
  have hsim : simpleAt l = List.range l.length := List.filter_eq_self.2 fun i hi => by
    rw [hone _ (getD_mem_list l (List.mem_range.1 hi))]; simp
  have hf : ∀ i ∈ List.range l.length, (l⟪i⟫).2.2 = true := fun i hi => hflag _ (getD_mem_list l (List.mem_range.1 hi))
  have hft : withFlag l true (List.range l.length) = List.range l.length := withFlag_all _ _ _ hf
  have hff : withFlag l false (List.range l.length) = [] := withFlag_none _ _ _ fun i hi => by rw [hf i hi]; simp
  have hp1 : partPoles l true (List.range l.length) [] = (List.range (2 * sos.length)).map fun i => (l⟪i⟫).1 := by
    unfold partPoles
    rw [hft, hlen]
    exact List.append_nil _
  have hp2 : partPowers l true (List.range l.length) [] = (List.range (2 * sos.length)).map fun _ => 1 := by
    unfold partPowers
    rw [hft, hlen]
    exact List.append_nil _
  have hp3 : partPoles l false (List.range l.length) [] = [] := by
    unfold partPoles
    rw [hff]; rfl
  have hp4 : partPowers l false (List.range l.length) [] = [] := by
    unfold partPowers
    rw [hff]; rfl
  unfold pfeOf
  change (repeatedPart sos l (simpleAt l) (repeatedAt l) >>= _) = _
  rw [hrep]
  refine (ok_bind ((Arr.flat [], Arr.flat []) : Arr α × Arr α) _).trans ?_
  change (catVec ((withFlag l false (simpleAt l)).map fun i => re (simpleResidue sos l i)) _ >>= _) = _
  rw [hsim, hff]
  refine (ok_bind (Arr.flat []) _).trans ?_
  change (catVec ((withFlag l true (simpleAt l)).map fun i => simpleResidue sos l i) _ >>= _) = _
  rw [hsim, hft]
  refine bind_step (v := Arr.flat ((List.range l.length).map fun i => simpleResidue sos l i))
    (congrArg (fun r => Except.ok (Arr.flat r)) (List.append_nil _)) ?_
  change (check ((partPoles l true (simpleAt l) (repeatedAt l)).length % 2 = 0) _ >>= _) = _
  rw [hsim, hrep]
  refine check_step (by rw [hp1]; simp) ?_
  change Except.ok _ = _
  congr 1
  rw [Pfe.mk.injEq]
  refine ⟨rfl, ?_, ?_, ?_, ?_, ?_, rfl⟩
  · change Arr.flat (everyOther (((List.range l.length).map fun i => simpleResidue sos l i).map fun r => r * gain)) = _
    rw [hlen, List.map_map]
    exact congrArg Arr.flat (everyOther_map_range _ _)
  · change (partPoles l false (simpleAt l) (repeatedAt l)).map re = _
    rw [hsim, hrep, hp3]; rfl
  · change everyOther (partPoles l true (simpleAt l) (repeatedAt l)) = _
    rw [hsim, hrep, hp1, everyOther_map_range]
  · change partPowers l false (simpleAt l) (repeatedAt l) = _
    rw [hsim, hrep, hp4]
  · change everyOther (partPowers l true (simpleAt l) (repeatedAt l)) = _
    rw [hsim, hrep, hp2, everyOther_map_range]

section
variable [StarRing α]

omit [DecidableEq α] in
theorem eval_star {P : α[X]} (hP : P.map (starRingEnd α) = P) (x : α) : P.eval (star x) = star (P.eval x) := by
  conv_lhs => rw [← hP]
  exact eval_map_apply (starRingEnd α) x

omit [DecidableEq α] in
theorem quad_star (c d : Section α → α) (sos : List (Section α)) (hc : ∀ s ∈ sos, star (c s) = c s) (hd : ∀ s ∈ sos, star (d s) = d s) :
    ((sos.map fun s => X ^ 2 + C (c s) * X + C (d s)).prod : α[X]).map (starRingEnd α) =
      (sos.map fun s => X ^ 2 + C (c s) * X + C (d s)).prod := by
  rw [Polynomial.map_list_prod, List.map_map]
  congr 1
  refine List.map_congr_left fun s hs => ?_
  have h1 : starRingEnd α (c s) = c s := hc s hs
  have h2 : starRingEnd α (d s) = d s := hd s hs
  simp [h1, h2]

omit [DecidableEq α] in
/-- The residue of the conjugate pole is the conjugate residue. -/
theorem simpleResidue_star {sos : List (Section α)} {l : List (α × Nat × Bool)} (hN : (numerPoly sos).map (starRingEnd α) = numerPoly sos)
    (hD : (prodPow (polesOf l)).map (starRingEnd α) = prodPow (polesOf l)) (hone : ∀ x ∈ l, x.2.1 = 1) {i j : Nat} (hi : i < l.length)
    (hj : j < l.length) (h : (l⟪j⟫).1 = star (l⟪i⟫).1) : simpleResidue sos l j = star (simpleResidue sos l i) := by
  have hder : ∀ i < l.length, (othersPoly l i).eval (l⟪i⟫).1 = (derivative (prodPow (polesOf l))).eval (l⟪i⟫).1 := by
    intro i hi
    rw [← othersPoly_mul l i hi, hone _ (getD_mem_list l hi), pow_one, derivative_mul, derivative_sub, derivative_X, derivative_C]
    simp
  have hD' : (derivative (prodPow (polesOf l))).map (starRingEnd α) = derivative (prodPow (polesOf l)) := by
    rw [← derivative_map, hD]
  rw [simpleResidue_eq, simpleResidue_eq, hder i hi, hder j hj, h, eval_star hN, eval_star hD']
  exact (map_div₀ (starRingEnd α) _ _).symm

end

/-! ## Repeated complex poles -/

/-- `torch.stack` of nothing fails, whatever the poles. -/
theorem pfeOf_fails (re : α → α) (sos : List (Section α)) (gain : α) {l : List (α × Nat × Bool)} (hrep : repeatedAt l ≠ [])
    (hflag : ∀ i ∈ repeatedAt l, (l⟪i⟫).2.2 = true) : Fails (pfeOf re sos gain l) := by
  have hempty : ∀ blocks : List (List (Val α)), selectBlocks l false (repeatedAt l) blocks = [] := by
    intro blocks
    unfold selectBlocks
    rw [List.filter_eq_nil_iff.2]
    · rfl
    · intro x hx
      have := hflag _ (List.of_mem_zip hx).1
      rw [this]; simp
  unfold pfeOf
  refine fails_left ?_
  change Fails (repeatedPart sos l (simpleAt l) (repeatedAt l))
  unfold repeatedPart
  rw [if_neg hrep]
  refine fails_bind fun n _ => ?_
  have hrest : ∀ s, Fails (do
      let blocks ← repeatedBlocks l (repeatedAt l) n s (repeatedAt l)
      let r ← stackVals (selectBlocks l false (repeatedAt l) blocks)
      let c ← if ((repeatedAt l).filter fun i => (l⟪i⟫).2.2) = [] then .ok (.flat []) else stackVals (selectBlocks l true (repeatedAt l) blocks)
      return (r, c) : Res (Arr α × Arr α)) := by
    intro s
    refine fails_bind fun blocks _ => ?_
    rw [hempty]
    exact fails_left ⟨_, rfl⟩
  by_cases ho : simpleAt l = []
  · simp only
    rw [if_pos ho]
    exact fails_bind fun s _ => hrest s
  · simp only
    rw [if_neg ho]
    exact fails_bind fun s _ => hrest s

end Phil.Proto
