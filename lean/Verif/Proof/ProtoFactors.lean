import Verif.Proof.ProtoDiv
import Verif.Model.ProtoSignal
import Verif.Torch.Loop
import Mathlib.Algebra.Polynomial.Roots

/-! # The factors of philtorch/prototype/signal.py -/

namespace Phil.Proto
open Torch Spec Polynomial
variable {α : Type} [Field α] [DecidableEq α]

omit [DecidableEq α] in
theorem listPoly_mono (r : α) : listPoly [1, -r] = X - C r := by
  rw [listPoly_cons, listPoly_singleton]; simp [sub_eq_add_neg]

omit [DecidableEq α] in
theorem listPoly_one : listPoly [(1 : α)] = 1 := by rw [listPoly_singleton, C_1]

/-- The monic polynomial with the given roots and multiplicities. -/
noncomputable def prodPow (l : List (α × Nat)) : α[X] := (l.map fun x => (X - C x.1) ^ x.2).prod

/-- For every root the product over the roots behind it. -/
noncomputable def sufs : List (α × Nat) → List α[X]
  | [] => []
  | _ :: l => prodPow l :: sufs l

theorem suffixLoop_spec (l : List (α × Nat)) : ∀ (rest : List (α × Nat)) (cur : List α) (acc : List (List α)),
    listPoly cur = prodPow rest → acc.map listPoly = prodPow rest :: sufs rest →
    ∃ S, suffixLoop l cur acc = .ok S ∧ S.map listPoly = prodPow (l.reverse ++ rest) :: sufs (l.reverse ++ rest) := by
  induction l with
  | nil => intro rest cur acc _ h; exact ⟨acc, rfl, h⟩
  | cons x l ih =>
    intro rest cur acc h1 h2
    obtain ⟨c, hc, hc'⟩ := polysmul_spec (cur :: List.replicate x.2 [1, -x.1]) (by simp)
    have h3 : listPoly c = prodPow (x :: rest) := by
      rw [hc', List.map_cons, List.prod_cons, List.map_replicate, List.prod_replicate, listPoly_mono, h1, prodPow, prodPow, List.map_cons,
        List.prod_cons, mul_comm]
    obtain ⟨S, hS, hS'⟩ := ih (x :: rest) c (c :: acc) h3 (by rw [List.map_cons, h3, h2]; rfl)
    refine ⟨S, ?_, ?_⟩
    · show (polysmul (cur :: List.replicate x.2 [1, -x.1]) >>= fun c => suffixLoop l c (c :: acc)) = _
      exact bind_step hc hS
    · rw [hS', List.reverse_cons, List.append_assoc]; rfl

theorem factorBlock_spec (powers : Bool) (r : α) (suffix : List α) (c : Nat) : ∀ (i : Nat) (cur : List α),
    listPoly (factorBlock powers [1, -r] suffix c i cur).2 = listPoly cur * (X - C r) ^ c ∧
      (factorBlock powers [1, -r] suffix c i cur).1.map listPoly =
        ((List.range c).filter fun t => decide (i + t = 0 ∨ powers = true)).map fun t =>
          listPoly cur * (X - C r) ^ t * listPoly suffix := by
  induction c with
  | zero => intro i cur; simp [factorBlock]
  | succ c ih =>
    intro i cur
    obtain ⟨h1, h2⟩ := ih (i + 1) (polymul cur [1, -r])
    rw [listPoly_polymul, listPoly_mono] at h1 h2
    unfold factorBlock
    simp only
    refine ⟨by rw [h1, pow_succ']; ring, ?_⟩
    rw [List.range_succ_eq_map, List.filter_cons, List.filter_map]
    have e : ((List.range c).filter ((fun t => decide (i + t = 0 ∨ powers = true)) ∘ Nat.succ)) =
        (List.range c).filter fun t => decide (i + 1 + t = 0 ∨ powers = true) := by
      refine List.filter_congr fun t _ => ?_
      simp only [Function.comp, Nat.succ_eq_add_one]
      congr 1
      rw [show i + (t + 1) = i + 1 + t by omega]
    rw [e]
    have e2 : ((List.range c).filter fun t => decide (i + 1 + t = 0 ∨ powers = true)).map
        ((fun t => listPoly cur * (X - C r) ^ t * listPoly suffix) ∘ Nat.succ) =
        ((List.range c).filter fun t => decide (i + 1 + t = 0 ∨ powers = true)).map fun t =>
          listPoly cur * (X - C r) * (X - C r) ^ t * listPoly suffix := by
      refine List.map_congr_left fun t _ => ?_
      simp only [Function.comp, Nat.succ_eq_add_one, pow_succ']
      ring
    by_cases h : i = 0 ∨ powers = true
    · rw [if_pos h, if_pos (by simpa using h), List.map_cons, listPoly_polymul, List.map_cons, List.map_map, h2, e2]
      simp
    · rw [if_neg h, if_neg (by simpa using h), List.map_map, h2, e2]

/-- The exponents of the linear factor of one root that occur among its factors. -/
def exps (powers : Bool) (m : Nat) : List Nat := ((List.range m).filter fun t => decide (t = 0 ∨ powers = true)).reverse

/-- What `factorLoop` computes. -/
noncomputable def facs (powers : Bool) : α[X] → List (α × Nat) → List α[X]
  | _, [] => []
  | pre, x :: l => ((exps powers x.2).map fun t => pre * (X - C x.1) ^ t * prodPow l) ++
      facs powers (pre * (X - C x.1) ^ x.2) l

theorem factorLoop_spec (powers : Bool) (rm : List (α × Nat)) : ∀ (sfx : List (List α)) (cur : List α), sfx.map listPoly = sufs rm →
    (factorLoop powers (rm.zip sfx) cur).1.map listPoly = facs powers (listPoly cur) rm ∧
      listPoly (factorLoop powers (rm.zip sfx) cur).2 = listPoly cur * prodPow rm := by
  induction rm with
  | nil => intro sfx cur _; simp [factorLoop, facs, prodPow]
  | cons x l ih =>
    intro sfx cur h
    cases sfx with
    | nil => simp [sufs] at h
    | cons s sfx =>
      rw [List.map_cons, sufs, List.cons.injEq] at h
      obtain ⟨h1, h2⟩ := factorBlock_spec powers x.1 s x.2 0 cur
      obtain ⟨h3, h4⟩ := ih sfx (factorBlock powers [1, -x.1] s x.2 0 cur).2 h.2
      rw [List.zip_cons_cons]
      unfold factorLoop
      simp only
      constructor
      · rw [List.map_append, List.map_reverse, h2, h3, h1, facs, h.1, exps, List.map_reverse]
        simp only [Nat.zero_add]
      · rw [h4, h1, prodPow, prodPow, List.map_cons, List.prod_cons]; ring

theorem computeFactors_spec (powers : Bool) (rm : List (α × Nat)) (h0 : rm ≠ []) :
    ∃ F D, computeFactors rm powers = .ok (F, D) ∧ F.map listPoly = facs powers 1 rm ∧ listPoly D = prodPow rm := by
  cases rm with
  | nil => exact absurd rfl h0
  | cons x l =>
    obtain ⟨S, hS, hS'⟩ := suffixLoop_spec l.reverse [] [1] [[1]] (by rw [listPoly_one]; simp [prodPow])
      (by rw [List.map_singleton, listPoly_one]; simp [prodPow, sufs])
    rw [List.reverse_reverse, List.append_nil] at hS'
    obtain ⟨h1, h2⟩ := factorLoop_spec powers (x :: l) S [1] hS'
    rw [listPoly_one] at h1 h2
    rw [one_mul] at h2
    refine ⟨_, _, ?_, h1, h2⟩
    unfold computeFactors
    refine bind_step (v := S) ?_ rfl
    rw [List.reverse_cons, List.dropLast_concat]
    exact hS

omit [DecidableEq α] in
/-- Without powers there is one factor per root; times the power of its linear factor it is the whole product. -/
theorem facs_false (rm : List (α × Nat)) (hm : ∀ x ∈ rm, 0 < x.2) : ∀ pre : α[X],
    List.Forall₂ (fun x f => f * (X - C x.1) ^ x.2 = pre * prodPow rm) rm (facs false pre rm) := by
  induction rm with
  | nil => intro pre; exact .nil
  | cons x l ih =>
    intro pre
    have e : exps false x.2 = [0] := by
      obtain ⟨m, hm⟩ : ∃ m, x.2 = m + 1 := ⟨x.2 - 1, by have := hm x (by simp); omega⟩
      rw [hm, exps, List.range_succ_eq_map, List.filter_cons, List.filter_map]
      simp
    rw [facs, e]
    refine .cons ?_ ((ih (fun y hy => hm y (List.mem_cons_of_mem _ hy)) _).imp fun y f hf => ?_)
    · rw [prodPow, prodPow, List.map_cons, List.prod_cons]; ring
    · rw [hf, prodPow, prodPow, List.map_cons, List.prod_cons]; ring

end Phil.Proto
