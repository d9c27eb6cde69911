import Verif.Spec.Rounding
import Verif.Proof.HostKernels
import Verif.Proof.ScanOps
import Mathlib.Analysis.Normed.Field.Lemmas
import Mathlib.Tactic.Linarith
import Mathlib.Tactic.Positivity
import Mathlib.Tactic.FieldSimp

/-!
# Propagation of rounding errors
-/

namespace Spec
open Finset

variable {K : Type} [NormedField K] {ε : ℝ} {F : Arith K ε}

/-- `u` is `v` after at most `n` roundings on every path, `m` bounds the sum of the absolute values of the terms of `v`. -/
def Approx (ε : ℝ) (n : Nat) (u v : K) (m : ℝ) : Prop := ‖u - v‖ ≤ ((1 + ε) ^ n - 1) * m ∧ ‖v‖ ≤ m

theorem Approx.nonneg {n : Nat} {u v : K} {m : ℝ} (h : Approx ε n u v m) : 0 ≤ m := (norm_nonneg _).trans h.2

theorem approx_refl (u : K) : Approx ε 0 u u ‖u‖ := by simp [Approx]

theorem approx_zero (n : Nat) : Approx ε n (0 : Fl F).val (0 : K) 0 := by
  refine ⟨?_, by simp⟩
  rw [show (0 : Fl F).val = (0 : K) from rfl]
  simp

theorem Approx.mono (hε : 0 ≤ ε) {n n' : Nat} {u v : K} {m : ℝ} (h : Approx ε n u v m) (hn : n ≤ n') : Approx ε n' u v m := by
  refine ⟨h.1.trans ?_, h.2⟩
  have := pow_le_pow_right₀ (show (1 : ℝ) ≤ 1 + ε by linarith) hn
  exact mul_le_mul_of_nonneg_right (by linarith) h.nonneg

/-- The computed number is bounded as well. -/
theorem Approx.abs_le {n : Nat} {u v : K} {m : ℝ} (h : Approx ε n u v m) : ‖u‖ ≤ (1 + ε) ^ n * m := by
  have h1 : ‖u‖ ≤ ‖u - v‖ + ‖v‖ := by simpa using norm_add_le (u - v) v
  have := h.1
  have := h.2
  nlinarith

theorem Approx.mul (hε : 0 ≤ ε) {n n' : Nat} {u u' : Fl F} {v v' : K} {m m' : ℝ} (h : Approx ε n u.val v m)
    (h' : Approx ε n' u'.val v' m') : Approx ε (n + n' + 1) (u * u').val (v * v') (m * m') := by
  have hm := h.nonneg
  have hm' := h'.nonneg
  refine ⟨?_, by rw [norm_mul]; exact mul_le_mul h.2 h'.2 (norm_nonneg _) hm⟩
  have e0 := F.mul_err u.val u'.val
  have b := h.abs_le
  have b' := h'.abs_le
  have e1 : ‖u.val * u'.val - v * v'‖ ≤ ((1 + ε) ^ (n + n') - 1) * (m * m') := by
    have : u.val * u'.val - v * v' = (u.val - v) * u'.val + v * (u'.val - v') := by ring
    rw [this]
    refine (norm_add_le _ _).trans ?_
    rw [norm_mul, norm_mul]
    have p1 : ‖u.val - v‖ * ‖u'.val‖ ≤ (((1 + ε) ^ n - 1) * m) * ((1 + ε) ^ n' * m') :=
      mul_le_mul h.1 b' (norm_nonneg _) ((norm_nonneg _).trans h.1)
    have p2 : ‖v‖ * ‖u'.val - v'‖ ≤ m * (((1 + ε) ^ n' - 1) * m') := mul_le_mul h.2 h'.1 (norm_nonneg _) hm
    have : (((1 + ε) ^ n - 1) * m) * ((1 + ε) ^ n' * m') + m * (((1 + ε) ^ n' - 1) * m')
        = ((1 + ε) ^ (n + n') - 1) * (m * m') := by rw [pow_add]; ring
    linarith
  have e2 : ‖u.val * u'.val‖ ≤ (1 + ε) ^ (n + n') * (m * m') := by
    rw [norm_mul, pow_add]
    calc ‖u.val‖ * ‖u'.val‖ ≤ ((1 + ε) ^ n * m) * ((1 + ε) ^ n' * m') :=
          mul_le_mul b b' (norm_nonneg _) ((norm_nonneg _).trans b)
      _ = _ := by ring
  have e3 : ‖F.mul u.val u'.val - v * v'‖ ≤ ‖F.mul u.val u'.val - u.val * u'.val‖ + ‖u.val * u'.val - v * v'‖ := by
    simpa using norm_add_le (F.mul u.val u'.val - u.val * u'.val) (u.val * u'.val - v * v')
  change ‖F.mul u.val u'.val - v * v'‖ ≤ _
  have e4 := mul_le_mul_of_nonneg_left e2 hε
  have e5 : ((1 + ε) ^ (n + n' + 1) - 1) * (m * m')
      = ε * ((1 + ε) ^ (n + n') * (m * m')) + ((1 + ε) ^ (n + n') - 1) * (m * m') := by rw [pow_succ]; ring
  rw [e5]
  linarith

theorem Approx.add (hε : 0 ≤ ε) {n : Nat} {u u' : Fl F} {v v' : K} {m m' : ℝ} (h : Approx ε n u.val v m)
    (h' : Approx ε n u'.val v' m') : Approx ε (n + 1) (u + u').val (v + v') (m + m') := by
  refine ⟨?_, (norm_add_le _ _).trans (add_le_add h.2 h'.2)⟩
  have e0 := F.add_err u.val u'.val
  have b := h.abs_le
  have b' := h'.abs_le
  have e1 : ‖u.val + u'.val - (v + v')‖ ≤ ((1 + ε) ^ n - 1) * (m + m') := by
    have : u.val + u'.val - (v + v') = (u.val - v) + (u'.val - v') := by ring
    rw [this]
    refine (norm_add_le _ _).trans ?_
    have := h.1
    have := h'.1
    linarith
  have e2 : ‖u.val + u'.val‖ ≤ (1 + ε) ^ n * (m + m') := by
    refine (norm_add_le _ _).trans ?_
    linarith
  have e3 : ‖F.add u.val u'.val - (v + v')‖ ≤ ‖F.add u.val u'.val - (u.val + u'.val)‖ + ‖u.val + u'.val - (v + v')‖ := by
    simpa using norm_add_le (F.add u.val u'.val - (u.val + u'.val)) (u.val + u'.val - (v + v'))
  change ‖F.add u.val u'.val - (v + v')‖ ≤ _
  have e4 := mul_le_mul_of_nonneg_left e2 hε
  have e5 : ((1 + ε) ^ (n + 1) - 1) * (m + m')
      = ε * ((1 + ε) ^ n * (m + m')) + ((1 + ε) ^ n - 1) * (m + m') := by rw [pow_succ]; ring
  rw [e5]
  linarith

/-- Sums of terms with different numbers of roundings. -/
theorem Approx.add' (hε : 0 ≤ ε) {n n' k : Nat} {u u' : Fl F} {v v' : K} {m m' : ℝ} (h : Approx ε n u.val v m)
    (h' : Approx ε n' u'.val v' m') (hn : n + 1 ≤ k) (hn' : n' + 1 ≤ k) : Approx ε k (u + u').val (v + v') (m + m') := by
  obtain ⟨j, rfl⟩ : ∃ j, k = j + 1 := ⟨k - 1, by omega⟩
  exact (h.mono hε (by omega)).add hε (h'.mono hε (by omega))

/-! ## The loops of the CPU kernels -/

theorem macRec_approx (hε : 0 ≤ ε) (a : Nat → Fl F) (z : Fl F) (x : Nat → Fl F) (t : Nat) :
    Approx ε (2 * t) (Phil.Host.macRec a z x t).val (scalarRec (fun t => (a t).val) z.val (fun t => (x t).val) t)
      (scalarRec (fun t => ‖(a t).val‖) ‖z.val‖ (fun t => ‖(x t).val‖) t) := by
  induction t with
  | zero => exact approx_refl _
  | succ t ih =>
    simp only [Phil.Host.macRec, scalarRec]
    rw [add_comm _ (x t).val, add_comm _ ‖(x t).val‖]
    exact (approx_refl (x t).val).add' hε ((approx_refl (a t).val).mul hε ih) (by omega) (by omega)

theorem macSum_approx (hε : 0 ≤ ε) {k : Nat} (f g : Nat → Fl F) (v : Nat → K) (m : Nat → ℝ) (n : Nat)
    (h : ∀ j < n, Approx ε k (g j).val (v j) (m j)) :
    Approx ε (k + 1 + n) (Phil.Host.macSum f g n).val (∑ j ∈ range n, (f j).val * v j) (∑ j ∈ range n, ‖(f j).val‖ * m j) := by
  induction n with
  | zero => exact approx_zero _
  | succ n ih =>
    rw [sum_range_succ, sum_range_succ]
    exact (ih fun j hj => h j (by omega)).add' hε ((approx_refl (f n).val).mul hε (h n (by omega))) (by omega) (by omega)

theorem macVec_approx (hε : 0 ≤ ε) (M : Nat) (A : Nat → Nat → Nat → Fl F) (z : Nat → Fl F) (x : Nat → Nat → Fl F) (t i : Nat) :
    Approx ε ((M + 2) * t) (Phil.Host.macVec M A z x t i).val
      (vecRec M (fun t i k => (A t i k).val) (fun i => (z i).val) (fun t i => (x t i).val) t i)
      (vecRec M (fun t i k => ‖(A t i k).val‖) (fun i => ‖(z i).val‖) (fun t i => ‖(x t i).val‖) t i) := by
  induction t generalizing i with
  | zero => exact approx_refl _
  | succ t ih =>
    simp only [Phil.Host.macVec, vecRec]
    rw [add_comm _ (x t i).val, add_comm _ ‖(x t i).val‖]
    refine (approx_refl (x t i).val).add' hε (macSum_approx hε _ _ _ _ M fun j _ => ih j) ?_ ?_
    · rw [Nat.mul_succ]; omega
    · rw [Nat.mul_succ]; omega

end Spec

namespace Scan
open Spec Phil.Cuda

/-! ## Scans in any bracketing -/

variable {K : Type} [NormedField K] {ε : ℝ} {F : Arith K ε}

theorem sums_length {β : Type} {op : β → β → β} {l : List β} {u : β} (h : Sums op l u) : 1 ≤ l.length := by
  induction h with
  | one => simp
  | join l r u v _ _ ih1 ih2 => rw [List.length_append]; omega

/-- The exact values and the absolute values of an element. -/
def pairVal (e : Fl F × Fl F) : K × K := (e.1.val, e.2.val)
def pairAbs (e : Fl F × Fl F) : ℝ × ℝ := (‖e.1.val‖, ‖e.2.val‖)

theorem sums_recur (hε : 0 ≤ ε) {l : List (Fl F × Fl F)} {u : Fl F × Fl F} (h : Sums recurOp l u) :
    ∃ v m, Sums recurOp (l.map pairVal) v ∧ Sums recurOp (l.map pairAbs) m ∧
      Approx ε (l.length - 1) u.1.val v.1 m.1 ∧ Approx ε (2 * (l.length - 1)) u.2.val v.2 m.2 := by
  induction h with
  | one a => exact ⟨pairVal a, pairAbs a, .one _, .one _, approx_refl _, approx_refl _⟩
  | join l r u v hl hr ih1 ih2 =>
    obtain ⟨v1, m1, s1, t1, p1, q1⟩ := ih1
    obtain ⟨v2, m2, s2, t2, p2, q2⟩ := ih2
    have n1 := sums_length hl
    have n2 := sums_length hr
    refine ⟨recurOp v1 v2, recurOp m1 m2, ?_, ?_, ?_, ?_⟩
    · rw [List.map_append]; exact .join _ _ _ _ s1 s2
    · rw [List.map_append]; exact .join _ _ _ _ t1 t2
    · exact (p1.mul hε p2).mono hε (by rw [List.length_append]; omega)
    · exact (q1.mul hε p2).add' hε q2 (by rw [List.length_append]; omega) (by rw [List.length_append]; omega)

/-- The exact values and the absolute values of an element. -/
def sq2Val (e : Sq2 (Fl F)) : Sq2 K := ⟨e.a.val, e.b.val, e.c.val, e.d.val, e.e.val, e.f.val⟩
def sq2Abs (e : Sq2 (Fl F)) : Sq2 ℝ := ⟨‖e.a.val‖, ‖e.b.val‖, ‖e.c.val‖, ‖e.d.val‖, ‖e.e.val‖, ‖e.f.val‖⟩

/-- All entries are approximated: those of the matrix after `n` roundings, those of the vector after `n'`. -/
structure ApproxSq (ε : ℝ) (n n' : Nat) (u : Sq2 (Fl F)) (v : Sq2 K) (m : Sq2 ℝ) : Prop where
  a : Approx ε n u.a.val v.a m.a
  b : Approx ε n u.b.val v.b m.b
  c : Approx ε n u.c.val v.c m.c
  d : Approx ε n u.d.val v.d m.d
  e : Approx ε n' u.e.val v.e m.e
  f : Approx ε n' u.f.val v.f m.f

theorem ApproxSq.op (hε : 0 ≤ ε) {l r : Nat} (hl : 1 ≤ l) (hr : 1 ≤ r) {u u' : Sq2 (Fl F)} {v v' : Sq2 K} {m m' : Sq2 ℝ}
    (h : ApproxSq ε (2 * (l - 1)) (3 * (l - 1)) u v m) (h' : ApproxSq ε (2 * (r - 1)) (3 * (r - 1)) u' v' m') :
    ApproxSq ε (2 * (l + r - 1)) (3 * (l + r - 1)) (recur2Op u u') (recur2Op v v') (recur2Op m m') where
  a := (h'.a.mul hε h.a).add' hε (h'.b.mul hε h.c) (by omega) (by omega)
  b := (h'.a.mul hε h.b).add' hε (h'.b.mul hε h.d) (by omega) (by omega)
  c := (h'.c.mul hε h.a).add' hε (h'.d.mul hε h.c) (by omega) (by omega)
  d := (h'.c.mul hε h.b).add' hε (h'.d.mul hε h.d) (by omega) (by omega)
  e := ((h'.a.mul hε h.e).add hε (h'.b.mul hε h.f)).add' hε h'.e (by omega) (by omega)
  f := ((h'.c.mul hε h.e).add hε (h'.d.mul hε h.f)).add' hε h'.f (by omega) (by omega)

theorem sums_recur2 (hε : 0 ≤ ε) {l : List (Sq2 (Fl F))} {u : Sq2 (Fl F)} (h : Sums recur2Op l u) :
    ∃ v m, Sums recur2Op (l.map sq2Val) v ∧ Sums recur2Op (l.map sq2Abs) m ∧
      ApproxSq ε (2 * (l.length - 1)) (3 * (l.length - 1)) u v m := by
  induction h with
  | one a =>
    exact ⟨sq2Val a, sq2Abs a, .one _, .one _, approx_refl _, approx_refl _, approx_refl _, approx_refl _, approx_refl _,
      approx_refl _⟩
  | join l r u v hl hr ih1 ih2 =>
    obtain ⟨v1, m1, s1, t1, p1⟩ := ih1
    obtain ⟨v2, m2, s2, t2, p2⟩ := ih2
    refine ⟨recur2Op v1 v2, recur2Op m1 m2, ?_, ?_, ?_⟩
    · rw [List.map_append]; exact .join _ _ _ _ s1 s2
    · rw [List.map_append]; exact .join _ _ _ _ t1 t2
    · rw [List.length_append]; exact p1.op hε (sums_length hl) (sums_length hr) p2

/-- Any combination of the elements of an item, in exact arithmetic. -/
theorem item_sums {α : Type} [CommRing α] {M : Nat} {β : Type} {op : β → β → β} {V : View M β α op} {B T : Nat} {f : Nat → β}
    {A : Nat → Nat → Nat → Nat → α} {z : Nat → Nat → α} {x : Nat → Nat → Nat → α} (h : Elems V B T f A z x)
    {b t : Nat} (hb : b < B) (ht : t < T) {u : β} (hs : Sums op ((List.range' (b * T) (t + 1)).map f) u) :
    ∀ i < M, V.vec u i = vecRec M (A b) (z b) (x b) t i := by
  intro i hi
  rw [sums_leftFold V.assoc hs]
  have := item_fold h hb (b * T) 0 (by omega) ht i hi
  rwa [Nat.zero_add] at this

end Scan

namespace Spec
open Torch Torch.Tensor Phil.Cuda Scan

variable {K : Type} [NormedField K] {ε : ℝ} {F : Arith K ε}

theorem pairs_elems {α : Type} [CommRing α] {B N : Nat} {e : Nat → α × α} {a : Nat → α} {zi : Nat → α} {x : Nat → Nat → α}
    (h : ∀ b < B, ∀ t < N + 1, e (b * (N + 1) + t) = pairAt a zi x b t) :
    Elems pairView B (N + 1) e (fun b _ _ _ => a b) (fun b _ => zi b) (fun b t _ => x b t) := by
  have hi0 : ∀ b < B, e (b * (N + 1)) = (0, zi b) := fun b hb => h b hb 0 (by omega)
  have hi1 : ∀ b < B, ∀ t, t + 1 < N + 1 → e (b * (N + 1) + (t + 1)) = (a b, x b t) := fun b hb t ht => h b hb (t + 1) ht
  constructor
  · intro b hb i _ k _; simp only [pairView]; rw [hi0 b hb]
  · intro b hb i _; simp only [pairView]; rw [hi0 b hb]
  · intro b hb t ht i _ k _; simp only [pairView]; rw [hi1 b hb t ht]
  · intro b hb t ht i _; simp only [pairView]; rw [hi1 b hb t ht]

theorem ltiRecurCuda_accuracy (hε : 0 ≤ ε) {scan : Scanner (Fl F × Fl F)} (hscan : IsScan scan) :
    ScalarAccuracy 2 (ltiRecurCuda scan) := by
  intro B N A a zi x hA
  obtain ⟨e, he, hr⟩ := ltiRecurCuda_run scan (N := N) zi x hA
  refine ⟨_, hr, fun b hb n hn => ?_⟩
  have hs := hscan recurOp (index2key (N + 1)) (B * (N + 1)) e (b * (N + 1) + (n + 1)) (flat_lt hb (by omega))
  rw [seg_key (by omega) b (n + 1) (by omega)] at hs
  obtain ⟨v, m, sv, sm, -, h⟩ := sums_recur hε hs
  rw [List.map_map] at sv sm
  have ev := item_sums (pairs_elems (e := pairVal ∘ e) (a := fun b => (a b).val) (zi := fun b => (zi b).val)
    (x := fun b t => (x b t).val) (B := B) (N := N) (by
      intro b hb t ht
      simp only [Function.comp, he b hb t ht, pairAt, pairVal]
      split <;> rfl)) hb (by omega) sv 0 (by omega)
  have em := item_sums (pairs_elems (e := pairAbs ∘ e) (a := fun b => ‖(a b).val‖) (zi := fun b => ‖(zi b).val‖)
    (x := fun b t => ‖(x b t).val‖) (B := B) (N := N) (by
      intro b hb t ht
      simp only [Function.comp, he b hb t ht, pairAt, pairAbs]
      split
      · exact Prod.ext (norm_zero (E := K)) rfl
      · rfl)) hb (by omega) sm 0 (by omega)
  rw [vecRec_one] at ev em
  have h1 := h.1
  rw [List.length_map, List.length_range', Nat.add_sub_cancel, show v.2 = _ from ev, show m.2 = _ from em] at h1
  exact h1

theorem sq2Val_at (a : Nat → Nat → Nat → Nat → Fl F) (zi : Nat → Nat → Fl F) (x : Nat → Nat → Nat → Fl F) (b t : Nat) :
    sq2Val (sq2At a zi x b t)
      = sq2At (fun b t i j => (a b t i j).val) (fun b i => (zi b i).val) (fun b t i => (x b t i).val) b t := by
  simp only [sq2Val, sq2At, Phil.Cuda.matAt, withState]
  split <;> rfl

theorem sq2Abs_at (a : Nat → Nat → Nat → Nat → Fl F) (zi : Nat → Nat → Fl F) (x : Nat → Nat → Nat → Fl F) (b t : Nat) :
    sq2Abs (sq2At a zi x b t)
      = sq2At (fun b t i j => ‖(a b t i j).val‖) (fun b i => ‖(zi b i).val‖) (fun b t i => ‖(x b t i).val‖) b t := by
  simp only [sq2Abs, sq2At, Phil.Cuda.matAt, withState]
  split
  · have : ‖(0 : Fl F).val‖ = (0 : ℝ) := norm_zero (E := K)
    rw [this]
  · rfl

theorem scan2_accuracy (hε : 0 ≤ ε) {scan : Scanner (Sq2 (Fl F))} (hscan : IsScan scan) {B N : Nat} {e : Nat → Sq2 (Fl F)}
    {a : Nat → Nat → Nat → Nat → Fl F} {zi : Nat → Nat → Fl F} {x : Nat → Nat → Nat → Fl F}
    (he : ∀ b < B, ∀ t < N + 1, e (b * (N + 1) + t) = sq2At a zi x b t) {b n i : Nat} (hb : b < B) (hn : n < N) (hi : i < 2) :
    ‖(sq2Vec (scan recur2Op (index2key (N + 1)) (B * (N + 1)) e (b * (N + 1) + (n + 1))) i).val -
        vecRec 2 (fun t i j => (a b t i j).val) (fun i => (zi b i).val) (fun t i => (x b t i).val) (n + 1) i‖ ≤
      ((1 + ε) ^ (3 * (n + 1)) - 1) *
        vecRec 2 (fun t i j => ‖(a b t i j).val‖) (fun i => ‖(zi b i).val‖) (fun t i => ‖(x b t i).val‖) (n + 1) i := by
  have hs := hscan recur2Op (index2key (N + 1)) (B * (N + 1)) e (b * (N + 1) + (n + 1)) (flat_lt hb (by omega))
  rw [seg_key (by omega) b (n + 1) (by omega)] at hs
  obtain ⟨v, m, sv, sm, h⟩ := sums_recur2 hε hs
  rw [List.map_map] at sv sm
  have ev := item_sums (sq2_elems (e := sq2Val ∘ e) (B := B) (N := N) (by
      intro b hb t ht
      simp only [Function.comp, he b hb t ht]
      exact sq2Val_at a zi x b t)) hb (by omega) sv i hi
  have em := item_sums (sq2_elems (e := sq2Abs ∘ e) (B := B) (N := N) (by
      intro b hb t ht
      simp only [Function.comp, he b hb t ht]
      exact sq2Abs_at a zi x b t)) hb (by omega) sm i hi
  rw [← ev, ← em]
  rw [List.length_map, List.length_range', Nat.add_sub_cancel] at h
  rcases (show i = 0 ∨ i = 1 by omega) with rfl | rfl
  · exact h.e.1
  · exact h.f.1

/-! ## A loop that contracts -/

/-- With `|a| ≤ r` and `r (1 + ε)² < 1` the errors stay bounded. -/
theorem macRec_stable (hε : 0 ≤ ε) {r Z X : ℝ} (hr : 0 ≤ r) (hr1 : r * (1 + ε) ^ 2 < 1) (hX : 0 ≤ X) (a : Nat → Fl F) (z : Fl F)
    (x : Nat → Fl F) {n : Nat} (ha : ∀ t < n, ‖(a t).val‖ ≤ r) (hz : ‖z.val‖ ≤ Z) (hx : ∀ t < n, ‖(x t).val‖ ≤ X) :
    ‖(Phil.Host.macRec a z x n).val‖ ≤ Z + (1 + ε) * X / (1 - r * (1 + ε) ^ 2) ∧
    ‖(Phil.Host.macRec a z x n).val - scalarRec (fun t => (a t).val) z.val (fun t => (x t).val) n‖ ≤
      ε * (X + (2 + ε) * r * (Z + (1 + ε) * X / (1 - r * (1 + ε) ^ 2))) / (1 - r) := by
  have hd : 0 < 1 - r * (1 + ε) ^ 2 := by linarith
  have hr' : 0 < 1 - r := by nlinarith
  have hZ : 0 ≤ Z := (norm_nonneg _).trans hz
  set Y := Z + (1 + ε) * X / (1 - r * (1 + ε) ^ 2) with hY
  have hY0 : 0 ≤ Y := by positivity
  have hYeq : (1 - r * (1 + ε) ^ 2) * (Y - Z) = (1 + ε) * X := by
    rw [hY]; field_simp; ring
  set E := ε * (X + (2 + ε) * r * Y) / (1 - r) with hE
  have hE0 : 0 ≤ E := by positivity
  have hEeq : (1 - r) * E = ε * (X + (2 + ε) * r * Y) := by rw [hE]; field_simp
  induction n with
  | zero =>
    refine ⟨?_, ?_⟩
    · change ‖z.val‖ ≤ Y
      have : 0 ≤ (1 + ε) * X / (1 - r * (1 + ε) ^ 2) := by positivity
      linarith
    · change ‖z.val - z.val‖ ≤ E
      rw [sub_self, norm_zero]; exact hE0
  | succ n ih =>
    obtain ⟨h1, h2⟩ := ih (fun t ht => ha t (by omega)) (fun t ht => hx t (by omega))
    set y := Phil.Host.macRec a z x n with hy
    set w := scalarRec (fun t => (a t).val) z.val (fun t => (x t).val) n with hw
    have hA := ha n (by omega)
    have hXn := hx n (by omega)
    set p := F.mul (a n).val y.val with hp
    have e1 := F.mul_err (a n).val y.val
    have e2 := F.add_err (x n).val p
    have hay : ‖(a n).val * y.val‖ ≤ r * Y := by
      rw [norm_mul]; exact mul_le_mul hA h1 (norm_nonneg _) hr
    have e1' : ‖p - (a n).val * y.val‖ ≤ ε * (r * Y) := e1.trans (mul_le_mul_of_nonneg_left hay hε)
    have hpn : ‖p‖ ≤ (1 + ε) * (r * Y) := by
      have : ‖p‖ ≤ ‖p - (a n).val * y.val‖ + ‖(a n).val * y.val‖ := by
        simpa using norm_add_le (p - (a n).val * y.val) ((a n).val * y.val)
      linarith
    have hsum : ‖(x n).val + p‖ ≤ X + (1 + ε) * (r * Y) := (norm_add_le _ _).trans (add_le_add hXn hpn)
    have e2' : ‖F.add (x n).val p - ((x n).val + p)‖ ≤ ε * (X + (1 + ε) * (r * Y)) :=
      e2.trans (mul_le_mul_of_nonneg_left hsum hε)
    refine ⟨?_, ?_⟩
    · change ‖F.add (x n).val p‖ ≤ Y
      have : ‖F.add (x n).val p‖ ≤ ‖F.add (x n).val p - ((x n).val + p)‖ + ‖(x n).val + p‖ := by
        simpa using norm_add_le (F.add (x n).val p - ((x n).val + p)) ((x n).val + p)
      have h3 : (1 + ε) * (X + (1 + ε) * (r * Y)) = (1 + ε) * X + r * (1 + ε) ^ 2 * Y := by ring
      have h4 : (1 + ε) * X + r * (1 + ε) ^ 2 * Y = Y - (1 - r * (1 + ε) ^ 2) * Z := by
        rw [← hYeq]; ring
      have h5 : 0 ≤ (1 - r * (1 + ε) ^ 2) * Z := by positivity
      linarith
    · change ‖F.add (x n).val p - ((a n).val * w + (x n).val)‖ ≤ E
      have h3 : F.add (x n).val p - ((a n).val * w + (x n).val)
          = (F.add (x n).val p - ((x n).val + p)) + ((p - (a n).val * y.val) + (a n).val * (y.val - w)) := by ring
      have h4 : ‖(a n).val * (y.val - w)‖ ≤ r * E := by
        rw [norm_mul]; exact mul_le_mul hA h2 (norm_nonneg _) hr
      rw [h3]
      refine (norm_add_le _ _).trans ?_
      have h5 := norm_add_le (p - (a n).val * y.val) ((a n).val * (y.val - w))
      have h6 : ε * (X + (1 + ε) * (r * Y)) + ε * (r * Y) = (1 - r) * E := by rw [hEeq]; ring
      linarith

/-! ## Binary rounding -/

theorem binRound_err (p : Nat) (x : ℝ) : |binRound p x - x| ≤ (2 : ℝ)⁻¹ ^ (p + 1) * |x| := by
  rcases eq_or_ne x 0 with rfl | hx
  · simp [binRound]
  have hx' : 0 < |x| := abs_pos.2 hx
  have hlog : (2 : ℝ) ^ Int.log 2 |x| ≤ |x| := by simpa using Int.zpow_log_le_self (b := 2) (by norm_num) hx'
  unfold binRound
  set s : ℝ := (2 : ℝ) ^ (Int.log 2 |x| - p) with hs
  have hs0 : 0 < s := zpow_pos (by norm_num) _
  have h1 : round (x / s) * s - x = -((x / s - round (x / s)) * s) := by field_simp; ring
  rw [h1, abs_neg, abs_mul, abs_of_pos hs0]
  have h2 := mul_le_mul_of_nonneg_right (abs_sub_round (x / s)) hs0.le
  refine h2.trans ?_
  have h3 : s = (2 : ℝ) ^ Int.log 2 |x| * (2 : ℝ)⁻¹ ^ p := by
    rw [hs, zpow_sub₀ (by norm_num), zpow_natCast, inv_pow, div_eq_mul_inv]
  rw [h3, pow_succ]
  have : 0 ≤ (2 : ℝ)⁻¹ ^ p := by positivity
  nlinarith

/-- Arithmetic with `p + 1` binary digits. -/
noncomputable def binary (p : Nat) : Arith ℝ ((2 : ℝ)⁻¹ ^ (p + 1)) where
  add x y := binRound p (x + y)
  mul x y := binRound p (x * y)
  add_err x y := binRound_err p (x + y)
  mul_err x y := binRound_err p (x * y)

/-- Exact arithmetic. -/
def exactArith (K : Type) [NormedField K] : Arith K 0 where
  add x y := x + y
  mul x y := x * y
  add_err x y := by simp
  mul_err x y := by simp

/-- `(1 + ε)^n - 1` is of the order `n ε`. -/
theorem growth_le {n : Nat} (hε : 0 ≤ ε) (h : 2 * n * ε ≤ 1) : (1 + ε) ^ n - 1 ≤ 2 * n * ε := by
  induction n with
  | zero => simp
  | succ n ih =>
    push_cast at h ⊢
    have ihn := ih (by linarith)
    have h1 : (1 + ε) ^ n * (1 + ε) ≤ (1 + 2 * n * ε) * (1 + ε) := mul_le_mul_of_nonneg_right (by linarith) (by linarith)
    have h2 : 2 * n * ε * ε ≤ 1 * ε := mul_le_mul_of_nonneg_right (by linarith) hε
    rw [pow_succ]
    linarith

end Spec
