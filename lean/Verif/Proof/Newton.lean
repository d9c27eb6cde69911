import Verif.Model.Newton
import Verif.Spec.Newton
import Verif.Props.C07
import Verif.Proof.Dispatch
import Verif.Proof.Fake

/-! # The Newton iteration -/

namespace Phil.Newton
open Torch Torch.Tensor Spec Finset

variable {α : Type} [CommRing α]

section
variable (f : (Nat → α) → (Nat → α) → Nat → α) (J : (Nat → α) → (Nat → α) → Nat → Nat → α) (D : Nat)

/-- One Newton step on a sequence whose first entry is the state before `x[i]`. -/
def newSeq (i : Nat) (x : Nat → Nat → α) (y : Nat → Nat → α) (t d : Nat) : α :=
  y (t + 1) d + vecRec D (fun s => J (y (s + 1)) (x (s + 1 + i))) (fun d => f (y 0) (x i) d - y 1 d)
    (fun s d => f (y (s + 1)) (x (s + 1 + i)) d - y (s + 2) d) t d

/-- The sequence after `i` steps. -/
def seqs (x : Nat → Nat → α) (y : Nat → Nat → α) : Nat → Nat → Nat → α
  | 0 => y
  | i + 1 => newSeq f J D i x (seqs x y i)

theorem newSeq_zero (i : Nat) (x y : Nat → Nat → α) : newSeq f J D i x y 0 = f (y 0) (x i) := by
  funext d
  simp [newSeq, vecRec]

/-- The guess, preceded by the initial state. -/
def withInit (init : Nat → α) (y0 : Nat → Nat → α) (t : Nat) : Nat → α := if t < 1 then init else y0 (t - 1)

theorem seqs_first (init : Nat → α) (x y0 : Nat → Nat → α) :
    ∀ i, seqs f J D x (withInit init y0) (i + 1) 0 = iterate f init x i
  | 0 => newSeq_zero f J D 0 x _
  | i + 1 => by
    rw [seqs, newSeq_zero, seqs_first init x y0 i]; rfl

/-- For a function that is affine in the state one step gives the exact sequence. -/
theorem newSeq_affine (hJ : ∀ y y' x d, f y' x d = f y x d + ∑ j ∈ range D, J y x d j * (y' j - y j)) (i : Nat) (x y : Nat → Nat → α) :
    ∀ t, newSeq f J D i x y (t + 1) = f (newSeq f J D i x y t) (x (t + 1 + i)) := by
  intro t
  funext d
  rw [hJ (y (t + 1)) (newSeq f J D i x y t)]
  simp only [newSeq, vecRec, add_sub_cancel_left]
  ring

theorem seqs_affine (hJ : ∀ y y' x d, f y' x d = f y x d + ∑ j ∈ range D, J y x d j * (y' j - y j)) (init : Nat → α)
    (x y0 : Nat → Nat → α) (i : Nat) : ∀ t, seqs f J D x (withInit init y0) (i + 1) t = iterate f init x (i + t)
  | 0 => seqs_first f J D init x y0 i
  | t + 1 => by
    rw [seqs, newSeq_affine f J D hJ]
    have := seqs_affine hJ init x y0 i t
    rw [seqs] at this
    rw [this, show i + (t + 1) = i + t + 1 by omega, iterate, show t + 1 + i = i + t + 1 by omega]

theorem vecRec_null (A : Nat → Nat → Nat → α) : ∀ t d, vecRec D A (fun _ => 0) (fun _ _ => 0) t d = 0
  | 0, _ => rfl
  | t + 1, d => by
    rw [vecRec]
    simp only [vecRec_null A t, mul_zero, sum_const_zero, add_zero]

/-- An exact sequence stays exact. -/
theorem seqs_exact (init : Nat → α) (x : Nat → Nat → α) :
    ∀ i t, seqs f J D x (withInit init (iterate f init x)) (i + 1) t = iterate f init x (i + t) := by
  have key : ∀ i (y : Nat → Nat → α), (∀ t, f (y t) (x (t + i)) = y (t + 1)) → ∀ t, newSeq f J D i x y t = y (t + 1) := by
    intro i y h t
    funext d
    have e0 : (fun d => f (y 0) (x i) d - y 1 d) = fun _ => 0 := by
      funext d
      have := h 0
      rw [Nat.zero_add] at this
      rw [this, sub_self]
    have e1 : (fun s d => f (y (s + 1)) (x (s + 1 + i)) d - y (s + 2) d) = fun _ _ => 0 := by
      funext s d
      rw [h (s + 1), sub_self]
    rw [newSeq, e0, e1, vecRec_null, add_zero]
  intro i
  induction i with
  | zero =>
    intro t
    rw [seqs, seqs, key 0 _ fun t => ?_]
    · simp [withInit]
    · cases t with
      | zero => rfl
      | succ t => simp [withInit, iterate]
  | succ i ih =>
    intro t
    rw [seqs, key (i + 1) _ fun t => ?_, ih, show i + (t + 1) = i + 1 + t by omega]
    rw [ih, ih, show i + (t + 1) = i + t + 1 by omega, iterate, show t + (i + 1) = i + t + 1 by omega]

end

/-! ## The code -/

/-- What runs the linear recurrence: states of dimension `D` and sequences of at most `L` matrices. -/
def Runs (D L : Nat) (B : Nat) (run : Op α) : Prop :=
  ∀ (N : Nat) (A : Nat → Nat → Nat → Nat → α) (zi : Nat → Nat → α) (x : Nat → Nat → Nat → α), 0 < N → N ≤ L →
    run (t4 B N D D A) (t2 B D zi) (t3 B N D x) = .ok (t3 B N D fun b t => vecRec D (A b) (zi b) (x b) (t + 1))

theorem step_eq {B L D N : Nat} {func fprime : Tensor α → Tensor α → Res (Tensor α)} {f : (Nat → α) → (Nat → α) → Nat → α}
    {J : (Nat → α) → (Nat → α) → Nat → Nat → α} (hf : IsPointwise D N func f) (hJ : IsPointwiseMat D N fprime J) {run : Op α}
    (hr : Runs D (L - 1) B run) (x : Nat → Nat → Nat → α) {i K : Nat} (hK : i + (K + 2) = L) (y : Nat → Nat → Nat → α) :
    step func fprime run (t3 B L N x) i (t3 B (K + 3) D y) =
      .ok (t3 B 1 D fun b _ => newSeq f J D i (x b) (y b) 0, t3 B (K + 2) D fun b => newSeq f J D i (x b) (y b)) := by
  unfold step
  have s1 : slice (t3 B (K + 3) D y) 1 none (some (-1)) = .ok (t3 B (K + 2) D y) := by
    rw [slice_t3_1, pyStart_none, pyStop_neg1]; rfl
  have s2 : slice (t3 B L N x) 1 (some (i : Int)) none = .ok (t3 B (K + 2) N fun b t => x b (t + i)) := by
    rw [slice_t3_1, pyStart_nat, pyStop_none, Nat.min_eq_left (by omega), show L - i = K + 2 by omega]
  have s3 : slice (t3 B (K + 3) D y) 1 (some 1) none = .ok (t3 B (K + 2) D fun b t => y b (t + 1)) := by
    rw [slice_t3_1, pyStart_one, pyStop_none, Nat.min_eq_left (by omega)]; rfl
  have s4 : slice (t3 B (K + 3) D y) 1 (some 1) (some (-1)) = .ok (t3 B (K + 1) D fun b t => y b (t + 1)) := by
    rw [slice_t3_1, pyStart_one, pyStop_neg1, Nat.min_eq_left (by omega)]; rfl
  have s5 : slice (t3 B L N x) 1 (some ((i + 1 : Nat) : Int)) none = .ok (t3 B (K + 1) N fun b t => x b (t + (i + 1))) := by
    rw [slice_t3_1, pyStart_nat, pyStop_none, Nat.min_eq_left (by omega), show L - (i + 1) = K + 1 by omega]
  have s6 : ∀ g : Nat → Nat → Nat → α, slice (t3 B (K + 2) D g) 1 (some 1) none = .ok (t3 B (K + 1) D fun b t => g b (t + 1)) := by
    intro g
    rw [slice_t3_1, pyStart_one, pyStop_none, Nat.min_eq_left (by omega)]; rfl
  have s7 : ∀ g : Nat → Nat → Nat → α, slice (t3 B (K + 2) D g) 1 none (some 1) = .ok (t3 B 1 D g) := by
    intro g
    rw [slice_t3_1, pyStart_none, pyStop_one, Nat.min_eq_left (by omega)]; rfl
  have s8 : slice (t3 B (K + 3) D y) 1 (some ((2 : Nat) : Int)) none = .ok (t3 B (K + 1) D fun b t => y b (t + 2)) := by
    rw [slice_t3_1, pyStart_nat, pyStop_none, Nat.min_eq_left (by omega)]; rfl
  refine bind_step s1 (bind_step s2 (bind_step (hf _ _ _ _) (bind_step s3 ?_)))
  refine bind_step (zipWith_nmp_nmp _ _ _ _ _ _) ?_
  refine bind_step s4 (bind_step s5 (bind_step (hJ _ _ _ _) ?_))
  refine bind_step (select_t3_1_0 _ _ _ _ (by omega)) (bind_step (s6 _) ?_)
  refine bind_step (hr _ _ _ _ (by omega) (by omega)) ?_
  refine bind_step (s7 _) (bind_step s8 (bind_step (zipWith_nmp_nmp _ _ _ _ _ _) ?_))
  refine bind_step (cat2_t3_1 _ _ _ _ _ _) ?_
  refine congrArg Except.ok (congrArg₂ Prod.mk ?_ ?_)
  · refine t3_congr rfl rfl rfl fun b t d hb ht hd => ?_
    have ht' : t = 0 := by have : t < 1 := ht; omega
    subst ht'
    rw [newSeq_zero, Nat.zero_add]
  · refine t3_congr rfl (by omega) rfl fun b t d hb ht hd => ?_
    cases t with
    | zero =>
      rw [if_pos (by omega), newSeq_zero, Nat.zero_add]
    | succ t =>
      rw [if_neg (by omega), newSeq, Nat.add_sub_cancel]
      simp only [Nat.zero_add]
      congr 1
      refine vecRec_congr (fun _ _ => rfl) (fun s hs k l hk hl => ?_) (fun s hs k hk => rfl) hd
      rw [show s + (i + 1) = s + 1 + i by omega]

/-- `torch.cat(computed + [rest], dim=1)`. -/
theorem cat_computed (B D k m : Nat) (hk : 1 ≤ k) (g h : Nat → Nat → Nat → α) :
    cat ((List.range k).map (fun j => t3 B 1 D fun b _ d => g j b d) ++ [t3 B m D h]) 1 =
      .ok (t3 B (k + m) D fun b t d => if t < k then g t b d else h b (t - k) d) := by
  have e : (List.range k).map (fun j => t3 B 1 D fun b _ d => g j b d) ++ [t3 B m D h] =
      (List.range (k + 1)).map fun j => if j < k then t3 B 1 D fun b _ d => g j b d else t3 B m D h := by
    rw [List.range_succ, List.map_append, List.map_cons, List.map_nil, if_neg (lt_irrefl k)]
    congr 1
    refine List.map_congr_left fun j hj => ?_
    rw [if_pos (List.mem_range.mp hj)]
  rw [e]
  refine (cat_range 1 (fun j => if j < k then t3 B (j + 1) D fun b t d => g t b d
    else t3 B (k + m) D fun b t d => if t < k then g t b d else h b (t - k) d) _ k ?_ fun t ht => ?_).trans ?_
  · rw [if_pos (by omega), if_pos (by omega)]
    refine t3_congr rfl rfl rfl fun b t d hb ht hd => ?_
    have ht' : t = 0 := by have : t < 1 := ht; omega
    rw [ht']
  · rw [if_pos ht]
    by_cases h1 : t + 1 < k
    · rw [if_pos h1, if_pos h1, cat2_t3_1]
      refine congrArg Except.ok (t3_congr rfl rfl rfl fun b s d hb hs hd => ?_)
      have hs' : s < t + 1 + 1 := hs
      split
      · rfl
      · rw [show s = t + 1 by omega]
    · rw [if_neg h1, if_neg h1, cat2_t3_1, show t + 1 = k by omega]
  · rw [if_neg (lt_irrefl k)]

section
variable {B L D N : Nat} {func fprime : Tensor α → Tensor α → Res (Tensor α)} {f : (Nat → α) → (Nat → α) → Nat → α}
  {J : (Nat → α) → (Nat → α) → Nat → Nat → α}

/-- The result after `k` iterations. -/
def result (f : (Nat → α) → (Nat → α) → Nat → α) (J : (Nat → α) → (Nat → α) → Nat → Nat → α) (B L D k : Nat) (x y : Nat → Nat → Nat → α) :
    Tensor α :=
  t3 B L D fun b t d => if t < k then seqs f J D (x b) (y b) (t + 1) 0 d else seqs f J D (x b) (y b) k (t - k + 1) d

/-- The `j`-th intermediate result. -/
def middle (f : (Nat → α) → (Nat → α) → Nat → α) (J : (Nat → α) → (Nat → α) → Nat → Nat → α) (B D j : Nat) (x y : Nat → Nat → Nat → α) :
    Tensor α :=
  t3 B (j + 2) D fun b t d => if t < j + 1 then seqs f J D (x b) (y b) (t + 1) 0 d else seqs f J D (x b) (y b) (j + 1) (t - (j + 1)) d

theorem loop_eq (hf : IsPointwise D N func f) (hJ : IsPointwiseMat D N fprime J) {run : Op α} (hr : Runs D (L - 1) B run)
    (close : Tensor α → Tensor α → Bool) (x y : Nat → Nat → Nat → α) :
    ∀ n i, i + (n + 1) < L → ∀ inter : List (Tensor α), ∃ k q, i < k ∧ k ≤ i + (n + 1) ∧
      loop func fprime run close (t3 B L N x) (n + 1) i (t3 B (L - i + 1) D fun b => seqs f J D (x b) (y b) i)
        ((List.range i).map fun j => t3 B 1 D fun b _ d => seqs f J D (x b) (y b) (j + 1) 0 d) inter =
        .ok (result f J B L D k x y, k, inter ++ (List.range' i q).map fun j => middle f J B D j x y)
  | n, i, hn, inter => by
    obtain ⟨K, hK⟩ : ∃ K, i + (K + 2) = L := ⟨L - i - 2, by omega⟩
    have hlen : L - i + 1 = K + 3 := by omega
    have hst := step_eq hf hJ hr x hK fun b => seqs f J D (x b) (y b) i
    have hcomp : (List.range i).map (fun j => t3 B 1 D fun b _ d => seqs f J D (x b) (y b) (j + 1) 0 d) ++
        [t3 B 1 D fun b _ => newSeq f J D i (x b) (seqs f J D (x b) (y b) i) 0] =
        (List.range (i + 1)).map fun j => t3 B 1 D fun b _ d => seqs f J D (x b) (y b) (j + 1) 0 d := by
      rw [List.range_succ, List.map_append]; rfl
    have s6 : ∀ g : Nat → Nat → Nat → α, slice (t3 B (K + 2) D g) 1 (some 1) none = .ok (t3 B (K + 1) D fun b t => g b (t + 1)) := by
      intro g
      rw [slice_t3_1, pyStart_one, pyStop_none, Nat.min_eq_left (by omega)]; rfl
    have s7 : ∀ g : Nat → Nat → Nat → α, slice (t3 B (K + 2) D g) 1 none (some 1) = .ok (t3 B 1 D g) := by
      intro g
      rw [slice_t3_1, pyStart_none, pyStop_one, Nat.min_eq_left (by omega)]; rfl
    have s3 : ∀ g : Nat → Nat → Nat → α, slice (t3 B (K + 3) D g) 1 (some 1) none = .ok (t3 B (K + 2) D fun b t => g b (t + 1)) := by
      intro g
      rw [slice_t3_1, pyStart_one, pyStop_none, Nat.min_eq_left (by omega)]; rfl
    have fin : (cat ((List.range (i + 1)).map (fun j => t3 B 1 D fun b _ d => seqs f J D (x b) (y b) (j + 1) 0 d) ++
        [t3 B (K + 1) D fun b t => newSeq f J D i (x b) (seqs f J D (x b) (y b) i) (t + 1)]) 1 : Res (Tensor α)) =
        .ok (result f J B L D (i + 1) x y) := by
      rw [cat_computed _ _ _ _ (by omega), show i + 1 + (K + 1) = L by omega]
      rfl
    have mid : (cat ((List.range (i + 1)).map (fun j => t3 B 1 D fun b _ d => seqs f J D (x b) (y b) (j + 1) 0 d) ++
        [t3 B 1 D fun b => newSeq f J D i (x b) (seqs f J D (x b) (y b) i)]) 1 : Res (Tensor α)) =
        .ok (middle f J B D i x y) := by
      rw [cat_computed _ _ _ _ (by omega)]
      rfl
    rw [loop, hlen, hst, ok_bind]
    simp only [hcomp]
    rw [s3, ok_bind]
    split
    · refine ⟨i + 1, 0, by omega, by omega, ?_⟩
      refine bind_step (s6 _) (bind_step fin ?_)
      rw [List.range'_zero, List.map_nil, List.append_nil]; rfl
    · rw [s7, ok_bind, mid, ok_bind]
      cases n with
      | zero =>
        rw [if_pos rfl]
        refine ⟨i + 1, 1, by omega, by omega, ?_⟩
        exact bind_step (s6 _) (bind_step fin rfl)
      | succ n =>
        rw [if_neg (by omega)]
        obtain ⟨k, q, h1, h2, h3⟩ := loop_eq hf hJ hr close x y n (i + 1) (by omega) (inter ++ [middle f J B D i x y])
        rw [show L - (i + 1) + 1 = K + 2 by omega] at h3
        refine ⟨k, q + 1, by omega, by omega, ?_⟩
        refine h3.trans ?_
        rw [List.range'_succ, List.map_cons, List.append_assoc, List.singleton_append]

theorem runner_ok {e : Env α} (hc : Correct e) (hi : LpvInstall e D) {u : Option Int} (hu : u = none → e.lpvUseExt D) (hB : 0 < B)
    (hD : 0 < D) (h1 : 1 ≤ u.getD 1) (hP : u.getD 1 ≤ 2 ∨ ((L - 1 : Nat) : Int) ≤ u.getD 1 ∨ ((u.getD 1).toNat - 1).Prime) :
    Runs D (L - 1) B (runner e D u) := by
  intro M A zi x hM hML
  have key : ∀ v : Int, 1 ≤ v → (v ≤ 2 ∨ ((L - 1 : Nat) : Int) ≤ v ∨ (v.toNat - 1).Prime) →
      Lpv.recurRunner e D (t4 B M D D A) (t2 B D zi) (t3 B M D x) v none =
        .ok (t3 B M D fun b t => vecRec D (A b) (zi b) (x b) (t + 1)) := by
    intro v hv hv'
    have hg : v ≤ 2 ∨ (M : Int) ≤ v ∨ (v.toNat - 1).Prime := by
      rcases hv' with h | h | h
      · exact Or.inl h
      · exact Or.inr (Or.inl (by omega))
      · exact Or.inr (Or.inr h)
    rw [Lpv.recurRunner_eq hc hi (.batched _) (.full _) zi v none trivial hD hM fun _ => hB]
    exact Props.C07_state_space_recursion_partial (.batched _) (.full _) zi v hB hD hM hv hg
  unfold runner
  split
  · rename_i h
    have := key 1 (by omega) (Or.inl (by omega))
    rw [Lpv.recurRunner, if_pos ⟨h.1, rfl⟩] at this
    exact this
  · rename_i h
    cases u with
    | none => exact absurd ⟨hu rfl, Or.inl rfl⟩ h
    | some v =>
      have := key v h1 hP
      rw [Lpv.recurRunner, if_neg fun h' => h ⟨h'.1, Or.inr (by rw [h'.2])⟩] at this
      exact this

theorem newtonSolve_eq {e : Env α} (hf : IsPointwise D N func f) (hJ : IsPointwiseMat D N fprime J)
    {u : Option Int} (hr : Runs D (L - 1) B (runner e D u)) (close : Tensor α → Tensor α → Bool) (x y0 : Nat → Nat → Nat → α)
    (init : Nat → Nat → α) {maxIter : Nat} (h1 : 1 ≤ maxIter) (h2 : maxIter < L) :
    ∃ k q, 1 ≤ k ∧ k ≤ maxIter ∧
      newtonSolve e func fprime close (t3 B L N x) (t3 B L D y0) (t2 B D init) maxIter u =
        .ok (result f J B L D k x (fun b => withInit (init b) (y0 b)), k,
          (List.range q).map fun j => middle f J B D j x (fun b => withInit (init b) (y0 b))) := by
  obtain ⟨n, rfl⟩ : ∃ n, maxIter = n + 1 := ⟨maxIter - 1, by omega⟩
  obtain ⟨k, q, hk1, hk2, h⟩ := loop_eq (B := B) hf hJ hr close x (fun b => withInit (init b) (y0 b)) n 0 (by omega) []
  refine ⟨k, q, by omega, by omega, ?_⟩
  unfold newtonSolve
  refine check_step (by rw [size_t3_1]; omega) ?_
  refine bind_step (unsqueeze_t2_1 _ _ _) (bind_step (cat2_t3_1 _ _ _ _ _ _) ?_)
  rw [size_t2_n1]
  have e : (t3 B (1 + L) D fun i j k => if j < 1 then init i k else y0 i (j - 1) k) =
      t3 B (L - 0 + 1) D fun b => seqs f J D (x b) (withInit (init b) (y0 b)) 0 := by
    refine t3_congr rfl (by omega) rfl fun b t d _ _ _ => ?_
    rw [seqs, withInit]
    split <;> rfl
  rw [e]
  refine h.trans ?_
  rw [List.nil_append, List.range_eq_range']

/-- Without the test the loop does all iterations. -/
theorem loop_no_stop {run : Op α} {x : Tensor α} : ∀ n i y computed inter r,
    loop func fprime run (fun _ _ => false) x (n + 1) i y computed inter = .ok r → r.2.1 = i + (n + 1)
  | n, i, y, computed, inter, r, h => by
    rw [loop] at h
    obtain ⟨p, -, h⟩ := Phil.Fake.bind_inv h
    obtain ⟨y1, -, h⟩ := Phil.Fake.bind_inv h
    simp only [Bool.false_eq_true, if_false] at h
    obtain ⟨a, -, h⟩ := Phil.Fake.bind_inv h
    obtain ⟨m, -, h⟩ := Phil.Fake.bind_inv h
    cases n with
    | zero =>
      rw [if_pos rfl] at h
      obtain ⟨a, -, h⟩ := Phil.Fake.bind_inv h
      obtain ⟨m, -, h⟩ := Phil.Fake.bind_inv h
      cases h; rfl
    | succ n =>
      rw [if_neg (by omega)] at h
      rw [loop_no_stop n (i + 1) _ _ _ r h]
      omega

theorem newtonSolve_no_stop {e : Env α} {u : Option Int} {x y0 init : Tensor α} {n : Nat} {r : Tensor α × Nat × List (Tensor α)}
    (h : newtonSolve e func fprime (fun _ _ => false) x y0 init (n + 1) u = .ok r) : r.2.1 = n + 1 := by
  unfold newtonSolve at h
  obtain ⟨_, -, h⟩ := Phil.Fake.bind_inv h
  obtain ⟨_, -, h⟩ := Phil.Fake.bind_inv h
  obtain ⟨_, -, h⟩ := Phil.Fake.bind_inv h
  rw [loop_no_stop n 0 _ _ _ r h]
  omega

end
end Phil.Newton
