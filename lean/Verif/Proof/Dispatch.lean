import Verif.Spec.Backends
import Verif.Proof.StateSpace
import Verif.Proof.LtiSsm
import Verif.Proof.LpvSsmAny
import Verif.Proof.ScanOps
import Verif.Proof.TvFilter

/-!
# The accelerated recursions equal the plain ones
-/

namespace Phil
open Torch Torch.Tensor Spec

variable {α : Type} [CommRing α]

namespace Env
variable {e : Env α}

theorem both_eq {op : Op α} (h : e.ext) (hc : e.cuda → e.extCuda) (A zi x : Tensor α) : e.both op A zi x = op A zi x := by
  rw [both, if_neg (by simp [h]), if_neg (by rintro ⟨h1, h2⟩; exact h2 (hc h1))]

theorem cpuOnly_eq {op : Op α} (h : e.ext) (hc : e.cuda = false) (A zi x : Tensor α) : e.cpuOnly op A zi x = op A zi x := by
  rw [cpuOnly, if_neg (by simp [h]), if_neg (by simp [hc])]

theorem useHelion_iff : e.useHelion = true ↔ HelionRuns e := by simp [useHelion, HelionRuns, and_assoc]
theorem usePararnn_iff (M : Nat) : e.usePararnn M = true ↔ PararnnRuns e M := by simp [usePararnn, PararnnRuns, and_assoc]
theorem ltiUseExt_iff (M : Nat) : e.ltiUseExt M = true ↔ e.ext ∧ (M = 2 ∨ (e.cuda = false ∧ 2 ≤ M)) := by simp [ltiUseExt]
theorem lpvUseExt_iff (M : Nat) : e.lpvUseExt M = true ↔ (e.ext ∧ (e.cuda = false ∨ M ≤ 2)) ∨ PararnnRuns e M := by
  rw [lpvUseExt, Bool.or_eq_true, usePararnn_iff]; simp

end Env

namespace Lti

theorem pick_OT (o : Option Int) {B N M : Nat} (ho : OV M o) (y : Nat → Nat → Nat → α) :
    (if o ≠ none ∧ (t3 B N M y).rank = 3 then pick o 2 (t3 B N M y) else pure (t3 B N M y)) = .ok (OT o B N M y) := by
  cases o with
  | none => rw [if_neg (by simp)]; rfl
  | some i => rw [if_pos ⟨by simp, by simp⟩, pick, select_t3_2_idx _ _ _ _ _ ho]; rfl

theorem MT_vals (s : Bool) {B M : Nat} (A : Nat → Nat → Nat → α) : MatVals B M M (MT s B M M A) fun b => A (sel s b) := by
  cases s
  · exact MatVals.shared (A 0)
  · exact MatVals.batched A

/-- The installed operators suffice for `_ext_ss_recur` with states of dimension `M`. -/
def ExtReady (e : Env α) (M : Nat) : Prop :=
  (M ≤ 2 → e.ext ∧ (e.cuda → e.extCuda)) ∧ (2 < M → HelionRuns e ∨ (e.ext ∧ e.cuda = false))

theorem extSsRecur_ok {e : Env α} (hc : Correct e) {M : Nat} (hr : ExtReady e M) : BaseOk M (extSsRecur e) := by
  intro s d B N A zi x o ho hM hN
  unfold extSsRecur
  have he : e.ext ∨ e.helion := by
    rcases Nat.lt_or_ge 2 M with h | h
    · rcases hr.2 h with h | h
      · exact Or.inr h.1
      · exact Or.inl h.1
    · exact Or.inl (hr.1 h).1
  refine check_step he ?_
  rw [size_MT_n1]
  refine bind_step (v := t3 B N M fun b t m => vecRec M (fun _ => fm (A (sel s b))) (zi b) (xe d (x b)) (t + 1) m) ?_ (pick_OT o ho _)
  by_cases h1 : M = 1
  · subst h1
    obtain ⟨hx1, hx2⟩ := hr.1 (by omega)
    rw [if_pos rfl]
    have hA : ∃ a0 a, select (MT s B 1 1 fun b => fm (A b)) (-1) 0 = .ok a0 ∧ select a0 (-1) 0 = .ok a ∧
        BatchVals B a fun b => fm (A (sel s b)) 0 0 := by
      cases s
      · exact ⟨_, _, select_t2_n1_0 _ _ _ (by omega), select_t1_n1_0 _ _ (by omega), BatchVals.scalar _⟩
      · exact ⟨_, _, select_t3_n1_0 _ _ _ _ (by omega), select_t2_n1_0 _ _ _ (by omega), BatchVals.full _⟩
    obtain ⟨a0, a, ha0, ha, hv⟩ := hA
    refine bind_step ha0 (bind_step ha (bind_step (squeeze_t2_n1 _ _) ?_))
    refine bind_step (v := t2 B N fun b t => x b t 0) ?_ ?_
    · cases d
      · rfl
      · exact squeeze_t3_n1 _ _ _
    refine bind_step (v := t2 B N fun b n => scalarRec (fun _ => fm (A (sel s b)) 0 0) (zi b 0) (fun t => x b t 0) (n + 1)) ?_ ?_
    · rw [ltiRecurrence, Env.both_eq hx1 hx2]
      exact hc.ltiRecur hx1 B N a _ _ _ hv
    rw [unsqueeze_t2_n1]
    refine congrArg Except.ok (t3_congr rfl rfl rfl fun b n i _ _ hi => ?_)
    obtain rfl : i = 0 := by omega
    rw [← Cuda.vecRec_one]
    refine vecRec_congr (fun i hi => ?_) (fun _ _ i k hi hk => ?_) (fun t _ i hi => ?_) (by omega)
    · rw [show i = 0 by omega]
    · rw [show i = 0 by omega, show k = 0 by omega]
    · rw [show i = 0 by omega]; cases d <;> rfl
  · rw [if_neg h1]
    refine bind_step (input3 d B N M hM x) ?_
    rw [ltiMatrixRecurrence, show (t3 B N M fun b => xe d (x b)).size (-1) = M from rfl]
    split
    · rename_i h2
      subst h2
      obtain ⟨hx1, hx2⟩ := hr.1 (by omega)
      rw [Env.both_eq hx1 hx2]
      exact hc.ltiRecur2 hx1 B N _ _ zi _ (MT_vals s _)
    · rename_i h2
      have h3 := hr.2 (by omega)
      split
      · rename_i hh
        exact hc.hlLtiRecurN (Env.useHelion_iff.1 hh).1 M B N _ _ zi _ (MT_vals s _)
      · rename_i hh
        obtain ⟨hx1, hx2⟩ := h3.resolve_left (fun h => hh (Env.useHelion_iff.2 h))
        rw [Env.cpuOnly_eq hx1 hx2]
        exact hc.ltiRecurN hx1 hx2 M B N _ _ zi _ (MT_vals s _)

theorem bind_congr_ok {β γ : Type} {r : Res β} {f g : β → Res γ} (h : ∀ v, r = .ok v → f v = g v) : (r >>= f) = (r >>= g) := by
  cases r with
  | error e => rfl
  | ok v => exact h v rfl

/-- What the selected recursion computes. -/
theorem runner_layout {runner : Tensor α → Tensor α → Tensor α → Option Int → Res (Tensor α)} {B N M : Nat}
    (hr : BaseOk M runner) {A x : Tensor α} {Av xv : Nat → Nat → Nat → α} (hA : MatVals B M M A Av)
    (hx : Drive B N M x xv) (zi : Nat → Nat → α) (o : Option Int) (ho : OV M o) (hM : 0 < M) (hN : 0 < N) :
    runner A (t2 B M zi) x o = .ok (OT o B N M fun b t m => vecRec M (fun _ => Av b) (zi b) (xv b) (t + 1) m) := by
  obtain ⟨s, rfl, hs⟩ := layout_MT hA
  obtain ⟨d, x', rfl, hd⟩ := layout_XT hx
  rw [hr s d (fun b => mat M M (Av b)) zi x' o ho hM hN]
  refine congrArg Except.ok (OT_congr ho rfl rfl fun b t m _ _ hm => ?_)
  rw [hd, hs]
  exact vecRec_congr (fun _ _ => rfl) (fun _ _ i k hi hk => fm_mat _ hi hk) (fun _ _ _ _ => rfl) hm

theorem base_ok (e : Env α) (hc : Correct e) {M : Nat} (hi : LtiInstall e M) :
    BaseOk M (if e.useHelion then extSsRecur e else recursionLoop) := by
  split
  · rename_i h
    rw [Env.useHelion_iff] at h
    refine extSsRecur_ok hc ⟨fun hM => ⟨hi.2 h hM, hi.1 (hi.2 h hM)⟩, fun _ => Or.inl h⟩
  · exact fun s d => recursionLoop_eq s d

theorem aux_bad_unroll {base base' : Tensor α → Tensor α → Tensor α → Option Int → Res (Tensor α)} {u : Int} (hu : u < 1) (fuel : Nat)
    (A zi x : Tensor α) (o : Option Int) :
    stateSpaceRecursionAux base u (fuel + 1) A zi x o = stateSpaceRecursionAux base' u (fuel + 1) A zi x o := by
  conv_lhs => rw [stateSpaceRecursionAux]
  conv_rhs => rw [stateSpaceRecursionAux]
  iterate 8 refine bind_congr_ok fun _ _ => ?_
  refine bind_congr_ok fun v hv => ?_
  rw [check_false (not_not.2 hu)] at hv
  exact absurd hv (by simp)

theorem stateSpaceRecursionOn_eq {e : Env α} (hc : Correct e) {B N M : Nat} (hi : LtiInstall e M) {A x : Tensor α}
    {Av xv : Nat → Nat → Nat → α} (hA : MatVals B M M A Av)
    (hx : Drive B N M x xv) (zi : Nat → Nat → α) (u : Int) (o : Option Int) (ho : OV M o) (hM : 0 < M) (hN : 0 < N) :
    stateSpaceRecursionOn e A (t2 B M zi) x u o = stateSpaceRecursion A (t2 B M zi) x u o := by
  by_cases hu : u < 1
  · exact aux_bad_unroll hu _ _ _ _ _
  lift u to ℕ using by omega
  rw [stateSpaceRecursion_layout hA hx zi _ o ho hM hN (by omega)]
  refine runner_layout (runner := fun A zi x o => stateSpaceRecursionOn e A zi x (u : Int) o) ?_ hA hx zi o ho hM hN
  intro s d B N A zi x o ho hM hN
  refine stateSpaceRecursionAux_eq (base_ok e hc hi) u (by omega) _ s d A zi x o ho hM hN ?_
  rw [size_XT_1]; omega

theorem recurRunner_eq {e : Env α} (hc : Correct e) {B N M : Nat} (hi : LtiInstall e M) {A x : Tensor α}
    {Av xv : Nat → Nat → Nat → α} (hA : MatVals B M M A Av)
    (hx : Drive B N M x xv) (zi : Nat → Nat → α) (u : Int) (o : Option Int) (ho : OV M o) (hM : 0 < M) (hN : 0 < N) :
    recurRunner e M A (t2 B M zi) x u o = stateSpaceRecursion A (t2 B M zi) x u o := by
  unfold recurRunner
  split
  · rename_i h
    obtain ⟨h1, rfl⟩ := h
    rw [Env.ltiUseExt_iff] at h1
    rw [stateSpaceRecursion_layout hA hx zi _ o ho hM hN (by omega)]
    refine runner_layout (extSsRecur_ok hc ⟨fun h => ⟨h1.1, hi.1 h1.1⟩, fun h => Or.inr ⟨h1.1, ?_⟩⟩) hA hx zi o ho hM hN
    rcases h1.2 with h2 | h2
    · omega
    · exact h2.1
  · exact stateSpaceRecursionOn_eq hc hi hA hx zi u o ho hM hN

theorem shiftedStates_congr {r r' : Tensor α → Tensor α → Tensor α → Int → Option Int → Res (Tensor α)} {A zi Bx : Tensor α} {u : Int}
    {out : Option Int} (rz : Bool) (h : r A zi Bx u none = r' A zi Bx u none) (h' : r A zi Bx u out = r' A zi Bx u out) :
    shiftedStates r A zi Bx u out rz = shiftedStates r' A zi Bx u out rz := by
  unfold shiftedStates
  cases out with
  | none => simp only [h]
  | some i => simp only [h, h']

theorem stateSpaceWith_congr [StarRing α] {r r' : Tensor α → Tensor α → Tensor α → Int → Option Int → Res (Tensor α)} {B N M : Nat}
    {A x : Tensor α} {Bm C D zi : Option (Tensor α)} {Av v : Nat → Nat → Nat → α}
    {z : Nat → Nat → α} {u out : Option Int} (hA : MatVals B M M A Av)
    (hB : LtiInput B N M Bm x v) (hz : InitState B M zi z)
    (h : ∀ Bx o, Drive B N M Bx v → o = none ∨ o = out →
      r A (t2 B M z) Bx (u.getD (roundSqrt N)) o = r' A (t2 B M z) Bx (u.getD (roundSqrt N)) o) :
    stateSpaceWith r A x Bm C D zi u out = stateSpaceWith r' A x Bm C D zi u out := by
  obtain ⟨hA1, hA2, hA3, hA4⟩ := size_MatVals hA
  obtain ⟨hx1, hx2, hx3⟩ := size_LtiInput hB
  obtain ⟨Bx, hBx, hin⟩ := inputTerm_eq hB
  unfold stateSpaceWith
  iterate 5 refine bind_congr_ok fun _ _ => ?_
  rw [hx2, hx3, hA3, initialState_eq hz, ok_bind, ok_bind]
  refine bind_congr_ok fun Bx' hv => ?_
  obtain rfl : Bx' = Bx := Except.ok.inj (hv.symm.trans hin)
  rw [shiftedStates_congr _ (h Bx' none hBx (Or.inl rfl)) (h Bx' out hBx (Or.inr rfl))]

end Lti

namespace Lpv
open Phil.Lti
open Phil.Lti (OT OV XT xe BaseOk pick_OT bind_congr_ok input3 size_XT_1 OT_congr layout_XT shiftedStates_congr initialState_eq)

theorem MT3_vals (s : Bool) {B N M : Nat} (A : Nat → Nat → Nat → Nat → α) : MatSeq B N M M (MT3 s B N M M A) fun b => A (sel s b) := by
  cases s
  · exact MatSeq.shared (A 0)
  · exact MatSeq.batched A

/-- The installed operators suffice for `_ext_ss_recur` with states of dimension `M`. -/
def ExtReady (e : Env α) (M : Nat) : Prop :=
  (e.ext ∨ e.helion) ∧ (M = 2 → PararnnRuns e M ∨ (e.ext ∧ (e.cuda → e.extCuda))) ∧
    (2 < M → PararnnRuns e M ∨ HelionRuns e ∨ (e.ext ∧ e.cuda = false))

/-- A recurrence whose initial state is its first input. -/
theorem vecRec_front {M : Nat} (A A' : Nat → Nat → Nat → α) (z : Nat → α) (x x' : Nat → Nat → α) {T : Nat}
    (hA : ∀ t i k, t < T → i < M → k < M → A' (t + 1) i k = A t i k) (hz : ∀ i, i < M → x' 0 i = z i)
    (hx : ∀ t i, t < T → i < M → x' (t + 1) i = x t i) {t : Nat} (ht : t ≤ T) {i : Nat} (hi : i < M) :
    vecRec M A' (fun _ => 0) x' (t + 1) i = vecRec M A z x t i := by
  induction t generalizing i with
  | zero => simp [vecRec, hz i hi]
  | succ t ih =>
    rw [show vecRec M A z x (t + 1) i = ∑ k ∈ Finset.range M, A t i k * vecRec M A z x t k + x t i from rfl, ← hx t i (by omega) hi]
    refine congrArg (· + x' (t + 1) i) (Finset.sum_congr rfl fun k hk => ?_)
    have hk := Finset.mem_range.1 hk
    rw [hA t i k (by omega) hi hk, ih (by omega) hk]

theorem pararnn_eq {M : Nat} {op : Tensor α → Tensor α → Res (Tensor α)} (hop : IsBlockReduce M op) (s : Bool) {B N : Nat}
    (A : Nat → Nat → Nat → Nat → α) (zi : Nat → Nat → α) (x : Nat → Nat → Nat → α) :
    ((if (MT3 s B N M M A).rank = 3 then (do let A1 ← unsqueeze (MT3 s B N M M A) 0; repeat0 A1 B) else pure (MT3 s B N M M A)) >>=
      fun A => padDim (neg A) (-3) 1 0 0 >>= fun jac => unsqueeze (t2 B M zi) 1 >>= fun z1 => cat2 z1 (t3 B N M x) 1 >>= fun rhs =>
      op jac rhs >>= fun y => slice y 1 (some 1) none) =
      .ok (t3 B N M fun b n i => vecRec M (A (sel s b)) (zi b) (x b) (n + 1) i) := by
  refine bind_step (v := t4 B N M M fun b => A (sel s b)) ?_ ?_
  · cases s
    · simp only [MT3]
      refine (if_pos (rank_t3 _ _ _ _)).trans ?_
      refine bind_step (unsqueeze_t3_0 _ _ _ _) ?_
      rw [repeat0_t4, Nat.mul_one]; rfl
    · rfl
  rw [neg, map_t4]
  refine bind_step (padDim_t4_n3_left B N M M 1 _ _) ?_
  refine bind_step (unsqueeze_t2_1 _ _ _) (bind_step (cat2_t3_1 _ _ _ _ _ _) ?_)
  rw [Nat.add_comm 1 N]
  refine bind_step (hop B (N + 1) _ _) ?_
  have e1 : pyStart (N + 1) (some 1) = 1 := by unfold pyStart pyBound; simp
  rw [slice_t3_1, e1, pyStop_none, Nat.add_sub_cancel]
  refine congrArg Except.ok (t3_congr rfl rfl rfl fun b n i _ hn hi => ?_)
  exact vecRec_front _ _ _ _ _ (T := N) (fun t i k _ _ _ => by simp) (fun i _ => by simp) (fun t i _ _ => by simp) (by omega) hi

theorem matrixRecurrence_eq {e : Env α} (hc : Correct e) {M : Nat} (hr : ExtReady e M) (h2 : 2 ≤ M) (s : Bool) {B N : Nat}
    (A : Nat → Nat → Nat → Nat → α) (zi : Nat → Nat → α) (x : Nat → Nat → Nat → α) :
    matrixRecurrence e (MT3 s B N M M A) (t2 B M zi) (t3 B N M x) =
      .ok (t3 B N M fun b n i => vecRec M (A (sel s b)) (zi b) (x b) (n + 1) i) := by
  rw [matrixRecurrence, show (t3 B N M x).size (-1) = M from rfl, show (t3 B N M x).size 0 = B from rfl]
  split
  · rename_i hp
    rw [Env.usePararnn_iff] at hp
    by_cases h3 : M = 3
    · simp only [if_pos h3]
      subst h3
      exact pararnn_eq (hc.reduce3 hp.1) s A zi x
    · simp only [if_neg h3]
      obtain rfl : M = 2 := hp.2.2.2.resolve_right h3
      exact pararnn_eq (hc.reduce2 hp.1) s A zi x
  · rename_i hp
    rw [Env.usePararnn_iff] at hp
    split
    · rename_i h3
      subst h3
      obtain ⟨hx1, hx2⟩ := (hr.2.1 rfl).resolve_left hp
      rw [Env.both_eq hx1 hx2]
      exact hc.recur2 hx1 B N _ _ zi _ (MT3_vals s _)
    · have h3 := (hr.2.2 (by omega)).resolve_left hp
      split
      · rename_i hh
        exact hc.hlRecurN (Env.useHelion_iff.1 hh).1 M B N _ _ zi _ (MT3_vals s _)
      · rename_i hh
        obtain ⟨hx1, hx2⟩ := h3.resolve_left (fun h => hh (Env.useHelion_iff.2 h))
        rw [Env.cpuOnly_eq hx1 hx2]
        exact hc.recurN hx1 hx2 M B N _ _ zi _ (MT3_vals s _)

/-- The all-pole recursion of order 1 is the scalar state recurrence. -/
theorem allPole_one {T : Nat} {a : Nat → Nat → α} {z x y : Nat → α} (h : AllPole T 1 a z x y) (A : Nat → Nat → Nat → α)
    (hA : ∀ t, t < T → A t 0 0 = -a t 0) (X : Nat → Nat → α) (hX : ∀ t, t < T → X t 0 = x t) {n : Nat} (hn : n < T) :
    vecRec 1 A z X (n + 1) 0 = y n := by
  induction n with
  | zero =>
    rw [h 0 hn, vecRec]
    simp [vecRec, withPast, hA 0 hn, hX 0 hn]
    ring
  | succ n ih =>
    rw [h (n + 1) hn, vecRec]
    simp only [Finset.range_one, Finset.sum_singleton]
    rw [ih (by omega), hA _ hn, hX _ hn, show (((n + 1 : Nat) : Int) - 1 - (0 : Nat)) = (n : Int) by push_cast; ring, withPast_nat]
    ring

theorem extSsRecur_ok {e : Env α} (hc : Correct e) {M : Nat} (hr : ExtReady e M) : LooperOk M (extSsRecur e) := by
  intro s d B N A zi x o ho hM hN
  unfold extSsRecur
  refine check_step hr.1 ?_
  rw [size_MT3_n1]
  refine bind_step (v := t3 B N M fun b t m => vecRec M (fun t => fm (A (sel s b) t)) (zi b) (xe d (x b)) (t + 1) m) ?_ (pick_OT o ho _)
  by_cases h1 : M = 1
  · subst h1
    rw [if_pos rfl]
    have hA : ∃ a0, select (MT3 s B N 1 1 fun b t => fm (A b t)) (-1) 0 = .ok a0 ∧
        expand a0 [some B, some N, some 1] = .ok (t3 B N 1 fun b t i => fm (A (sel s b) t) i 0) := by
      cases s
      · exact ⟨_, select_t3_n1_0 _ _ _ _ (by omega), expand_mp_nmp _ _ _ _⟩
      · exact ⟨_, select_t4_n1_0 _ _ _ _ _ (by omega), expand_nmp_nmp _ _ _ _⟩
    obtain ⟨a0, ha0, ha⟩ := hA
    refine bind_step ha0 (bind_step (v := t3 B N 1 fun b t i => fm (A (sel s b) t) i 0) ?_ ?_)
    · cases d <;> exact ha
    refine bind_step (v := t2 B N fun b t => x b t 0) ?_ ?_
    · cases d
      · rfl
      · exact squeeze_t3_n1 _ _ _
    rw [neg, map_t3]
    obtain ⟨y, zf, h, hy, -⟩ := hc.lpc B N 1 (fun b t => x b t 0) (fun b t i => -fm (A (sel s b) t) i 0) (some (t2 B 1 zi)) zi hN
      (by omega) (LpcState.given zi)
    refine bind_step h ?_
    rw [unsqueeze_t2_n1]
    refine congrArg Except.ok (t3_congr rfl rfl rfl fun b n i _ hn hi => ?_)
    obtain rfl : i = 0 := by omega
    refine (allPole_one (hy b) _ (fun t _ => (neg_neg _).symm) _ (fun t _ => ?_) hn).symm
    cases d <;> rfl
  · rw [if_neg h1]
    refine bind_step (input3 d B N M hM x) ?_
    exact matrixRecurrence_eq hc hr (by omega) s _ zi _

theorem runner_layout {runner : Tensor α → Tensor α → Tensor α → Option Int → Res (Tensor α)} {B N M : Nat}
    (hr : LooperOk M runner) {A x : Tensor α} {Av : Nat → Nat → Nat → Nat → α} {xv : Nat → Nat → Nat → α} (hA : MatSeq B N M M A Av)
    (hx : Drive B N M x xv) (zi : Nat → Nat → α) (o : Option Int) (ho : OV M o) (hM : 0 < M) (hN : 0 < N) :
    runner A (t2 B M zi) x o = .ok (OT o B N M fun b t m => vecRec M (Av b) (zi b) (xv b) (t + 1) m) := by
  obtain ⟨s, rfl, hs⟩ := layout_MT3 hA
  obtain ⟨d, x', rfl, hd⟩ := layout_XT hx
  rw [hr s d (fun b t => mat M M (Av b t)) zi x' o ho hM hN]
  refine congrArg Except.ok (OT_congr ho rfl rfl fun b t m _ _ hm => ?_)
  rw [hd, hs]
  exact vecRec_congr (fun _ _ => rfl) (fun _ _ i k hi hk => fm_mat _ hi hk) (fun _ _ _ _ => rfl) hm

theorem aux_bad_unroll {base base' : Tensor α → Tensor α → Tensor α → Option Int → Res (Tensor α)} {u : Int} (hu : u < 1) (fuel : Nat)
    (A zi x : Tensor α) (o : Option Int) :
    stateSpaceRecursionAux base u (fuel + 1) A zi x o = stateSpaceRecursionAux base' u (fuel + 1) A zi x o := by
  conv_lhs => rw [stateSpaceRecursionAux]
  conv_rhs => rw [stateSpaceRecursionAux]
  iterate 9 refine bind_congr_ok fun _ _ => ?_
  refine bind_congr_ok fun v hv => ?_
  rw [check_false (not_not.2 hu)] at hv
  exact absurd hv (by simp)

/-- The unroll factors for which the blocked recursion is right. -/
def GoodFactor (N : Nat) (u : Int) : Prop := u ≤ 2 ∨ (N : Int) ≤ u ∨ (u.toNat - 1).Prime

theorem extReady_helion {e : Env α} {M : Nat} (hi : LpvInstall e M) (h : HelionRuns e) : ExtReady e M := by
  refine ⟨Or.inr h.1, fun h2 => ?_, fun _ => Or.inr (Or.inl h)⟩
  rcases hi.2.2 h h2 with h3 | h3
  · exact Or.inr ⟨h3, hi.1 h3⟩
  · exact Or.inl ⟨h3, h.2.1, h.2.2, Or.inl h2⟩

theorem extReady_ext {e : Env α} {M : Nat} (hi : LpvInstall e M) (h : e.lpvUseExt M = true) : ExtReady e M := by
  rw [Env.lpvUseExt_iff] at h
  rcases h with ⟨h1, h2⟩ | h
  · refine ⟨Or.inl h1, fun _ => Or.inr ⟨h1, hi.1 h1⟩, fun hM => Or.inr (Or.inr ⟨h1, ?_⟩)⟩
    exact h2.resolve_right (by omega)
  · exact ⟨hi.2.1 h, fun _ => Or.inl h, fun _ => Or.inl h⟩

theorem stateSpaceRecursionOn_eq {e : Env α} (hc : Correct e) {B N M : Nat} (hi : LpvInstall e M) {A x : Tensor α}
    {Av : Nat → Nat → Nat → Nat → α} {xv : Nat → Nat → Nat → α} (hA : MatSeq B N M M A Av)
    (hx : Drive B N M x xv) (zi : Nat → Nat → α) (u : Int) (o : Option Int) (ho : OV M o) (hM : 0 < M) (hN : 0 < N)
    (hP : HelionRuns e → 0 < B) :
    stateSpaceRecursionOn e A (t2 B M zi) x u o = stateSpaceRecursion A (t2 B M zi) x u o := by
  by_cases hu : u < 1
  · exact aux_bad_unroll hu _ _ _ _ _
  unfold stateSpaceRecursionOn
  split
  · rename_i h
    rw [Env.useHelion_iff] at h
    have hB := hP h
    obtain ⟨s, rfl, hs⟩ := layout_MT3 hA
    obtain ⟨d, x', rfl, hd⟩ := layout_XT hx
    lift u to ℕ using by omega
    unfold stateSpaceRecursion
    rw [aux_any (extSsRecur_ok hc (extReady_helion hi h)) u (by omega) _ s d (fun b t => mat M M (Av b t)) zi x' o ho hB hM hN (by rw [size_XT_1]; omega),
      aux_any (fun s d => recursionLoop_eq s d) u (by omega) _ s d (fun b t => mat M M (Av b t)) zi x' o ho hB hM hN (by rw [size_XT_1]; omega)]
  · rfl

/-- Without blocks no condition is needed. -/
theorem stateSpaceRecursion_one {B N M : Nat} {A x : Tensor α} {Av : Nat → Nat → Nat → Nat → α} {xv : Nat → Nat → Nat → α}
    (hA : MatSeq B N M M A Av) (hx : Drive B N M x xv) (zi : Nat → Nat → α) (o : Option Int) (ho : OV M o) (hM : 0 < M) (hN : 0 < N) :
    stateSpaceRecursion A (t2 B M zi) x 1 o = .ok (OT o B N M fun b t m => vecRec M (Av b) (zi b) (xv b) (t + 1) m) := by
  refine runner_layout (runner := fun A zi x o => stateSpaceRecursion A zi x 1 o) ?_ hA hx zi o ho hM hN
  intro s d B N A zi x o ho hM hN
  show stateSpaceRecursionAux recursionLoop 1 (_ + 1) _ _ _ _ = _
  rw [stateSpaceRecursionAux]
  refine check_step (by cases d <;> simp [XT]) (check_step (rank_MT3 _ _ _ _ _ _) (check_step ?_ (check_step ?_ (check_step ?_
      (check_step ?_ (check_step rfl (check_step ?_ (check_step ?_ (check_step (by omega) ?_)))))))))
  · rw [size_MT3_n1, size_MT3_n2]
  · rw [size_MT3_n3, size_XT_1]
  · intro h; rw [rank_MT3_size _ _ _ _ _ _ h]; cases d <;> rfl
  · intro h; rw [size_MT3_n1]; cases d
    · simp [XT] at h
    · rfl
  · cases d <;> rfl
  · rw [size_MT3_n1]; rfl
  rw [if_pos (Or.inl (by decide))]
  exact recursionLoop_eq s d A zi x o ho hM hN

theorem recurRunner_eq {e : Env α} (hc : Correct e) {B N M : Nat} (hi : LpvInstall e M) {A x : Tensor α}
    {Av : Nat → Nat → Nat → Nat → α} {xv : Nat → Nat → Nat → α} (hA : MatSeq B N M M A Av)
    (hx : Drive B N M x xv) (zi : Nat → Nat → α) (u : Int) (o : Option Int) (ho : OV M o) (hM : 0 < M) (hN : 0 < N)
    (hP : HelionRuns e → 0 < B) :
    recurRunner e M A (t2 B M zi) x u o = stateSpaceRecursion A (t2 B M zi) x u o := by
  unfold recurRunner
  split
  · rename_i h
    obtain ⟨h1, rfl⟩ := h
    rw [stateSpaceRecursion_one hA hx zi o ho hM hN]
    exact runner_layout (extSsRecur_ok hc (extReady_ext hi h1)) hA hx zi o ho hM hN
  · exact stateSpaceRecursionOn_eq hc hi hA hx zi u o ho hM hN hP

theorem formRunner_eq {e : Env α} (hc : Correct e) {B N M : Nat} (hi : LpvInstall e M) {A x : Tensor α}
    {Av : Nat → Nat → Nat → Nat → α} {xv : Nat → Nat → Nat → α} (hA : MatSeq B N M M A Av)
    (hx : Drive B N M x xv) (zi : Nat → Nat → α) (u : Int) (o : Option Int) (ho : OV M o) (hM : 0 < M) (hN : 0 < N)
    (hB : 0 < B) (hu : 1 ≤ u) (hP : GoodFactor N u) :
    formRunner e A (t2 B M zi) x u o = stateSpaceRecursion A (t2 B M zi) x u o := by
  have hA3 : A.size (-1) = M := by cases hA <;> rfl
  unfold formRunner
  rw [hA3]
  split
  · rename_i h
    rw [stateSpaceRecursion_layout hA hx zi _ o ho hB hM hN hu hP]
    exact runner_layout (extSsRecur_ok hc (extReady_ext hi h)) hA hx zi o ho hM hN
  · exact stateSpaceRecursionOn_eq hc hi hA hx zi u o ho hM hN fun _ => hB

theorem stateSpaceWith_congr [StarRing α] {r r' : Tensor α → Tensor α → Tensor α → Int → Option Int → Res (Tensor α)} {B N M : Nat}
    {A x : Tensor α} {Bm C D zi : Option (Tensor α)} {Av : Nat → Nat → Nat → Nat → α} {v : Nat → Nat → Nat → α}
    {z : Nat → Nat → α} {u out : Option Int} (hA : MatSeq B N M M A Av)
    (hB : LpvInput B N M Bm x v) (hz : InitState B M zi z)
    (h : ∀ Bx o, Drive B N M Bx v → o = none ∨ o = out →
      r A (t2 B M z) Bx (u.getD (roundSqrt N)) o = r' A (t2 B M z) Bx (u.getD (roundSqrt N)) o) :
    stateSpaceWith r A x Bm C D zi u out = stateSpaceWith r' A x Bm C D zi u out := by
  obtain ⟨hA1, hA2, hA3, hA4⟩ := size_MatSeq hA
  obtain ⟨hx1, hx2, hx3⟩ := size_LpvInput hB
  obtain ⟨Bx, hBx, hin⟩ := inputTerm_eq hB
  unfold stateSpaceWith
  iterate 5 refine bind_congr_ok fun _ _ => ?_
  rw [hx2, hx3, hA3, initialState_eq hz, ok_bind, ok_bind]
  refine bind_congr_ok fun Bx' hv => ?_
  obtain rfl : Bx' = Bx := Except.ok.inj (hv.symm.trans hin)
  rw [shiftedStates_congr _ (h Bx' none hBx (Or.inl rfl)) (h Bx' out hBx (Or.inr rfl))]

end Lpv
end Phil
