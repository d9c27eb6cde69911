import Verif.Model.Helion
import Verif.Spec.Ops
import Verif.Proof.ScanOps

/-!
# The Helion kernels compute the recurrences, for every tiling
-/

namespace Phil.Helion
open Torch Torch.Tensor Spec Finset

variable {α : Type} [CommRing α]

/-- One loop body on plain functions; `c b t m k` multiplies component `k` of the previous state. -/
def fstep (c : Nat → Nat → Nat → Nat → α) (M : Nat) (tb : List Nat) (t : Nat) (tm : List Nat) (o : Nat → Nat → Nat → α) :
    Nat → Nat → Nat → α := fun b s m =>
  if b ∈ tb ∧ s = t ∧ m ∈ tm then o b s m + ∑ k ∈ range M, c b t m k * o b (t - 1) k else o b s m

theorem fold_m (c : Nat → Nat → Nat → Nat → α) (M : Nat) (tb : List Nat) (t : Nat) (tiles : List (List Nat))
    (hd : tiles.flatten.Nodup) (o : Nat → Nat → Nat → α) (ht : 1 ≤ t) :
    tiles.foldl (fun o tm => fstep c M tb t tm o) o = fstep c M tb t tiles.flatten o := by
  induction tiles generalizing o with
  | nil => funext b s m; simp [fstep]
  | cons tm tiles ih =>
    rw [List.flatten_cons, List.nodup_append'] at hd
    rw [List.foldl_cons, ih hd.2.1]
    funext b s m
    have hdis : m ∈ tm → m ∉ tiles.flatten := fun h h' => hd.2.2 h h'
    have hprev : ∀ k, fstep c M tb t tm o b (t - 1) k = o b (t - 1) k := fun k => by
      rw [fstep, if_neg (by rintro ⟨-, h, -⟩; omega)]
    have e1 : fstep c M tb t tiles.flatten (fstep c M tb t tm o) b s m =
        if b ∈ tb ∧ s = t ∧ m ∈ tiles.flatten then fstep c M tb t tm o b s m + ∑ k ∈ range M, c b t m k * o b (t - 1) k
        else fstep c M tb t tm o b s m := by
      conv_lhs => rw [fstep]
      simp only [hprev]
    rw [e1, List.flatten_cons]
    simp only [fstep, List.mem_append]
    by_cases hb : b ∈ tb ∧ s = t
    · obtain ⟨hb, rfl⟩ := hb
      by_cases h1 : m ∈ tm
      · simp [hb, h1, hdis h1]
      · simp [hb, h1]
    · have h : ∀ p : Prop, ¬ (b ∈ tb ∧ s = t ∧ p) := fun p h => hb ⟨h.1, h.2.1⟩
      simp [h]

/-- The states of row `b` of `o`. -/
def states (c : Nat → Nat → Nat → Nat → α) (M : Nat) (o : Nat → Nat → Nat → α) (b s m : Nat) : α :=
  vecRec M (fun t => c b (t + 1)) (o b 0) (fun t => o b (t + 1)) s m

/-- Rows of `o` in `tb` replaced by their states up to time `n`. -/
def filled (c : Nat → Nat → Nat → Nat → α) (M : Nat) (tb : List Nat) (n : Nat) (o : Nat → Nat → Nat → α) : Nat → Nat → Nat → α :=
  fun b s m => if b ∈ tb ∧ s ≤ n ∧ m < M then states c M o b s m else o b s m

theorem fold_t (c : Nat → Nat → Nat → Nat → α) (M : Nat) (tb : List Nat) (tiles : List (List Nat))
    (hp : tiles.flatten.Perm (List.range M)) (o : Nat → Nat → Nat → α) (n : Nat) :
    (List.range' 1 n).foldl (fun o t => tiles.foldl (fun o tm => fstep c M tb t tm o) o) o = filled c M tb n o := by
  have hm : ∀ m, m ∈ tiles.flatten ↔ m < M := fun m => by rw [hp.mem_iff, List.mem_range]
  induction n with
  | zero =>
    funext b s m
    rw [filled]
    split
    · rename_i h
      obtain rfl : s = 0 := by omega
      rfl
    · rfl
  | succ n ih =>
    rw [List.range'_1_concat, List.foldl_append, ih, List.foldl_cons, List.foldl_nil,
      fold_m _ _ _ _ _ (hp.nodup_iff.2 List.nodup_range) _ (by omega)]
    funext b s m
    rw [show 1 + n = n + 1 by omega]
    by_cases hb : b ∈ tb ∧ s = n + 1 ∧ m < M
    · obtain ⟨h1, rfl, h3⟩ := hb
      rw [fstep, if_pos ⟨h1, rfl, (hm m).2 h3⟩]
      have e1 : filled c M tb n o b (n + 1) m = o b (n + 1) m := by rw [filled, if_neg (by omega)]
      have e2 : filled c M tb (n + 1) o b (n + 1) m = states c M o b (n + 1) m := by
        rw [filled, if_pos ⟨h1, le_refl _, h3⟩]
      rw [e1, e2, states, vecRec, add_comm]
      refine congrArg (· + o b (n + 1) m) (sum_congr rfl fun k hk => ?_)
      rw [filled, Nat.add_sub_cancel, if_pos ⟨h1, le_refl n, mem_range.1 hk⟩]
      rfl
    · rw [fstep, if_neg (fun h => hb ⟨h.1, h.2.1, (hm m).1 h.2.2⟩), filled, filled]
      by_cases h : b ∈ tb ∧ s ≤ n ∧ m < M
      · rw [if_pos h, if_pos ⟨h.1, by omega, h.2.2⟩]
      · rw [if_neg h, if_neg (fun h' => by
          rcases Nat.lt_or_ge n s with h2 | h2
          · exact hb ⟨h'.1, by omega, h'.2.2⟩
          · exact h ⟨h'.1, h2, h'.2.2⟩)]

theorem fold_b (c : Nat → Nat → Nat → Nat → α) (M n : Nat) (tiles : List (List Nat)) (hd : tiles.flatten.Nodup)
    (o : Nat → Nat → Nat → α) : tiles.foldl (fun o tb => filled c M tb n o) o = filled c M tiles.flatten n o := by
  induction tiles generalizing o with
  | nil => funext b s m; simp [filled]
  | cons tb tiles ih =>
    rw [List.flatten_cons, List.nodup_append'] at hd
    rw [List.foldl_cons, ih hd.2.1]
    funext b s m
    by_cases h1 : b ∈ tiles.flatten
    · have hb : b ∉ tb := fun h => hd.2.2 h h1
      have e : filled c M tb n o b = o b := by
        funext s m; rw [filled, if_neg (fun h => hb h.1)]
      conv_lhs => rw [filled]
      simp only [states, e]
      simp only [filled, states, List.flatten_cons, List.mem_append, h1, hb, false_or]
    · simp only [filled, states, List.flatten_cons, List.mem_append, h1, or_false, false_and, if_false]

/-- The three loops on plain functions. -/
theorem floops_eq (c : Nat → Nat → Nat → Nat → α) (tile : Tiler) (ht : IsTiler tile) (B N M : Nat) (o : Nat → Nat → Nat → α) :
    (tile B).foldl (fun o tb => (List.range' 1 N).foldl (fun o t => (tile M).foldl (fun o tm => fstep c M tb t tm o) o) o) o =
      filled c M (tile B).flatten N o := by
  simp only [fold_t c M _ _ (ht M)]
  exact fold_b c M N _ ((ht B).nodup_iff.2 List.nodup_range) o

theorem foldl_lift {β γ δ : Type} (F : γ → δ) (l : List β) (f : γ → β → γ) (g : δ → β → δ)
    (h : ∀ b ∈ l, ∀ x, g (F x) b = F (f x b)) (x : γ) : l.foldl g (F x) = F (l.foldl f x) := by
  induction l generalizing x with
  | nil => rfl
  | cons b l ih => rw [List.foldl_cons, List.foldl_cons, h b (by simp), ih (fun b hb => h b (by simp [hb]))]

theorem stepShared_t3 (B N M : Nat) (c : Nat → Nat → Nat → Nat → α) (at_ : Nat → Nat → Nat → α)
    (hc : ∀ b t m k, t < N → m < M → k < M → at_ (t + 1) k m = c b (t + 1) m k) (tb : List Nat) (t : Nat)
    (ht : 1 ≤ t ∧ t ≤ N) (tm : List Nat) (o : Nat → Nat → Nat → α) :
    stepShared M at_ tb t tm (t3 B (N + 1) M o) = t3 B (N + 1) M (fstep c M tb t tm o) := by
  refine ext3 rfl rfl fun b s m hb hs hm => ?_
  rw [get_t3 hb hs hm, stepShared, get_ofFn, shape_t3, if_pos (by simp [inB, hb, hs, hm]), fstep]
  simp only [List.getD_cons_zero, List.getD_cons_succ]
  rw [get_t3 hb hs hm]
  split
  · rename_i h
    refine congrArg _ (sum_congr rfl fun k hk => ?_)
    obtain ⟨t, rfl⟩ : ∃ t', t = t' + 1 := ⟨t - 1, by omega⟩
    rw [get_t3 hb (by omega) (mem_range.1 hk), hc b t m k (by omega) hm (mem_range.1 hk), mul_comm]
  · rfl

theorem stepBatched_t4 (B N M : Nat) (c : Nat → Nat → Nat → Nat → α) (a : Nat → Nat → Nat → Nat → α)
    (hc : ∀ b t m k, b < B → t < N → m < M → k < M → a b (t + 1) m k = c b (t + 1) m k) (tb : List Nat) (t : Nat)
    (ht : 1 ≤ t ∧ t ≤ N) (tm : List Nat) (o : Nat → Nat → Nat → α) :
    stepBatched M a tb t tm (t4 B (N + 1) M 1 fun b s m _ => o b s m) =
      t4 B (N + 1) M 1 fun b s m _ => fstep c M tb t tm o b s m := by
  refine ext4 rfl rfl fun b s m j hb hs hm hj => ?_
  rw [get_t4 hb hs hm hj, stepBatched, get_ofFn, shape_t4, if_pos (by simp [inB, hb, hs, hm, hj]), fstep]
  simp only [List.getD_cons_zero, List.getD_cons_succ]
  rw [get_t4 hb hs hm hj]
  split
  · rename_i h
    refine congrArg _ (sum_congr rfl fun k hk => ?_)
    obtain ⟨t, rfl⟩ : ∃ t', t = t' + 1 := ⟨t - 1, by omega⟩
    rw [get_t4 hb (by omega) (mem_range.1 hk) hj, hc b t m k hb (by omega) hm (mem_range.1 hk)]
  · rfl

theorem loops_shared (tile : Tiler) (ht : IsTiler tile) (B N M : Nat) (c : Nat → Nat → Nat → Nat → α) (at_ : Nat → Nat → Nat → α)
    (hc : ∀ b t m k, t < N → m < M → k < M → at_ (t + 1) k m = c b (t + 1) m k) (o : Nat → Nat → Nat → α) :
    loops tile B N M (stepShared M at_) (t3 B (N + 1) M o) = t3 B (N + 1) M (filled c M (tile B).flatten N o) := by
  rw [loops, ← floops_eq c tile ht B N M o]
  refine foldl_lift (t3 B (N + 1) M) _ _ _ (fun tb _ o => ?_) o
  refine foldl_lift (t3 B (N + 1) M) _ _ _ (fun t h o => ?_) o
  refine foldl_lift (t3 B (N + 1) M) _ _ _ (fun tm _ o => ?_) o
  rw [List.mem_range'_1] at h
  exact stepShared_t3 B N M c at_ hc tb t (by omega) tm o

theorem loops_batched (tile : Tiler) (ht : IsTiler tile) (B N M : Nat) (c : Nat → Nat → Nat → Nat → α)
    (a : Nat → Nat → Nat → Nat → α)
    (hc : ∀ b t m k, b < B → t < N → m < M → k < M → a b (t + 1) m k = c b (t + 1) m k) (o : Nat → Nat → Nat → α) :
    loops tile B N M (stepBatched M a) (t4 B (N + 1) M 1 fun b s m _ => o b s m) =
      t4 B (N + 1) M 1 fun b s m _ => filled c M (tile B).flatten N o b s m := by
  rw [loops, ← floops_eq c tile ht B N M o]
  refine foldl_lift (fun o : Nat → Nat → Nat → α => t4 B (N + 1) M 1 fun b s m _ => o b s m) _ _ _ (fun tb _ o => ?_) o
  refine foldl_lift (fun o : Nat → Nat → Nat → α => t4 B (N + 1) M 1 fun b s m _ => o b s m) _ _ _ (fun t h o => ?_) o
  refine foldl_lift (fun o : Nat → Nat → Nat → α => t4 B (N + 1) M 1 fun b s m _ => o b s m) _ _ _ (fun tm _ o => ?_) o
  rw [List.mem_range'_1] at h
  exact stepBatched_t4 B N M c a hc tb t (by omega) tm o

/-- `torch.cat([zi.unsqueeze(1), x], dim=1)` -/
theorem output_eq (B N M : Nat) (zi : Nat → Nat → α) (x : Nat → Nat → Nat → α) :
    cat2 (t3 B 1 M fun b _ m => zi b m) (t3 B N M x) 1 =
      .ok (t3 B (N + 1) M fun b s m => if s < 1 then zi b m else x b (s - 1) m) := by
  rw [cat2_t3_1, Nat.add_comm 1 N]

theorem slice_rest_t3 (B N M : Nat) (g : Nat → Nat → Nat → α) :
    slice (t3 B (N + 1) M g) 1 (some 1) none = .ok (t3 B N M fun b n i => g b (n + 1) i) := by
  have e1 : pyStart (N + 1) (some 1) = 1 := by unfold pyStart pyBound; simp
  rw [slice_t3_1, e1, pyStop_none, Nat.add_sub_cancel]

theorem slice_rest_t4 (B N M Q : Nat) (g : Nat → Nat → Nat → Nat → α) :
    slice (t4 B (N + 1) M Q g) 1 (some 1) none = .ok (t4 B N M Q fun b n i j => g b (n + 1) i j) := by
  have e1 : pyStart (N + 1) (some 1) = 1 := by unfold pyStart pyBound; simp
  rw [slice_t4_1, e1, pyStop_none, Nat.add_sub_cancel]

theorem filled_eq (tile : Tiler) (ht : IsTiler tile) {B N M : Nat} (c : Nat → Nat → Nat → Nat → α) (a : Nat → Nat → Nat → Nat → α)
    (hc : ∀ b t m k, b < B → t < N → m < M → k < M → c b (t + 1) m k = a b t m k) (zi : Nat → Nat → α)
    (x : Nat → Nat → Nat → α) {b n i : Nat} (hb : b < B) (hn : n < N) (hi : i < M) :
    filled c M (tile B).flatten N (fun b s m => if s < 1 then zi b m else x b (s - 1) m) b (n + 1) i =
      vecRec M (a b) (zi b) (x b) (n + 1) i := by
  rw [filled, if_pos ⟨by rw [(ht B).mem_iff]; exact List.mem_range.2 hb, by omega, hi⟩, states]
  exact vecRec_congr (fun _ _ => rfl) (fun t htt i k hi hk => hc b t i k hb (by omega) hi hk) (fun _ _ _ _ => rfl) hi

/-- One tile that holds everything. -/
theorem whole_isTiler : IsTiler fun n => [List.range n] := fun n => by simp

theorem hlLtiRecurN_isMatrixOp (tile : Tiler) (ht : IsTiler tile) (M : Nat) : IsMatrixOp M (hlLtiRecurN (α := α) tile) := by
  intro B N A a zi x hA
  cases hA with
  | shared f =>
    rw [hlLtiRecurN, if_pos (by simp), ltiSharedLoop]
    refine bind_step (transpose_t2_n2_n1 _ _ _) (bind_step (unsqueeze_t2_1 _ _ _) (bind_step (output_eq B N M zi x) ?_))
    refine Eq.trans (congrArg (fun o => slice o 1 (some 1) none)
      (loops_shared tile ht B N M (fun _ _ m k => f m k) _ (fun b t m k _ hm hk => get_t2 hk hm) _)) ?_
    rw [slice_rest_t3]
    exact congrArg Except.ok (t3_congr rfl rfl rfl fun b n i hb hn hi =>
      filled_eq tile ht _ (fun _ _ => f) (fun _ _ _ _ _ _ _ _ => rfl) zi x hb hn hi)
  | batched =>
    rw [hlLtiRecurN, if_neg (by simp), ltiLoop]
    refine bind_step (unsqueeze_t2_1 _ _ _) (bind_step (output_eq B N M zi x) (bind_step (unsqueeze_t3_n1 _ _ _ _) ?_))
    refine Eq.trans (congrArg (fun o => slice o 1 (some 1) none >>= fun y => squeeze y (-1))
      (loops_batched tile ht B N M (fun b _ m k => a b m k) _ (fun b t m k hb _ hm hk => get_t3 hb hm hk) _)) ?_
    refine bind_step (slice_rest_t4 _ _ _ _ _) ?_
    rw [squeeze_t4_n1]
    exact congrArg Except.ok (t3_congr rfl rfl rfl fun b n i hb hn hi =>
      filled_eq tile ht _ (fun b _ => a b) (fun _ _ _ _ _ _ _ _ => rfl) zi x hb hn hi)

theorem hlRecurN_isVaryingOp (tile : Tiler) (ht : IsTiler tile) (M : Nat) : IsVaryingOp M (hlRecurN (α := α) tile) := by
  intro B N A a zi x hA
  cases hA with
  | shared f =>
    rw [hlRecurN, if_pos (by simp), lpvSharedLoop]
    refine bind_step (transpose_t3_n2_n1 _ _ _ _) (bind_step (unsqueeze_t2_1 _ _ _) (bind_step (output_eq B N M zi x) ?_))
    refine Eq.trans (congrArg (fun o => slice o 1 (some 1) none)
      (loops_shared tile ht B N M (fun _ t m k => f (t - 1) m k) _ (fun b t m k htt hm hk => get_t3 htt hk hm) _)) ?_
    rw [slice_rest_t3]
    exact congrArg Except.ok (t3_congr rfl rfl rfl fun b n i hb hn hi =>
      filled_eq tile ht _ (fun _ => f) (fun _ _ _ _ _ _ _ _ => rfl) zi x hb hn hi)
  | batched =>
    rw [hlRecurN, if_neg (by simp), lpvLoop]
    refine bind_step (unsqueeze_t2_1 _ _ _) (bind_step (output_eq B N M zi x) (bind_step (unsqueeze_t3_n1 _ _ _ _) ?_))
    refine Eq.trans (congrArg (fun o => slice o 1 (some 1) none >>= fun y => squeeze y (-1))
      (loops_batched tile ht B N M (fun b t m k => a b (t - 1) m k) _ (fun b t m k hb htt hm hk => get_t4 hb htt hm hk) _)) ?_
    refine bind_step (slice_rest_t4 _ _ _ _ _) ?_
    rw [squeeze_t4_n1]
    exact congrArg Except.ok (t3_congr rfl rfl rfl fun b n i hb hn hi =>
      filled_eq tile ht _ a (fun _ _ _ _ _ _ _ _ => rfl) zi x hb hn hi)

end Phil.Helion
