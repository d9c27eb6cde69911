import Verif.Proof.LpvSsmExact
import Verif.Proof.Linear

/-!
# What the blocked time-varying recursion computes for an arbitrary unroll factor

For unroll factors that C07 excludes the states are wrong, but they are still a function of the matrices, the initial state
and the input of the same batch item only (`stateSpaceRecursion_any`), linear in state and input (`blockRec_lin`) and
causal (`blockRec_agree`).
-/

namespace Phil.Lpv
open Torch Torch.Tensor Finset Spec Phil.Mat
open Phil.Lti (XT xe OT OV OT_congr dQ dW dK dR sum_dQ xe_shift xe_pad padBlocksXT rank_XT size_XT_0 size_XT_1 input3)
variable {α : Type} [CommRing α]

/-- The sequence continued with zeros. -/
def zpad {β : Type} [Zero β] (N : Nat) (f : Nat → β) (t : Nat) : β := if t < N then f t else 0

/-- The input of the recursive call. -/
def blkDrive (M u : Nat) (A : Nat → Matrix (Fin M) (Fin M) α) (x : Nat → Nat → α) (k i : Nat) : α :=
  ∑ w ∈ range u, ∑ j ∈ range M, x (k * u + w) j * fm (if w < u - 1 then cumsAt u A (k * u) w else 1) i j

/-- The states the blocked algorithm computes for one batch item: the state after `T` steps. -/
def blockRec (M u : Nat) : Nat → Nat → (Nat → Matrix (Fin M) (Fin M) α) → (Nat → α) → (Nat → Nat → α) → Nat → Nat → α
  | 0, _, _, _, _ => fun _ _ => 0
  | fuel + 1, N, A, zi, x =>
    if u = 1 ∨ u ≥ N then vecRec M (fun t => fm (A t)) zi x
    else blkState M u (fun t => fm (zpad N A t)) (fun k m => if k = 0 then zi m else
      blockRec M u fuel ((N + u - 1) / u) (fun k => cumsAt u (zpad N A) (k * u) 0 * zpad N A (k * u)) zi
        (blkDrive M u (zpad N A) (zpad N x)) k m) (zpad N x)

theorem zpad_xe (d : Bool) (N : Nat) (x : Nat → Nat → α) : xe d (fun t k => if t < N then x t k else 0) = zpad N (xe d x) := by
  funext t k
  cases d
  · by_cases h : t < N
    · simp [h, xe, zpad]
    · simp [h, xe, zpad]
  · by_cases h : t < N
    · simp [h, xe, zpad]
    · simp [h, xe, zpad]

theorem aux_any {looper : Tensor α → Tensor α → Tensor α → Option Int → Res (Tensor α)} {M : Nat} (hl : LooperOk M looper)
    (u : Nat) (hu : 0 < u) (fuel : Nat) (s d : Bool) {B N : Nat} (A : Nat → Nat → Matrix (Fin M) (Fin M) α) (zi : Nat → Nat → α)
    (x : Nat → Nat → Nat → α) (o : Option Int) (ho : OV M o) (hB : 0 < B) (hM : 0 < M) (hN : 0 < N) (hf : N < fuel) :
    stateSpaceRecursionAux looper (u : Int) fuel (MT3 s B N M M fun b t => fm (A b t)) (t2 B M zi) (XT d B N M x) o =
      .ok (OT o B N M fun b t m => blockRec M u fuel N (A (sel s b)) (zi b) (xe d (x b)) (t + 1) m) := by
  induction fuel generalizing d N A x o with
  | zero => omega
  | succ fuel ih =>
    rw [aux_unfold looper u hu]
    by_cases hs : u = 1 ∨ u ≥ N
    · rw [if_pos hs, hl s d A zi x o ho hM hN]
      simp only [blockRec, if_pos hs]
    rw [if_neg hs]
    simp only [blockRec, if_neg hs]
    push Not at hs
    obtain ⟨K, hK0, hKN, hNK, hKu, Ap, xp, hAp, hxp, key⟩ := blocked_any hl (fun A zi x => stateSpaceRecursionAux looper u fuel A zi x none) s d A zi x o
      ho hB hM (by omega : 1 < u) hs.2
    have hAp' : ∀ b, Ap b = zpad N (A b) := fun b => by rw [hAp]; rfl
    have hxp' : ∀ b, xe d (xp b) = zpad N (xe d (x b)) := fun b => by rw [hxp]; exact zpad_xe d N (x b)
    have hr := ih true (N := K) (fun b k => cumsAt u (Ap b) (k * u) 0 * Ap b (k * u))
      (fun b k i => ∑ w ∈ range u, ∑ j ∈ range M, xe d (xp b) (k * u + w) j *
          fm (if w < u - 1 then cumsAt u (Ap (sel s b)) (k * u) w else 1) i j) none trivial hK0 (by omega)
    rw [key (fun b t m => blockRec M u fuel K (fun k => cumsAt u (Ap (sel s b)) (k * u) 0 * Ap (sel s b) (k * u)) (zi b)
      (fun k i => ∑ w ∈ range u, ∑ j ∈ range M, xe d (xp b) (k * u + w) j *
        fm (if w < u - 1 then cumsAt u (Ap (sel s b)) (k * u) w else 1) i j) (t + 1) m) hr]
    refine congrArg Except.ok (OT_congr ho rfl rfl fun b t m _ ht hm => ?_)
    congr 1
    · simp only [hAp']
    · funext k m
      rw [blkInit]
      by_cases h0 : k = 0
      · rw [if_pos h0, if_pos h0]
      rw [if_neg h0, if_neg h0, Nat.sub_add_cancel (by omega), ← hKu]
      congr 1
      · funext k; rw [hAp']
      · funext k i
        simp only [blkDrive]
        rw [hxp', hAp']
    · exact hxp' b

theorem blockRec_zero (M u fuel N : Nat) (hf : 0 < fuel) (A : Nat → Matrix (Fin M) (Fin M) α) (zi : Nat → α) (x : Nat → Nat → α) (m : Nat) :
    blockRec M u fuel N A zi x 0 m = zi m := by
  obtain ⟨fuel, rfl⟩ : ∃ n, fuel = n + 1 := ⟨fuel - 1, by omega⟩
  rw [blockRec]
  split
  · rfl
  · rw [blkState, Nat.zero_mod, Nat.zero_div]
    simp only [vecRec, if_true]

theorem blockRec_lin {M : Nat} (u fuel N : Nat) (A : Nat → Matrix (Fin M) (Fin M) α) (c d : α) {z z₁ z₂ : Nat → α} {v v₁ v₂ : Nat → Nat → α}
    (hz : ∀ m, z m = c * z₁ m + d * z₂ m) (hv : ∀ t m, v t m = c * v₁ t m + d * v₂ t m) (T m : Nat) :
    blockRec M u fuel N A z v T m = c * blockRec M u fuel N A z₁ v₁ T m + d * blockRec M u fuel N A z₂ v₂ T m := by
  induction fuel generalizing N A v v₁ v₂ T m with
  | zero => simp [blockRec]
  | succ fuel ih =>
    simp only [blockRec]
    by_cases hs : u = 1 ∨ u ≥ N
    · simp only [if_pos hs]
      exact vecRec_lin _ c d hz hv T m
    simp only [if_neg hs]
    have hp : ∀ t m, zpad N v t m = c * zpad N v₁ t m + d * zpad N v₂ t m := by
      intro t m
      simp only [zpad]
      split
      · exact hv t m
      · simp
    refine vecRec_lin _ c d (fun m => ?_) (fun t m => hp _ m) _ m
    by_cases h0 : T / u = 0
    · simp only [if_pos h0]; exact hz m
    · simp only [if_neg h0]
      refine ih _ _ (fun k i => ?_) _ m
      simp only [blkDrive, mul_sum, ← sum_add_distrib]
      refine sum_congr rfl fun w _ => sum_congr rfl fun j _ => ?_
      rw [hp]; ring

theorem cumsAt_agree {M u : Nat} (hu : 1 < u) {A A' : Nat → Matrix (Fin M) (Fin M) α} {w : Nat} (h : ∀ t, t < w + u → A t = A' t) (j : Nat) :
    cumsAt u A w j = cumsAt u A' w j := by
  unfold cumsAt
  congr 1
  funext p
  exact h _ (by omega)

theorem blockRec_agree {M u fuel N T : Nat} {A A' : Nat → Matrix (Fin M) (Fin M) α} {z z' : Nat → α} {v v' : Nat → Nat → α} (hu : 0 < u)
    (hz : ∀ m, m < M → z m = z' m) (hA : ∀ t, t < T → A t = A' t) (hv : ∀ t m, t < T → m < M → v t m = v' t m) {m : Nat} (hm : m < M) :
    blockRec M u fuel N A z v T m = blockRec M u fuel N A' z' v' T m := by
  induction fuel generalizing N A A' v v' T m with
  | zero => rfl
  | succ fuel ih =>
    simp only [blockRec]
    by_cases hs : u = 1 ∨ u ≥ N
    · simp only [if_pos hs]
      exact vecRec_congr hz (fun t ht i k _ _ => by rw [hA t ht]) (fun t ht i hi => hv t i ht hi) hm
    simp only [if_neg hs]
    have hpA : ∀ t, t < T → zpad N A t = zpad N A' t := fun t ht => by simp only [zpad, hA t ht]
    have hpv : ∀ t m, t < T → m < M → zpad N v t m = zpad N v' t m := by
      intro t m ht hm
      simp only [zpad]
      split
      · exact hv t m ht hm
      · rfl
    have hd := Nat.div_add_mod' T u
    refine vecRec_congr (fun i hi => ?_) (fun t ht i k _ _ => by simp only []; rw [hpA _ (by omega)]) (fun t ht i hi => hpv _ i (by omega) hi) hm
    by_cases h0 : T / u = 0
    · simp only [if_pos h0]; exact hz i hi
    · simp only [if_neg h0]
      have hb : ∀ k, k < T / u → k * u + u ≤ T := by
        intro k hk
        have : (k + 1) * u ≤ T / u * u := Nat.mul_le_mul_right u hk
        have h2 : (k + 1) * u = k * u + u := by ring
        omega
      refine ih (fun k hk => ?_) (fun k i hk hi => ?_) hi
      · rw [cumsAt_agree (by omega) (fun t ht => hpA t (by have := hb k hk; omega)), hpA _ (by have := hb k hk; omega)]
      · refine sum_congr rfl fun w hw => sum_congr rfl fun j hj => ?_
        rw [mem_range] at hw hj
        rw [hpv _ j (by have := hb k hk; omega) hj, cumsAt_agree (by omega) (fun t ht => hpA t (by have := hb k hk; omega))]

/-- Causality for every component index. -/
theorem blockRec_causal {M u fuel N T : Nat} {A A' : Nat → Matrix (Fin M) (Fin M) α} {z : Nat → α} {v v' : Nat → Nat → α}
    (hu : 0 < u) (hA : ∀ t, t < T → A t = A' t) (hv : ∀ t m, t < T → v t m = v' t m) (m : Nat) :
    blockRec M u fuel N A z v T m = blockRec M u fuel N A' z v' T m := by
  induction fuel generalizing N A A' v v' T m with
  | zero => rfl
  | succ fuel ih =>
    simp only [blockRec]
    by_cases hs : u = 1 ∨ u ≥ N
    · simp only [if_pos hs]
      exact vecRec_agree (T := T) (fun t i j ht => by rw [hA t ht]) hv le_rfl m
    simp only [if_neg hs]
    push Not at hs
    have hpA : ∀ t, t < T → zpad N A t = zpad N A' t := fun t ht => by simp only [zpad, hA t ht]
    have hpv : ∀ t m, t < T → zpad N v t m = zpad N v' t m := by
      intro t m ht
      simp only [zpad]
      split
      · exact hv t m ht
      · rfl
    have hd := Nat.div_add_mod' T u
    have hb : ∀ k, k < T / u → k * u + u ≤ T := by
      intro k hk
      have : (k + 1) * u ≤ T / u * u := Nat.mul_le_mul_right u hk
      have h2 : (k + 1) * u = k * u + u := by ring
      omega
    rw [blkState, blkState]
    refine congrFun ?_ m
    have e : (fun m => if T / u = 0 then z m else blockRec M u fuel ((N + u - 1) / u) (fun k => cumsAt u (zpad N A) (k * u) 0 * zpad N A (k * u)) z
        (blkDrive M u (zpad N A) (zpad N v)) (T / u) m) = fun m => if T / u = 0 then z m else
        blockRec M u fuel ((N + u - 1) / u) (fun k => cumsAt u (zpad N A') (k * u) 0 * zpad N A' (k * u)) z
        (blkDrive M u (zpad N A') (zpad N v')) (T / u) m := by
      funext m
      refine if_congr Iff.rfl rfl (ih (fun k hk => ?_) (fun k i hk => ?_) m)
      · rw [cumsAt_agree (by omega) (fun t ht => hpA t (by have := hb k hk; omega)), hpA _ (by have := hb k hk; omega)]
      refine sum_congr rfl fun w hw => sum_congr rfl fun j hj => ?_
      rw [mem_range] at hw
      rw [hpv _ j (by have := hb k hk; omega), cumsAt_agree (by omega) (fun t ht => hpA t (by have := hb k hk; omega))]
    rw [e]
    funext m
    exact vecRec_agree (T := T % u) (fun t i j ht => by rw [hpA _ (by omega)]) (fun t m ht => hpv _ m (by omega)) le_rfl m

/-- The states `state_space_recursion` computes with unroll factor `u`. -/
def anyRec (M N : Nat) (u : Int) (A : Nat → Nat → Nat → α) (z : Nat → α) (v : Nat → Nat → α) : Nat → Nat → α :=
  blockRec M u.toNat (N + 1) N (fun t => mat M M (A t)) z v

/-- **The value of the recursion for every unroll factor.** -/
theorem stateSpaceRecursion_any {B N M : Nat} {A x : Tensor α} {Av : Nat → Nat → Nat → Nat → α}
    {xv : Nat → Nat → Nat → α} (hA : MatSeq B N M M A Av) (hx : Drive B N M x xv) (zi : Nat → Nat → α) (u : Int)
    (o : Option Int) (ho : OV M o) (hB : 0 < B) (hM : 0 < M) (hN : 0 < N) (hu : 1 ≤ u) :
    stateSpaceRecursion A (t2 B M zi) x u o =
      .ok (OT o B N M fun b t m => anyRec M N u (Av b) (zi b) (xv b) (t + 1) m) := by
  lift u to ℕ using by omega
  obtain ⟨s, rfl, hs⟩ := layout_MT3 hA
  obtain ⟨d, x', rfl, hd⟩ := Phil.Lti.layout_XT hx
  unfold stateSpaceRecursion
  rw [Phil.Lti.size_XT_1, aux_any (fun s d => recursionLoop_eq s d) u (by omega) _ s d (fun b t => mat M M (Av b t)) zi x' o ho hB hM hN (by omega)]
  refine congrArg Except.ok (OT_congr ho rfl rfl fun b t m _ _ hm => ?_)
  rw [hd, hs, anyRec, Int.toNat_natCast]

/-! ### an index out of range -/

theorem recursionLoop_bad (s d : Bool) {B N M : Nat} (A : Nat → Nat → Matrix (Fin M) (Fin M) α) (zi : Nat → Nat → α)
    (x : Nat → Nat → Nat → α) (o : Int) (ho : ¬ (-(M : Int) ≤ o ∧ o < M)) (hM : 0 < M) (hN : 0 < N) :
    Fails (recursionLoop (MT3 s B N M M fun b t => fm (A b t)) (t2 B M zi) (XT d B N M x) (some o)) := by
  have hne : ∀ {σ : Type} (l : List σ), l.length = N → l ≠ [] := by
    intro σ l hl h; rw [h] at hl; simp at hl; omega
  unfold recursionLoop
  refine fails_check fun _ => ?_
  refine Lti.fails_step (mT_MT3 s B N M M _) ?_
  rw [size_MT3_n1]
  refine Lti.fails_step (input3 d B N M hM x) ?_
  cases s with
  | false =>
    rw [if_pos (show (MT3 false B N M M fun b t => fm (A b t)).rank = 3 from rfl)]
    refine Lti.fails_step (unbind_t3_1 _ _ _ _) ?_
    refine Lti.fails_step (unbind_t3_0 _ _ _ _) ?_
    rw [List.zip_map']
    refine Lti.fails_step (scanM_range _ (fun t => t2 B M fun b i =>
      vecRec M (fun t => fm (A 0 t)) (zi b) (xe d (x b)) t i) _ N fun t ht => ?_) ?_
    · simp only []
      rw [addmm_t2]
      refine congrArg Except.ok (t2_congr rfl rfl fun b i _ _ => ?_)
      simp only [vecRec]
      rw [add_comm]
      exact congrArg (· + _) (sum_congr rfl fun k _ => mul_comm _ _)
    refine fails_left (Lti.fails_mapM _ _ (hne _ (by simp)) fun v hv => ?_)
    simp only [List.mem_map, List.mem_range] at hv
    obtain ⟨t, _, rfl⟩ := hv
    exact Lti.select_fails (p := 1) (n := M) rfl rfl ho
  | true =>
    rw [if_neg (show ¬ (MT3 true B N M M fun b t => fm (A b t)).rank = 3 by simp [MT3])]
    refine Lti.fails_step (unsqueeze_t2_1 _ _ _) ?_
    refine Lti.fails_step (unbind_t3_1 _ _ _ _) ?_
    refine Lti.fails_step (unbind_t4_1 _ _ _ _ _) ?_
    rw [List.zip_map']
    refine Lti.fails_step (scanM_range _ (fun t => t3 B 1 M fun b _ i =>
      vecRec M (fun t => fm (A b t)) (zi b) (xe d (x b)) t i) _ N fun t ht => ?_) ?_
    · refine bind_step (unsqueeze_t2_1 _ _ _) ?_
      rw [baddbmm_t3]
      refine congrArg Except.ok (t3_congr rfl rfl rfl fun b _ i _ _ _ => ?_)
      simp only [vecRec]
      rw [add_comm]
      exact congrArg (· + _) (sum_congr rfl fun k _ => mul_comm _ _)
    refine fails_left (Lti.fails_mapM _ _ (hne _ (by simp)) fun v hv => ?_)
    simp only [List.mem_map, List.mem_range] at hv
    obtain ⟨t, _, rfl⟩ := hv
    exact Lti.select_fails (p := 2) (n := M) rfl rfl ho

/-- Appending the block ends fails when the index is out of range. -/
theorem ssrAssemble_bad {B K M : Nat} {out initials : Tensor α} (h : initials.shape = [B, K, M]) {o : Int}
    (ho : ¬ (-(M : Int) ≤ o ∧ o < M)) : Fails (ssrAssemble out initials (some o)) := by
  unfold ssrAssemble
  refine fails_bind fun v hv => ?_
  have hr : initials.rank = 3 := congrArg List.length h
  rw [slice, hr, show wrapDim 3 1 = .ok 1 from rfl, ok_bind] at hv
  cases hv
  refine fails_left (Lti.select_fails (p := 2) (n := M) ?_ ?_ ho)
  · simp only [rank, ofFn, h]; rfl
  · simp only [ofFn, h]; rfl

theorem stateSpaceRecursion_bad_index {B N M : Nat} {A x : Tensor α} {Av : Nat → Nat → Nat → Nat → α} {xv : Nat → Nat → Nat → α}
    (hA : MatSeq B N M M A Av) (hx : Drive B N M x xv) (zi : Nat → Nat → α) (u : Int) (i : Int)
    (ho : ¬ (-(M : Int) ≤ i ∧ i < M)) (hM : 0 < M) (hN : 0 < N) :
    Fails (stateSpaceRecursion A (t2 B M zi) x u (some i)) := by
  obtain ⟨s, rfl, hs⟩ := layout_MT3 hA
  obtain ⟨d, x', rfl, hd⟩ := Phil.Lti.layout_XT hx
  unfold stateSpaceRecursion
  rw [stateSpaceRecursionAux]
  refine fails_check fun _ => fails_check fun _ => fails_check fun _ => fails_check fun _ => fails_check fun _ =>
    fails_check fun _ => fails_check fun _ => fails_check fun _ => fails_check fun _ => fails_check fun hu => ?_
  lift u to ℕ using by omega
  rw [Int.toNat_natCast, size_XT_1, size_MT3_n1]
  by_cases hs : u = 1 ∨ u ≥ N
  · rw [if_pos hs]
    exact recursionLoop_bad s d (fun b t => mat M M (Av b t)) zi x' i ho hM hN
  rw [if_neg hs]
  unfold ssrBlocked
  refine fails_bind fun _ _ => fails_bind fun _ _ => fails_bind fun _ _ => fails_bind fun _ _ => fails_bind fun _ _ =>
    fails_bind fun _ _ => fails_bind fun _ _ => fails_bind fun _ _ => fails_bind fun _ _ => fails_bind fun _ _ =>
    fails_bind fun _ _ => fails_bind fun _ _ => fails_bind fun z hz => fails_bind fun r _ => fails_bind fun ini hini => fails_bind fun _ _ =>
    fails_bind fun _ _ => fails_bind fun _ _ => fails_bind fun _ _ => fails_bind fun _ _ => fails_bind fun _ _ => fails_bind fun _ _ => fails_left ?_
  rw [unsqueeze_t2_1] at hz
  cases hz
  rw [cat2, show wrapDim (t3 B 1 M fun b _ j => zi b j).rank 1 = .ok 1 from rfl, ok_bind] at hini
  refine ssrAssemble_bad (B := B) (K := ini.shape.getD 1 0) (M := M) ?_ ho
  by_cases hc : (t3 B 1 M fun b _ j => zi b j).rank = r.rank ∧ (t3 B 1 M fun b _ j => zi b j).shape.eraseIdx 1 = r.shape.eraseIdx 1
  · rw [check, if_pos hc, pure_eq_ok, ok_bind] at hini
    cases hini
    rfl
  · rw [check, if_neg hc] at hini
    cases hini

theorem anyRec_zero (M N : Nat) (u : Int) (A : Nat → Nat → Nat → α) (z : Nat → α) (v : Nat → Nat → α) (m : Nat) :
    anyRec M N u A z v 0 m = z m := blockRec_zero M _ _ _ (by omega) _ _ _ _

theorem anyRec_lin {M N : Nat} (u : Int) (A : Nat → Nat → Nat → α) (c d : α) {z z₁ z₂ : Nat → α} {v v₁ v₂ : Nat → Nat → α}
    (hz : ∀ m, z m = c * z₁ m + d * z₂ m) (hv : ∀ t m, v t m = c * v₁ t m + d * v₂ t m) (t m : Nat) :
    anyRec M N u A z v t m = c * anyRec M N u A z₁ v₁ t m + d * anyRec M N u A z₂ v₂ t m :=
  blockRec_lin _ _ _ _ c d hz hv t m

theorem anyRec_congr {M N T : Nat} {u : Int} (hu : 1 ≤ u) {A A' : Nat → Nat → Nat → α} {z z' : Nat → α} {v v' : Nat → Nat → α}
    (hz : ∀ m, m < M → z m = z' m) (hA : ∀ t, t < T → ∀ i j, i < M → j < M → A t i j = A' t i j)
    (hv : ∀ t, t < T → ∀ m, m < M → v t m = v' t m) {m : Nat} (hm : m < M) :
    anyRec M N u A z v T m = anyRec M N u A' z' v' T m :=
  blockRec_agree (by omega) hz (fun t ht => by ext i j; exact hA t ht i j i.2 j.2) (fun t m ht hm => hv t ht m hm) hm

theorem anyRec_causal {M N T : Nat} {u : Int} (hu : 1 ≤ u) {A A' : Nat → Nat → Nat → α} {z : Nat → α} {v v' : Nat → Nat → α}
    (hA : ∀ t i j, t < T → A t i j = A' t i j) (hv : ∀ t m, t < T → v t m = v' t m) (m : Nat) :
    anyRec M N u A z v T m = anyRec M N u A' z v' T m :=
  blockRec_causal (by omega) (fun t ht => by ext i j; exact hA t i j ht) hv m

theorem anyRec_input {M N T : Nat} {u : Int} (hu : 1 ≤ u) {A : Nat → Nat → Nat → α} {z : Nat → α} {v v' : Nat → Nat → α}
    (hv : ∀ t m, t < T → v t m = v' t m) (m : Nat) : anyRec M N u A z v T m = anyRec M N u A z v' T m :=
  anyRec_causal hu (fun _ _ _ _ => rfl) hv m

variable [StarRing α]

/-- Unroll factors that are not rejected. -/
def UnrollOk (u : Option Int) : Prop := ∀ i, u = some i → 1 ≤ i

theorem UnrollOk.getD {u : Option Int} (hu : UnrollOk u) {N : Nat} (hN : 0 < N) : 1 ≤ u.getD (roundSqrt N) := by
  cases u with
  | none => have := Phil.Lti.roundSqrt_pos hN; simp only [Option.getD_none]; omega
  | some i => exact hu i rfl

theorem UnrollOk.getD_one {u : Option Int} (hu : UnrollOk u) : 1 ≤ u.getD 1 := by
  cases u with
  | none => simp
  | some i => exact hu i rfl

theorem stateSpace_any {B N M : Nat} {A x : Tensor α} {Bm C D zi : Option (Tensor α)} {k : Option Nat}
    {Av : Nat → Nat → Nat → Nat → α} {v d : Nat → Nat → Nat → α} {r : Nat → Nat → (Nat → α) → Nat → α}
    {z : Nat → Nat → α} {u : Option Int} (hA : MatSeq B N M M A Av) (hB : LpvInput B N M Bm x v)
    (hC : LpvReadout B N M C k r) (hD : LpvFeed B N D x k d)
    (hz : InitState B M zi z) (hB0 : 0 < B) (hM : 0 < M) (hN : 0 < N) (hu : UnrollOk u) :
    stateSpace A x Bm C D zi u none =
      .ok (signal k B N fun b t p => r b t (anyRec M N (u.getD (roundSqrt N)) (Av b) (z b) (v b) t) p + d b t p,
        if zi.isSome then some (t2 B M fun b m => anyRec M N (u.getD (roundSqrt N)) (Av b) (z b) (v b) N m) else none) := by
  have e : (fun b m => anyRec M N (u.getD (roundSqrt N)) (Av b) (z b) (v b) 0 m) = z := funext fun b => funext fun m => anyRec_zero ..
  refine stateSpaceWith_eq hA hB hC hD hz hN (fun b => anyRec M N (u.getD (roundSqrt N)) (Av b) (z b) (v b)) (fun _ _ => anyRec_zero ..)
    fun Bx hBx => ?_
  rw [e]
  exact stateSpaceRecursion_any hA hBx z _ none trivial hB0 hM hN (hu.getD hN)

section
variable {B N K P : Nat} {b a : Tensor α} {bv av : Nat → Nat → Nat → α} {zi : Option (Tensor α)} {z : Nat → Nat → α} {u : Option Int}
open Phil.Lti (ok_pair star_comp)

/-- Direct form II: output and state. -/
def anyDf2Out (M N : Nat) (u : Int) (b a : Nat → Nat → α) (z x : Nat → α) (t : Nat) : α :=
  ∑ m ∈ range M, (b t (m + 1) - b t 0 * a t m) * anyRec M N u (fun t => comp (a t)) z (first x) t m + b t 0 * x t

theorem ssmLfilter_df2_any (hb : MatVals B N K b bv) (ha : MatVals B N P a av) (x : Nat → Nat → α)
    (hz : InitState B (max P (K - 1)) zi z) (hBN : b.rank = 2 ∧ a.rank = 2 ∨ B ≠ N) (hB : 0 < B) (hK : 0 < K)
    (hM : 0 < max P (K - 1)) (hN : 0 < N) (hu : UnrollOk u) :
    ssmLfilter b a (t2 B N x) zi .df2 u =
      .ok (t2 B N fun i t => anyDf2Out (max P (K - 1)) N (u.getD (roundSqrt N)) (fun t => zext K (bv i t)) (fun t => zext P (av i t)) (z i) (x i) t,
        if zi.isSome then some (t2 B (max P (K - 1)) fun i m =>
          anyRec (max P (K - 1)) N (u.getD (roundSqrt N)) (fun t => comp (zext P (av i t))) (z i) (first (x i)) N m) else none) := by
  obtain ⟨b', a', e, hb', ha', rb, ra⟩ := padOrders_seq hb ha hK
  obtain ⟨A, eA, hA⟩ := companion_seq ha' hM
  obtain ⟨C, D, eC, hC, hD, rC, rD⟩ := outputCoefs_seq hb' ha'
  rw [rb, ra] at rC
  rw [rb] at rD
  unfold ssmLfilter
  refine bind_step e (bind_step eA (bind_step eC ?_))
  refine (stateSpace_any hA (.none (.scalar x)) (readout_seq hC (hBN.imp (fun h => rC h.1 h.2) id))
    (feed_tvGain hD x (hBN.imp (fun h => rD h.1) id)) hz hB hM hN hu).trans ?_
  rw [signal]
  exact ok_pair rfl rfl

/-- Transposed direct form II: state. -/
def anyTdf2State (M N : Nat) (u : Int) (b a : Nat → Nat → α) (z x : Nat → α) : Nat → Nat → α :=
  anyRec M N u (fun t i j => comp (a t) j i) z fun t i => (b t (i + 1) - b t 0 * a t i) * x t

theorem ssmLfilter_tdf2_any (hb : MatVals B N K b bv) (ha : MatVals B N P a av) (x : Nat → Nat → α)
    (hz : InitState B (max P (K - 1)) zi z) (hBN : b.rank = 2 ∨ B ≠ N) (hB : 0 < B) (hK : 0 < K)
    (hM : 0 < max P (K - 1)) (hN : 0 < N) (hu : UnrollOk u) :
    ssmLfilter b a (t2 B N x) zi .tdf2 u =
      .ok (t2 B N fun i t => anyTdf2State (max P (K - 1)) N (u.getD (roundSqrt N)) (fun t k => star (zext K (bv i t) k))
          (fun t k => star (zext P (av i t) k)) (z i) (x i) t 0 + star (zext K (bv i t) 0) * x i t,
        if zi.isSome then some (t2 B (max P (K - 1)) fun i m => anyTdf2State (max P (K - 1)) N (u.getD (roundSqrt N))
          (fun t k => star (zext K (bv i t) k)) (fun t k => star (zext P (av i t) k)) (z i) (x i) N m) else none) := by
  obtain ⟨b', a', e, hb', ha', rb, ra⟩ := padOrders_seq hb ha hK
  obtain ⟨A, eA, hA⟩ := companion_seq ha' hM
  obtain ⟨C, D, eC, hC, hD, rC, rD⟩ := outputCoefs_seq hb' ha'
  obtain ⟨A', eA', hA'⟩ := mT_conj_seq hA
  rw [rb] at rD
  unfold ssmLfilter
  refine bind_step e (bind_step eA (bind_step eC (bind_step eA' ?_)))
  simp only [star_comp] at hA'
  have hC' := (conj_seq hC).1
  simp only [star_sub, star_mul'] at hC'
  obtain ⟨hD', rD'⟩ := conj_tvGain hD
  have hi : -((max P (K - 1) : Nat) : Int) ≤ 0 ∧ (0 : Int) < (max P (K - 1) : Nat) := by omega
  have e0 : (fun i m => anyTdf2State (max P (K - 1)) N (u.getD (roundSqrt N)) (fun t k => star (zext K (bv i t) k)) (fun t k => star (zext P (av i t) k))
      (z i) (x i) 0 m) = z := funext fun b => funext fun m => anyRec_zero ..
  refine Lpv.stateSpaceWith_idx hA' (input_seq hC' x)
    (feed_tvGain hD' x (hBN.imp (fun h => rD'.trans (rD h)) id)) hz hN hi
    (fun i => anyTdf2State (max P (K - 1)) N (u.getD (roundSqrt N)) (fun t k => star (zext K (bv i t) k)) (fun t k => star (zext P (av i t) k))
      (z i) (x i))
    (fun _ _ => anyRec_zero ..) (fun Bx hBx => ?_) fun Bx hBx => ?_
  · rw [e0]
    exact stateSpaceRecursion_any hA' hBx z _ none trivial hB hM hN (hu.getD hN)
  · rw [e0]
    exact stateSpaceRecursion_any hA' hBx z _ (some 0) hi hB hM hN (hu.getD hN)

theorem ssmLfilter_df1_any (hb : MatVals B N K b bv) (ha : MatVals B N P a av) (x : Nat → Nat → α) (zi : Option (Tensor α)) (hB : 0 < B)
    (hK : 0 < K) (hM : 0 < max P (K - 1)) (hN : 0 < N) (hu : UnrollOk u) :
    ssmLfilter b a (t2 B N x) zi .df1 u =
      .ok (t2 B N fun i t => anyRec (max P (K - 1)) N (u.getD 1) (fun t => comp (zext P (av i t))) (fun _ => 0)
        (first fun t => taps K (bv i t) (causal (x i)) t) (t + 1) 0, none) := by
  obtain ⟨b', a', e, hb', ha', -, -⟩ := padOrders_seq hb ha hK
  obtain ⟨A, eA, hA⟩ := companion_seq ha' hM
  unfold ssmLfilter
  refine bind_step e (bind_step eA ?_)
  rw [size_t2_0, size_matSeq hA]
  refine bind_step (expand_seq hb') (bind_step (fir_direct_none _ _ hN) ?_)
  rw [zeros, full_t2]
  have hi : -((max P (K - 1) : Nat) : Int) ≤ 0 ∧ (0 : Int) < (max P (K - 1) : Nat) := by omega
  refine bind_step (stateSpaceRecursion_any hA (.scalar _) (fun _ _ => 0) _ (some 0) hi hB hM hN hu.getD_one) ?_
  rw [Lti.OT]
  refine ok_pair (t2_congr rfl rfl fun i t hi ht => ?_) rfl
  simp only [taps_zext (K := K) (M := max P (K - 1) + 1) (by omega)]
  rfl

theorem ssmLfilter_tdf1_any (hb : MatVals B N K b bv) (ha : MatVals B N P a av) (x : Nat → Nat → α) (zi : Option (Tensor α)) (hB : 0 < B)
    (hK : 0 < K) (hM : 0 < max P (K - 1)) (hN : 0 < N) (hu : UnrollOk u) :
    ssmLfilter b a (t2 B N x) zi .tdf1 u =
      .ok (t2 B N fun i n => tvConv N (max P (K - 1)) (fun t => zext K (bv i t)) (fun t => anyRec (max P (K - 1)) N (u.getD 1)
        (fun t k j => comp (fun m => star (zext P (av i t) m)) j k) (fun _ => 0) (first (x i)) (t + 1) 0) n, none) := by
  obtain ⟨b', a', e, hb', ha', -, -⟩ := padOrders_seq hb ha hK
  obtain ⟨A, eA, hA⟩ := companion_seq ha' hM
  obtain ⟨A', eA', hA'⟩ := mT_conj_seq hA
  unfold ssmLfilter
  refine bind_step e (bind_step eA ?_)
  rw [size_t2_0, size_matSeq hA]
  refine bind_step (expand_seq (conj_seq hb').1) (bind_step eA' ?_)
  rw [zeros, full_t2]
  have hi : -((max P (K - 1) : Nat) : Int) ≤ 0 ∧ (0 : Int) < (max P (K - 1) : Nat) := by omega
  simp only [star_comp] at hA'
  refine bind_step (stateSpaceRecursion_any hA' (.scalar _) (fun _ _ => 0) _ (some 0) hi hB hM hN hu.getD_one) ?_
  rw [Lti.OT]
  refine (fir_transposed_none _ _ hM hN).trans (ok_pair (t2_congr rfl rfl fun i t hi ht => ?_) rfl)
  simp only [star_star]
  rfl

omit [StarRing α] in
theorem anyDf2Out_lin {M N : Nat} (u : Int) (b a : Nat → Nat → α) (c d : α) {z z₁ z₂ x x₁ x₂ : Nat → α}
    (hz : ∀ m, z m = c * z₁ m + d * z₂ m) (hx : ∀ t, x t = c * x₁ t + d * x₂ t) (t : Nat) :
    anyDf2Out M N u b a z x t = c * anyDf2Out M N u b a z₁ x₁ t + d * anyDf2Out M N u b a z₂ x₂ t := by
  unfold anyDf2Out
  simp only [anyRec_lin u (fun t => comp (a t)) c d hz (first_lin c d hx), hx t]
  rw [show ∀ p q r s : α, c * (p + q) + d * (r + s) = (c * p + d * r) + (c * q + d * s) from fun _ _ _ _ => by ring, mul_sum, mul_sum,
    ← sum_add_distrib]
  congr 1
  · exact sum_congr rfl fun m _ => by ring
  · ring

omit [StarRing α] in
theorem anyDf2Out_causal {M N : Nat} {u : Int} (hu : 1 ≤ u) {b b' a a' : Nat → Nat → α} {z x x' : Nat → α} {t : Nat}
    (hb : ∀ k, b t k = b' t k) (ha : ∀ s k, s ≤ t → a s k = a' s k) (hx : ∀ s, s ≤ t → x s = x' s) :
    anyDf2Out M N u b a z x t = anyDf2Out M N u b' a' z x' t := by
  unfold anyDf2Out
  rw [hx t le_rfl, hb 0]
  refine congrArg (· + _) (sum_congr rfl fun m _ => ?_)
  rw [hb, ha t m le_rfl]
  exact congrArg _ (anyRec_causal hu (fun s i j hs => by rw [show a s = a' s from funext fun k => ha s k (by omega)])
    (fun s m hs => by unfold first; rw [hx s (by omega)]) m)

omit [StarRing α] in
theorem anyTdf2State_lin {M N : Nat} (u : Int) (b a : Nat → Nat → α) (c d : α) {z z₁ z₂ x x₁ x₂ : Nat → α}
    (hz : ∀ m, z m = c * z₁ m + d * z₂ m) (hx : ∀ t, x t = c * x₁ t + d * x₂ t) (t m : Nat) :
    anyTdf2State M N u b a z x t m = c * anyTdf2State M N u b a z₁ x₁ t m + d * anyTdf2State M N u b a z₂ x₂ t m :=
  anyRec_lin u _ c d hz (fun t m => by rw [hx t]; ring) t m

omit [StarRing α] in
theorem anyTdf2State_causal {M N : Nat} {u : Int} (hu : 1 ≤ u) {b b' a a' : Nat → Nat → α} {z x x' : Nat → α} {t m : Nat}
    (hb : ∀ s k, s < t → b s k = b' s k) (ha : ∀ s k, s < t → a s k = a' s k) (hx : ∀ s, s < t → x s = x' s) :
    anyTdf2State M N u b a z x t m = anyTdf2State M N u b' a' z x' t m :=
  anyRec_causal hu (fun s i j hs => by rw [show a s = a' s from funext fun k => ha s k hs])
    (fun s m hs => by rw [hx s hs, hb s _ hs, hb s _ hs, ha s _ hs]) m

end

end Phil.Lpv
