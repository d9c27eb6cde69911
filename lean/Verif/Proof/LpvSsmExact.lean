import Verif.Proof.LpvSsm
import Verif.Proof.MatGeneral

/-!
# The blocked time-varying recursion for every unroll factor

What `state_space_recursion` computes when `matrices_cumdot` is right on the families it meets (`stateSpaceRecursionAux_good`)
and, for any unroll factor, the first output and the output at the end of the first block.
-/

namespace Phil.Mat
open Torch Torch.Tensor Finset
variable {α : Type} [CommRing α] {M : Nat}

/-- What `matrices_cumdot` puts at position `p` for a sequence of `P` matrices. -/
def cd (P : Nat) (F : Nat → Matrix (Fin M) (Fin M) α) (p : Nat) : Matrix (Fin M) (Fin M) α :=
  if P = 1 then F p
  else cumVal P.primeFactorsList (fun r => F (ravel P.primeFactorsList.reverse r.reverse)) (unravel P.primeFactorsList.reverse p).reverse

theorem cumdot_cd (lead : List Nat) {P : Nat} (hP : 1 ≤ P) (f : List Nat → Matrix (Fin M) (Fin M) α) :
    matricesCumdot (tmat (lead ++ [P]) M f) = .ok (tmat (lead ++ [P]) M fun l =>
      cd P (fun k => f (l.take lead.length ++ [k])) (l.getD lead.length 0)) := by
  by_cases h1 : P = 1
  · subst h1
    rw [cumdot_tmat_prime lead (Or.inr rfl)]
    refine congrArg Except.ok (tmat_congr fun l hl => ?_)
    obtain ⟨lb, t, rfl, h1, h2⟩ := inB_split hl
    obtain ⟨k, rfl, hk⟩ := inB1 h2
    obtain rfl : k = 0 := by omega
    rw [take_at (inB_length h1), getD_at (inB_length h1), cd, if_pos rfl]
    simp
  · rw [cumdot_tmat lead P (by omega)]
    refine congrArg Except.ok (tmat_congr fun l hl => ?_)
    rw [cd, if_neg h1]

theorem cumdot_t3_cd {P : Nat} (hP : 1 ≤ P) (F : Nat → Matrix (Fin M) (Fin M) α) :
    matricesCumdot (t3 P M M fun k => fm (F k)) = .ok (t3 P M M fun k => fm (cd P F k)) := by
  rw [t3_tmat, t3_tmat]
  exact cumdot_cd [] hP _

theorem t4_tmat {K P : Nat} (A : Nat → Nat → Matrix (Fin M) (Fin M) α) :
    t4 K P M M (fun k j => fm (A k j)) = tmat ([K] ++ [P]) M fun l => A (l.getD 0 0) (l.getD 1 0) := by
  refine eq_tmat rfl fun lb i j hl hi hj => ?_
  obtain ⟨k, p, rfl, hk, hp⟩ := inB2 hl
  exact get_t4 hk hp hi hj

theorem t5_tmat {B K P : Nat} (A : Nat → Nat → Nat → Matrix (Fin M) (Fin M) α) :
    t5 B K P M M (fun b k j => fm (A b k j)) = tmat ([B, K] ++ [P]) M fun l => A (l.getD 0 0) (l.getD 1 0) (l.getD 2 0) := by
  refine eq_tmat rfl fun lb i j hl hi hj => ?_
  obtain ⟨b, lb, rfl, hb, hl⟩ := inB_cons hl
  obtain ⟨k, p, rfl, hk, hp⟩ := inB2 hl
  exact get_t5 hb hk hp hi hj

theorem cumdot_t4_cd {K P : Nat} (hP : 1 ≤ P) (A : Nat → Nat → Matrix (Fin M) (Fin M) α) :
    matricesCumdot (t4 K P M M fun k j => fm (A k j)) = .ok (t4 K P M M fun k j => fm (cd P (A k) j)) := by
  rw [t4_tmat, t4_tmat, cumdot_cd [K] hP]
  refine congrArg Except.ok (tmat_congr fun l hl => ?_)
  obtain ⟨k, p, rfl, hk, hp⟩ := inB2 hl
  rfl

theorem cumdot_t5_cd {B K P : Nat} (hP : 1 ≤ P) (A : Nat → Nat → Nat → Matrix (Fin M) (Fin M) α) :
    matricesCumdot (t5 B K P M M fun b k j => fm (A b k j)) = .ok (t5 B K P M M fun b k j => fm (cd P (A b k) j)) := by
  rw [t5_tmat, t5_tmat, cumdot_cd [B, K] hP]
  refine congrArg Except.ok (tmat_congr fun l hl => ?_)
  obtain ⟨b, lb, rfl, hb, hl⟩ := inB_cons hl
  obtain ⟨k, p, rfl, hk, hp⟩ := inB2 hl
  rfl

theorem t3_fm_inj {P : Nat} {A B : Nat → Matrix (Fin M) (Fin M) α}
    (h : (Except.ok (t3 P M M fun k => fm (A k)) : Res (Tensor α)) = .ok (t3 P M M fun k => fm (B k))) {k : Nat} (hk : k < P) : A k = B k := by
  rw [t3_tmat, t3_tmat] at h
  exact tmat_inj (Except.ok.inj h) (l := [k]) (by simp [inB, hk])

theorem cd_prime {P : Nat} (hP : P.Prime ∨ P = 1) (F : Nat → Matrix (Fin M) (Fin M) α) {p : Nat} (hp : p < P) :
    cd P F p = ((List.range (p + 1)).map F).prod := by
  have h1 : 1 ≤ P := by rcases hP with h | h; exacts [h.pos, by omega]
  exact t3_fm_inj ((cumdot_t3_cd h1 F).symm.trans (cumdot_t3 F hP)) hp

theorem cd_commuting {P : Nat} (h1 : 1 ≤ P) (hP : P.primeFactorsList.length ≤ 2) (F : Nat → Matrix (Fin M) (Fin M) α)
    (hc : ∀ i j, Commute (F i) (F j)) {p : Nat} (hp : p < P) : cd P F p = ((List.range (p + 1)).map F).prod := by
  rcases Nat.lt_or_ge P.primeFactorsList.length 2 with h2 | h2
  · refine cd_prime ?_ F hp
    rcases Nat.eq_zero_or_pos P.primeFactorsList.length with h0 | h0
    · have := (Nat.primeFactorsList_eq_nil P).1 (List.length_eq_zero_iff.1 h0)
      exact Or.inr (by omega)
    · obtain ⟨p, hp⟩ := List.length_eq_one_iff.1 (by omega : P.primeFactorsList.length = 1)
      refine Or.inl ?_
      have h1 := Nat.prod_primeFactorsList (n := P) (by omega)
      rw [hp, List.prod_singleton] at h1
      rw [← h1]
      exact Nat.prime_of_mem_primeFactorsList (n := P) (hp ▸ by simp)
  · obtain ⟨q, n, hf⟩ := List.length_eq_two.1 (by omega : P.primeFactorsList.length = 2)
    have h := cumdot_t3_cd h1 F
    rw [t3_tmat, show ([P] : List Nat) = [] ++ [P] from rfl,
      cumdot_tmat_semiprime [] hf (fun l => F (l.getD 0 0)) fun l i j hl _ _ => hc _ _, t3_tmat] at h
    exact (tmat_inj (Except.ok.inj h) (l := [p]) (by simp [inB, hp])).symm

theorem cd_second {P q n : Nat} {rs : List Nat} (hf : P.primeFactorsList = q :: n :: rs) (F : Nat → Matrix (Fin M) (Fin M) α) :
    cd P F q = F q * ((List.range q).map F).prod := by
  have h0 : 1 ≤ P := by
    by_contra hc
    have := (Nat.primeFactorsList_eq_nil (n := P)).2 (by omega)
    rw [hf] at this; simp at this
  exact cumdot_second hf (cumdot_t3_cd h0 F)

theorem cd_third {P q n n' : Nat} {rs : List Nat} (hf : P.primeFactorsList = q :: n :: n' :: rs) (F : Nat → Matrix (Fin M) (Fin M) α) :
    cd P F (n * q) = F (n * q) := by
  have h0 : 1 ≤ P := by
    by_contra hc
    have := (Nat.primeFactorsList_eq_nil (n := P)).2 (by omega)
    rw [hf] at this; simp at this
  exact cumdot_third hf (cumdot_t3_cd h0 F)

end Phil.Mat

namespace Phil.Lpv
open Torch Torch.Tensor Finset Spec Phil.Mat
open Phil.Lti (XT xe OT OV OT_congr dQ dW dK dR sum_dQ xe_shift xe_pad padBlocksXT rank_XT size_XT_0 size_XT_1 input3)
variable {α : Type} [CommRing α]

/-- The products `A_cums` of one block: `cums A w j` for the block starting at `w`. -/
def cumsAt {M : Nat} (u : Nat) (A : Nat → Matrix (Fin M) (Fin M) α) (w j : Nat) : Matrix (Fin M) (Fin M) α :=
  cd (u - 1) (fun p => A (w + (u - 1 - 1 - p + 1))) (u - 1 - 1 - j)

theorem cums_cd (s : Bool) {B M u K : Nat} (hu : 1 < u) (A : Nat → Nat → Matrix (Fin M) (Fin M) α) :
    ssrCums (MT4 s B K u M M fun b k t => fm (A b (k * u + t))) =
      .ok (MT4 s B K (u - 1) M M fun b k j => fm (cumsAt u (A b) (k * u) j)) := by
  unfold ssrCums
  cases s
  · simp only [MT4]
    refine bind_step (v := t4 K (u - 1) M M fun k j => fm (A 0 (k * u + (j + 1)))) ?_ ?_
    · tens1
      rw [show min 1 u = 1 by omega]
    refine bind_step (flip_t4_n3 _ _ _ _ _) ?_
    refine bind_step (cumdot_t4_cd (by omega) (fun k p => A 0 (k * u + (u - 1 - 1 - p + 1)))) ?_
    rw [flip_t4_n3]
    rfl
  · simp only [MT4]
    refine bind_step (v := t5 B K (u - 1) M M fun b k j => fm (A b (k * u + (j + 1)))) ?_ ?_
    · tens1
      rw [show min 1 u = 1 by omega]
    refine bind_step (flip_t5_n3 _ _ _ _ _ _) ?_
    refine bind_step (cumdot_t5_cd (by omega) (fun b k p => A b (k * u + (u - 1 - 1 - p + 1)))) ?_
    rw [flip_t5_n3]
    rfl

theorem lastCum_any (s : Bool) {B M u K : Nat} (hu : 1 < u) (A : Nat → Nat → Matrix (Fin M) (Fin M) α)
    (C : Nat → Nat → Nat → Matrix (Fin M) (Fin M) α) :
    ssrLastCum (MT4 s B K (u - 1) M M fun b k j => fm (C b k j)) (MT4 s B K u M M fun b k t => fm (A b (k * u + t))) =
      .ok (MT3 s B K M M fun b k => fm (C b k 0 * A b (k * u))) := by
  unfold ssrLastCum
  cases s
  · simp only [MT4, MT3]
    refine bind_step (select_t4_n3_0 _ _ _ _ _ (by omega)) (bind_step (select_t4_n3_0 _ _ _ _ _ (by omega)) ?_)
    rw [matmul_fm3]; rfl
  · simp only [MT4, MT3]
    refine bind_step (select_t5_n3_0 _ _ _ _ _ _ (by omega)) (bind_step (select_t5_n3_0 _ _ _ _ _ _ (by omega)) ?_)
    rw [matmul_fm4]; rfl

theorem cumsPlusI_any (s : Bool) {B M u K : Nat} (hu : 1 < u) (C : Nat → Nat → Nat → Matrix (Fin M) (Fin M) α) :
    ssrCumsPlusI (MT4 s B K (u - 1) M M fun b k j => fm (C b k j)) M =
      .ok (MT4 s B K u M M fun b k w => fm (if w < u - 1 then C b k w else 1)) := by
  unfold ssrCumsPlusI
  cases s
  · simp only [MT4]
    refine bind_step (v := t4 K 1 M M fun _ _ => fm (1 : Matrix (Fin M) (Fin M) α)) ?_ ?_
    · rw [eye]
      exact (expand_pq_nmpq _ _ _ _ _).trans (congrArg Except.ok (t4_congr rfl rfl rfl rfl fun _ _ i j _ _ hi hj => (fm_one i j hi).symm))
    rw [cat2_t4_n3]
    refine congrArg Except.ok (t4_congr rfl (by omega) rfl rfl fun k w i j _ hw _ _ => ?_)
    split <;> rfl
  · simp only [MT4]
    refine bind_step (v := t5 B K 1 M M fun _ _ _ => fm (1 : Matrix (Fin M) (Fin M) α)) ?_ ?_
    · rw [eye]
      exact (expand_qr_nmpqr _ _ _ _ _ _).trans (congrArg Except.ok (t5_congr rfl rfl rfl rfl rfl fun _ _ _ i j _ _ _ hi hj => (fm_one i j hi).symm))
    rw [cat2_t5_n3]
    refine congrArg Except.ok (t5_congr rfl rfl (by omega) rfl rfl fun b k w i j _ _ hw _ _ => ?_)
    split <;> rfl

/-- The states before the blocks: the initial state, then the results of the recursive call. -/
def blkInit (zi : Nat → Nat → α) (R : Nat → Nat → Nat → α) (b k m : Nat) : α := if k = 0 then zi b m else R b (k - 1) m

/-- The state after `T` steps: run inside the block of `T` from the state before that block. -/
def blkState (M u : Nat) (A : Nat → Nat → Nat → α) (init : Nat → Nat → α) (x : Nat → Nat → α) (T m : Nat) : α :=
  vecRec M (fun t => A (T / u * u + t)) (init (T / u)) (fun t => x (T / u * u + t)) (T % u) m

theorem blkState_at {M u : Nat} {A : Nat → Nat → Nat → α} {init : Nat → Nat → α} {x : Nat → Nat → α} {k r m : Nat} (hr : r < u) :
    blkState M u A init x (k * u + r) m = vecRec M (fun t => A (k * u + t)) (init k) (fun t => x (k * u + t)) r m := by
  unfold blkState
  have h1 : (k * u + r) / u = k := by rw [Nat.mul_comm, Nat.mul_add_div (by omega), Nat.div_eq_of_lt hr, Nat.add_zero]
  have h2 : (k * u + r) % u = r := by rw [Nat.mul_comm, Nat.mul_add_mod, Nat.mod_eq_of_lt hr]
  rw [h1, h2]

/-- One level of the blocked algorithm, whatever `matrices_cumdot` and the recursive call return. -/
theorem blocked_any {looper : Tensor α → Tensor α → Tensor α → Option Int → Res (Tensor α)} {M : Nat} (hl : LooperOk M looper)
    (rec : Tensor α → Tensor α → Tensor α → Res (Tensor α)) (s d : Bool) {B N u : Nat}
    (A : Nat → Nat → Matrix (Fin M) (Fin M) α) (zi : Nat → Nat → α) (x : Nat → Nat → Nat → α) (o : Option Int)
    (ho : OV M o) (hB : 0 < B) (hM : 0 < M) (hu : 1 < u) (huN : u < N) :
    ∃ K, 0 < K ∧ K < N ∧ N ≤ K * u ∧ K = (N + u - 1) / u ∧ ∃ Ap xp, Ap = (fun b t => if t < N then A b t else 0) ∧ (xp = fun b t k => if t < N then x b t k else 0) ∧
      ∀ R, rec (MT3 s B K M M fun b k => fm (cumsAt u (Ap b) (k * u) 0 * Ap b (k * u))) (t2 B M zi)
        (t3 B K M fun b k i => ∑ w ∈ range u, ∑ j ∈ range M, xe d (xp b) (k * u + w) j *
          fm (if w < u - 1 then cumsAt u (Ap (sel s b)) (k * u) w else 1) i j) = .ok (t3 B K M R) →
      ssrBlocked looper rec (MT3 s B N M M fun b t => fm (A b t)) (t2 B M zi) (XT d B N M x) u N M o =
        .ok (OT o B N M fun b t m => blkState M u (fun t => fm (Ap (sel s b) t)) (blkInit zi R b) (xe d (xp b)) (t + 1) m) := by
  obtain ⟨K, hK0, hKN, hNK, hK1, hK2, hpad⟩ := padBlocksXT d (B := B) (M := M) x hu huN
  obtain ⟨xp, hxp⟩ : ∃ xp : Nat → Nat → Nat → α, xp = fun b t k => if t < N then x b t k else 0 := ⟨_, rfl⟩
  obtain ⟨Ap, hAp⟩ : ∃ Ap : Nat → Nat → Matrix (Fin M) (Fin M) α, Ap = fun b t => if t < N then A b t else 0 := ⟨_, rfl⟩
  have hKu : K = (N + u - 1) / u := by
    refine (Nat.div_eq_of_lt_le (by omega) ?_).symm
    rw [Nat.add_mul, Nat.one_mul]
    have := Nat.mod_lt N (show u > 0 by omega)
    by_cases h : N % u = 0
    · rw [hK1 h]; omega
    · rw [hK2 h]; omega
  refine ⟨K, hK0, hKN, hNK, hKu, Ap, xp, hAp, hxp, fun R hR => ?_⟩
  rw [← hxp] at hpad
  unfold ssrBlocked
  refine bind_step hpad (bind_step (padA s A hK1 hK2) ?_)
  rw [show (fun b t => fm (if t < N then A b t else 0)) = fun b t => fm (Ap b t) by rw [hAp]]
  clear hxp hpad hAp
  obtain ⟨ux, hux, huxf, hux0⟩ := unrolledX d (B := B) (K := K) (u := u) (M := M) (by omega) xp
  refine bind_step hux (bind_step huxf (bind_step (unrollA s (by omega) Ap) ?_))
  refine bind_step (cums_cd s hu Ap) (bind_step (lastCum_any s hu Ap _) (bind_step (cumsPlusI_any s hu _) ?_))
  rw [rank_XT, size_XT_0]
  refine bind_step (mat1_eq s d hM fun b k w => if w < u - 1 then cumsAt u (Ap b) (k * u) w else 1) ?_
  rw [bind_assoc3 (z_eq s _ _)]
  refine bind_step (unsqueeze_t2_1 _ _ _) ?_
  refine bind_step (v := t3 B K M R) ?_ ?_
  · rw [← hR]
    congr 1
    refine t3_congr rfl rfl rfl fun b k m _ _ hm => ?_
    rw [sum_dQ d u M hM (fun w j => xp b (k * u + w) j) fun w j => fm (if w < u - 1 then cumsAt u (Ap (sel s b)) (k * u) w else 1) m j]
    refine sum_congr rfl fun w _ => sum_congr rfl fun j _ => ?_
    rw [xe_shift d (xp b)]
  let st : Nat → Nat → Nat → α := fun b T m => blkState M u (fun t => fm (Ap (sel s b) t)) (blkInit zi R b) (xe d (xp b)) T m
  have hst0 : ∀ b k m, st b (k * u) m = blkInit zi R b k m := fun b k m => blkState_at (r := 0) (by omega)
  refine bind_step (v := t3 B (K + 1) M fun b k m => st b (k * u) m) ?_ ?_
  · rw [cat2_t3_1]
    refine congrArg Except.ok (t3_congr rfl (by omega) rfl fun b k m _ hk hm => ?_)
    rw [hst0, blkInit]
    by_cases h0 : k = 0
    · rw [if_pos h0, if_pos (by omega)]
    · rw [if_neg h0, if_neg (by omega)]
  refine bind_step (innerA s Ap) ?_
  refine bind_step (v := t3 B K M fun b k m => st b (k * u) m) (by tens1; rfl) ?_
  refine bind_step (flatten_t3_0_1 _ _ _ _) ?_
  obtain ⟨y0, hy0, hy0'⟩ : ∃ v, slice ux 2 none (some (-1)) = .ok v ∧ flatten v 0 1 =
      Except.ok (XT d (B * K) (u - 1) M fun r t k => xp (r / K) (r % K * u + t) k) := by
    cases hv : slice ux 2 none (some (-1)) with
    | error e => rw [hv] at hux0; cases hux0
    | ok v => exact ⟨v, rfl, by rw [hv] at hux0; exact hux0⟩
  refine bind_step hy0 (bind_step hy0' ?_)
  refine bind_step (hl true d (fun r t => Ap (sel s (r / K)) (r % K * u + t)) _ _ o ho hM (by omega)) ?_
  refine bind_step (unflattenO o hB _) ?_
  refine bind_step (v := OT o B (K * u) M fun b t m => st b (t + 1) m) ?_ ?_
  · rw [← assemble_eq hu o ho st]
    congr 1
    refine OB_congr ho fun b k t m _ hk ht hm => ?_
    have h1 : (b * K + k) / K = b := by
      rw [Nat.add_comm, Nat.add_mul_div_right _ _ hK0, Nat.div_eq_of_lt hk, Nat.zero_add]
    have h2 : (b * K + k) % K = k := by
      rw [Nat.add_comm, Nat.add_mul_mod_self_right, Nat.mod_eq_of_lt hk]
    simp only [h1, h2]
    rw [show sel true (b * K + k) = b * K + k from rfl, h1, h2]
    refine Eq.trans ?_ (blkState_at (by omega : t + 1 < u)).symm
    exact vecRec_congr (fun i _ => hst0 b k i) (fun _ _ _ _ _ _ => rfl) (fun w _ j _ => xe_shift d (xp b) _ _ _) hm
  split
  · rename_i hm
    have hp := Nat.mod_lt N (show u > 0 by omega)
    have hsl : slice (OT o B (K * u) M fun b t m => st b (t + 1) m) 1 none (some (-((u - N % u : Nat) : Int))) =
        .ok (OT o B (K * u - (u - N % u)) M fun b t m => st b (t + 1) m) := by
      cases o
      · simp only [OT]
        rw [slice_t3_1, pyStop_neg _ _ (by omega), pyStart_none]; rfl
      · simp only [OT]
        rw [slice_t2_1, pyStop_neg _ _ (by omega), pyStart_none]; rfl
    rw [hsl, hK2 hm]
    exact congrArg Except.ok (OT_congr ho rfl (by omega) fun b t m _ ht hm => rfl)
  · rename_i hm
    rw [hK1 (by omega), pure_eq_ok]

theorem aux_unfold (looper : Tensor α → Tensor α → Tensor α → Option Int → Res (Tensor α)) (u : Nat) (hu : 0 < u) (fuel : Nat) (s d : Bool)
    {B N M : Nat} (A : Nat → Nat → Matrix (Fin M) (Fin M) α) (zi : Nat → Nat → α) (x : Nat → Nat → Nat → α) (o : Option Int) :
    stateSpaceRecursionAux looper (u : Int) (fuel + 1) (MT3 s B N M M fun b t => fm (A b t)) (t2 B M zi) (XT d B N M x) o =
      if u = 1 ∨ u ≥ N then looper (MT3 s B N M M fun b t => fm (A b t)) (t2 B M zi) (XT d B N M x) o
      else ssrBlocked looper (fun A zi x => stateSpaceRecursionAux looper u fuel A zi x none) (MT3 s B N M M fun b t => fm (A b t)) (t2 B M zi)
        (XT d B N M x) u N M o := by
  rw [stateSpaceRecursionAux]
  refine check_step (by cases d <;> simp [XT]) (check_step (rank_MT3 _ _ _ _ _ _) (check_step ?_ (check_step ?_ (check_step ?_
    (check_step ?_ (check_step rfl (check_step ?_ (check_step ?_ (check_step (by omega) ?_)))))))))
  · rw [size_MT3_n1, size_MT3_n2]
  · rw [size_MT3_n3, size_XT_1]
  · intro h; rw [rank_MT3_size _ _ _ _ _ _ h, size_XT_0]
  · intro h; rw [size_MT3_n1]; cases d
    · exact absurd h (by simp [XT])
    · rfl
  · rw [size_XT_0]; rfl
  · rw [size_MT3_n1]; rfl
  rw [Int.toNat_natCast, size_XT_1, size_MT3_n1]

/-- `A_cums` of every block is right. -/
def CumsOk {M : Nat} (u : Nat) (A : Nat → Matrix (Fin M) (Fin M) α) : Prop :=
  ∀ w j, j < u - 1 → cumsAt u A w j = mprod A (w + (j + 1)) (u - 1 - j)

theorem prefix_mprod {M : Nat} (A : Nat → Matrix (Fin M) (Fin M) α) (u w j : Nat) (hj : j < u - 1) :
    ((List.range (u - 1 - 1 - j + 1)).map fun p => A (w + (u - 1 - 1 - p + 1))).prod = mprod A (w + (j + 1)) (u - 1 - j) := by
  rw [← list_mprod, show u - 1 - 1 - j + 1 = u - 1 - j by omega]
  congr 1
  refine List.map_congr_left fun p hp => ?_
  rw [List.mem_range] at hp
  congr 1
  omega

/-- The recursion is right on every class of matrix sequences for which `A_cums` is, provided that the class is closed
under padding with zeros and under blocking. -/
theorem aux_good {looper : Tensor α → Tensor α → Tensor α → Option Int → Res (Tensor α)} {M : Nat} (hl : LooperOk M looper)
    (Good : (Nat → Matrix (Fin M) (Fin M) α) → Prop) (u : Nat) (hu : 0 < u) (hg1 : ∀ A, Good A → CumsOk u A)
    (hg2 : ∀ A N, Good A → Good fun t => if t < N then A t else 0) (hg3 : ∀ A, Good A → Good fun k => mprod A (k * u) u)
    (fuel : Nat) (s d : Bool) {B N : Nat} (A : Nat → Nat → Matrix (Fin M) (Fin M) α) (hA : ∀ b, Good (A b)) (zi : Nat → Nat → α)
    (x : Nat → Nat → Nat → α) (o : Option Int) (ho : OV M o) (hB : 0 < B) (hM : 0 < M) (hN : 0 < N) (hf : N < fuel) :
    stateSpaceRecursionAux looper (u : Int) fuel (MT3 s B N M M fun b t => fm (A b t)) (t2 B M zi) (XT d B N M x) o =
      .ok (OT o B N M fun b t m => vecRec M (fun t => fm (A (sel s b) t)) (zi b) (xe d (x b)) (t + 1) m) := by
  induction fuel generalizing d N A x o with
  | zero => omega
  | succ fuel ih =>
    rw [aux_unfold looper u hu]
    by_cases hs : u = 1 ∨ u ≥ N
    · rw [if_pos hs]
      exact hl s d A zi x o ho hM hN
    rw [if_neg hs]
    push Not at hs
    obtain ⟨K, hK0, hKN, hNK, -, Ap, xp, hAp, hxp, key⟩ := blocked_any hl (fun A zi x => stateSpaceRecursionAux looper u fuel A zi x none) s d A zi x o
      ho hB hM (by omega : 1 < u) hs.2
    have hxe : ∀ b t k, t < N → xe d (xp b) t k = xe d (x b) t k := by
      intro b t k ht; rw [hxp]; exact xe_pad d (x b) N t k ht
    have hAt : ∀ b t, t < N → Ap b t = A b t := by
      intro b t ht; rw [hAp]; exact if_pos ht
    have hApG : ∀ b, Good (Ap b) := fun b => by rw [hAp]; exact hg2 _ _ (hA b)
    have hC := fun b => hg1 _ (hApG b)
    have hlast : ∀ b k, cumsAt u (Ap b) (k * u) 0 * Ap b (k * u) = mprod (Ap b) (k * u) u := by
      intro b k
      rw [hC b _ _ (by omega)]
      obtain ⟨n, rfl⟩ : ∃ n, u = n + 1 := ⟨u - 1, by omega⟩
      rw [mprod_succ_right]; rfl
    have hI : ∀ b k w, w < u → (if w < u - 1 then cumsAt u (Ap b) (k * u) w else 1) = mprod (Ap b) (k * u + (w + 1)) (u - 1 - w) := by
      intro b k w hw
      split
      · rename_i h; exact hC b _ _ h
      · rw [show u - 1 - w = 0 by omega]; rfl
    have hr := ih true (N := K) (fun b k => mprod (Ap b) (k * u) u) (fun b => hg3 _ (hApG b))
      (fun b k i => ∑ w ∈ range u, ∑ j ∈ range M, xe d (xp b) (k * u + w) j *
          fm (if w < u - 1 then cumsAt u (Ap (sel s b)) (k * u) w else 1) i j) none trivial hK0 (by omega)
    simp only [← hlast] at hr
    rw [key (fun b t m => vecRec M (fun t => fm (cumsAt u (Ap (sel s b)) (t * u) 0 * Ap (sel s b) (t * u))) (zi b)
        (xe true fun k i => ∑ w ∈ range u, ∑ j ∈ range M, xe d (xp b) (k * u + w) j *
          fm (if w < u - 1 then cumsAt u (Ap (sel s b)) (k * u) w else 1) i j) (t + 1) m) hr]
    refine congrArg Except.ok (OT_congr ho rfl rfl fun b t m _ ht hm => ?_)
    have hinit : ∀ k m, m < M → blkInit zi (fun b t m => vecRec M (fun t => fm (cumsAt u (Ap (sel s b)) (t * u) 0 * Ap (sel s b) (t * u))) (zi b)
        (xe true fun k i => ∑ w ∈ range u, ∑ j ∈ range M, xe d (xp b) (k * u + w) j *
          fm (if w < u - 1 then cumsAt u (Ap (sel s b)) (k * u) w else 1) i j) (t + 1) m) b k m =
        vecRec M (fun t => fm (Ap (sel s b) t)) (zi b) (xe d (xp b)) (k * u) m := by
      intro k m hm
      rw [← vecRec_block_var _ _ _ _ _ hm, blkInit]
      by_cases h0 : k = 0
      · rw [if_pos h0, h0]; rfl
      rw [if_neg h0, Nat.sub_add_cancel (by omega)]
      refine vecRec_congr (fun _ _ => rfl) (fun k _ i j _ _ => by rw [hlast]) (fun k _ i hi => ?_) hm
      refine sum_congr rfl fun w hw => sum_congr rfl fun j _ => ?_
      rw [hI _ _ _ (mem_range.1 hw), mul_comm]
    have hdm := Nat.div_add_mod' (t + 1) u
    have hmod := Nat.mod_lt (t + 1) (show u > 0 by omega)
    rw [blkState]
    rw [vecRec_congr (fun i hi => hinit _ i hi) (fun _ _ _ _ _ _ => rfl) (fun _ _ _ _ => rfl) hm]
    refine (congrFun (vecRec_add M (fun t => fm (Ap (sel s b) t)) (zi b) (xe d (xp b)) _ _) m).symm.trans ?_
    rw [hdm]
    exact vecRec_congr (fun _ _ => rfl) (fun j hj _ _ _ _ => by rw [hAt _ j (by omega)]) (fun j hj i _ => hxe b j i (by omega)) hm

/-- The recursion returns a value for every unroll factor, and its first output is right. -/
theorem aux_first {looper : Tensor α → Tensor α → Tensor α → Option Int → Res (Tensor α)} {M : Nat} (hl : LooperOk M looper)
    (u : Nat) (hu : 0 < u) (fuel : Nat) (s d : Bool) {B N : Nat} (A : Nat → Nat → Matrix (Fin M) (Fin M) α) (zi : Nat → Nat → α)
    (x : Nat → Nat → Nat → α) (o : Option Int) (ho : OV M o) (hB : 0 < B) (hM : 0 < M) (hN : 0 < N) (hf : N < fuel) :
    ∃ y, stateSpaceRecursionAux looper (u : Int) fuel (MT3 s B N M M fun b t => fm (A b t)) (t2 B M zi) (XT d B N M x) o =
      .ok (OT o B N M y) ∧ ∀ b m, y b 0 m = ∑ k ∈ range M, fm (A (sel s b) 0) m k * zi b k + xe d (x b) 0 m := by
  induction fuel generalizing d N A x o with
  | zero => omega
  | succ fuel ih =>
    rw [aux_unfold looper u hu]
    by_cases hs : u = 1 ∨ u ≥ N
    · rw [if_pos hs]
      exact ⟨_, hl s d A zi x o ho hM hN, fun b m => rfl⟩
    rw [if_neg hs]
    push Not at hs
    obtain ⟨K, hK0, hKN, hNK, -, Ap, xp, hAp, hxp, key⟩ := blocked_any hl (fun A zi x => stateSpaceRecursionAux looper u fuel A zi x none) s d A zi x o
      ho hB hM (by omega : 1 < u) hs.2
    obtain ⟨R, hR, -⟩ := ih true (N := K) (fun b k => cumsAt u (Ap b) (k * u) 0 * Ap b (k * u))
      (fun b k i => ∑ w ∈ range u, ∑ j ∈ range M, xe d (xp b) (k * u + w) j *
          fm (if w < u - 1 then cumsAt u (Ap (sel s b)) (k * u) w else 1) i j) none trivial hK0 (by omega)
    refine ⟨_, key R hR, fun b m => ?_⟩
    have h1 := blkState_at (M := M) (u := u) (A := fun t => fm (Ap (sel s b) t)) (init := blkInit zi R b) (x := xe d (xp b)) (k := 0) (r := 1) (m := m)
      (by omega)
    rw [Nat.zero_mul, Nat.zero_add] at h1
    rw [Nat.zero_add, h1]
    simp only [vecRec, Nat.zero_add]
    rw [show blkInit zi R b 0 = zi b from funext fun m => if_pos rfl, hAp, hxp]
    simp only [if_pos hN]
    congr 1
    exact xe_pad d (x b) N 0 m hN

/-- The output at the end of the first block, for every unroll factor below the length. -/
theorem aux_block {looper : Tensor α → Tensor α → Tensor α → Option Int → Res (Tensor α)} {M : Nat} (hl : LooperOk M looper)
    (u : Nat) (hu : 1 < u) (fuel : Nat) (s d : Bool) {B N : Nat} (A : Nat → Nat → Matrix (Fin M) (Fin M) α) (zi : Nat → Nat → α)
    (x : Nat → Nat → Nat → α) (o : Option Int) (ho : OV M o) (hB : 0 < B) (hM : 0 < M) (hN : u < N) (hf : N < fuel) :
    ∃ y, stateSpaceRecursionAux looper (u : Int) fuel (MT3 s B N M M fun b t => fm (A b t)) (t2 B M zi) (XT d B N M x) o =
      .ok (OT o B N M y) ∧ ∀ b m, y b (u - 1) m = ∑ k ∈ range M, fm (cumsAt u (A (sel s b)) 0 0 * A (sel s b) 0) m k * zi b k +
        ∑ w ∈ range u, ∑ j ∈ range M, xe d (x b) w j * fm (if w < u - 1 then cumsAt u (A (sel s b)) 0 w else 1) m j := by
  obtain ⟨fuel, rfl⟩ : ∃ n, fuel = n + 1 := ⟨fuel - 1, by omega⟩
  rw [aux_unfold looper u (by omega), if_neg (by omega)]
  obtain ⟨K, hK0, hKN, hNK, -, Ap, xp, hAp, hxp, key⟩ := blocked_any hl (fun A zi x => stateSpaceRecursionAux looper u fuel A zi x none) s d A zi x o
    ho hB hM hu hN
  obtain ⟨R, hR, hR0⟩ := aux_first hl u (by omega) fuel s true (N := K) (fun b k => cumsAt u (Ap b) (k * u) 0 * Ap b (k * u)) zi
    (fun b k i => ∑ w ∈ range u, ∑ j ∈ range M, xe d (xp b) (k * u + w) j *
        fm (if w < u - 1 then cumsAt u (Ap (sel s b)) (k * u) w else 1) i j) none trivial hB hM hK0 (by omega)
  refine ⟨_, key R hR, fun b m => ?_⟩
  have h1 := blkState_at (M := M) (u := u) (A := fun t => fm (Ap (sel s b) t)) (init := blkInit zi R b) (x := xe d (xp b)) (k := 1) (r := 0) (m := m)
    (by omega)
  rw [Nat.one_mul, Nat.add_zero] at h1
  rw [Nat.sub_add_cancel (by omega), h1]
  simp only [vecRec]
  rw [blkInit, if_neg (by omega), Nat.sub_self, hR0]
  have hcs : ∀ b j, cumsAt u (Ap b) 0 j = cumsAt u (A b) 0 j := by
    intro b j
    unfold cumsAt
    congr 1
    funext p
    rw [hAp]
    exact if_pos (by omega)
  simp only [Nat.zero_mul, hcs]
  congr 1
  · rw [hAp]; simp only [if_pos (by omega : 0 < N)]
  · refine sum_congr rfl fun w hw => sum_congr rfl fun j _ => ?_
    rw [Nat.zero_mul, Nat.zero_add, hcs]
    congr 1
    rw [hxp]
    rw [mem_range] at hw
    exact xe_pad d (x b) N w j (by omega)

/-! ## Which unroll factors are right -/

theorem cumsOk_prime {M u : Nat} (hP : (u - 1).Prime ∨ u - 1 = 1) (A : Nat → Matrix (Fin M) (Fin M) α) : CumsOk u A := by
  intro w j hj
  rw [cumsAt, cd_prime hP _ (by omega), prefix_mprod A u w j hj]

theorem cumsOk_commuting {M u : Nat} (hu : 1 < u) (hP : (u - 1).primeFactorsList.length ≤ 2) (A : Nat → Matrix (Fin M) (Fin M) α)
    (hc : ∀ i j, Commute (A i) (A j)) : CumsOk u A := by
  intro w j hj
  rw [cumsAt, cd_commuting (by omega) hP _ (fun i j => hc _ _) (by omega), prefix_mprod A u w j hj]

theorem mprod_commute {M : Nat} {A : Nat → Matrix (Fin M) (Fin M) α} (B : Matrix (Fin M) (Fin M) α)
    (hB : ∀ i, Commute (A i) B) (w n : Nat) : Commute (mprod A w n) B := by
  induction n with
  | zero => exact Commute.one_left _
  | succ n ih => exact (hB _).mul_left ih

theorem stateSpaceRecursion_commuting (u : Nat) (hu : 0 < u) (hP : u ≤ 2 ∨ (u - 1).primeFactorsList.length ≤ 2) (s d : Bool) {B N M : Nat}
    (A : Nat → Nat → Matrix (Fin M) (Fin M) α) (hA : ∀ b i j, Commute (A b i) (A b j)) (zi : Nat → Nat → α) (x : Nat → Nat → Nat → α)
    (o : Option Int) (ho : OV M o) (hB : 0 < B) (hM : 0 < M) (hN : 0 < N) :
    stateSpaceRecursion (MT3 s B N M M fun b t => fm (A b t)) (t2 B M zi) (XT d B N M x) (u : Int) o =
      .ok (OT o B N M fun b t m => vecRec M (fun t => fm (A (sel s b) t)) (zi b) (xe d (x b)) (t + 1) m) := by
  by_cases h1 : u = 1
  · exact stateSpaceRecursion_eq u hu s d A zi x o ho hB hM hN (Or.inl h1)
  by_cases h2 : u = 2
  · exact stateSpaceRecursion_eq u hu s d A zi x o ho hB hM hN (Or.inr (Or.inr (Or.inr (by omega))))
  have hP' : (u - 1).primeFactorsList.length ≤ 2 := by
    rcases hP with h | h
    · omega
    · exact h
  unfold stateSpaceRecursion
  rw [size_XT_1]
  refine aux_good (fun s d => recursionLoop_eq s d) (fun A => ∀ i j, Commute (A i) (A j)) u hu
    (fun A hA => cumsOk_commuting (by omega) hP' A hA) (fun A N hA i j => ?_) (fun A hA i j => ?_) _ s d A hA zi x o ho hB hM hN (by omega)
  · by_cases hi : i < N
    · by_cases hj : j < N
      · simp only [if_pos hi, if_pos hj]; exact hA i j
      · simp only [if_neg hj]; exact Commute.zero_right _
    · simp only [if_neg hi]; exact Commute.zero_left _
  · exact mprod_commute _ (fun k => (mprod_commute _ (fun l => hA l k) _ _).symm) _ _

/-- If the recursion is right on an impulse into the first component, then `A_cums` is right in its first column. -/
theorem cums_of_correct {u : Nat} (hu : 1 < u) (s d : Bool) {B N M : Nat} (hB : 0 < B) (hM : 0 < M) (hN : u < N) (F : Nat → Matrix (Fin M) (Fin M) α)
    (h : ∀ x : Nat → Nat → Nat → α, stateSpaceRecursion (MT3 s B N M M fun _ t => fm (F t)) (t2 B M fun _ _ => 0) (XT d B N M x) (u : Int) none =
      .ok (t3 B N M fun b t m => vecRec M (fun t => fm (F t)) (fun _ => 0) (xe d (x b)) (t + 1) m))
    {w : Nat} (hw : w < u - 1) {i : Nat} (hi : i < M) :
    fm (cumsAt u F 0 w) i 0 = fm (mprod F (w + 1) (u - 1 - w)) i 0 := by
  let x : Nat → Nat → Nat → α := fun _ t k => if t = w ∧ k = 0 then 1 else 0
  obtain ⟨y, hy, hy1⟩ := aux_block (fun s d => recursionLoop_eq s d) u hu (N + 1) s d (fun _ => F) (fun _ _ => 0) x none trivial hB hM hN (by omega)
  have h0 := h x
  unfold stateSpaceRecursion at h0
  rw [size_XT_1, hy] at h0
  have hyv := congrArg (fun T => Tensor.get T [0, u - 1, i]) (Except.ok.inj h0)
  simp only [OT] at hyv
  rw [get_t3 hB (by omega : u - 1 < N) hi, get_t3 hB (by omega : u - 1 < N) hi] at hyv
  rw [hy1, Nat.sub_add_cancel (by omega), vecRec_var F _ _ _ hi] at hyv
  simp only [mul_zero, sum_const_zero, zero_add] at hyv
  have hxe : ∀ t k, xe d (x 0) t k = if t = w ∧ k = 0 then 1 else 0 := by
    intro t k
    cases d
    · simp only [xe, x]
      by_cases hk : k = 0
      · subst hk; simp
      · rw [if_neg hk, if_neg (fun h => hk h.2)]
    · rfl
  simp only [hxe] at hyv
  have pick : ∀ (g : Nat → Nat → α), (∑ t ∈ range u, ∑ k ∈ range M, if t = w ∧ k = 0 then g t k else 0) = g w 0 := by
    intro g
    rw [sum_eq_single w, sum_eq_single 0]
    · rw [if_pos ⟨rfl, rfl⟩]
    · intro k _ hk; rw [if_neg fun h => hk h.2]
    · intro h; exact absurd (mem_range.2 hM) h
    · intro t _ ht; exact sum_eq_zero fun k _ => if_neg fun h => ht h.1
    · intro h; exact absurd (mem_range.2 (by omega)) h
  simp only [ite_mul, mul_ite, one_mul, mul_one, zero_mul, mul_zero] at hyv
  rw [pick fun t k => fm (if t < u - 1 then cumsAt u F 0 t else 1) i k, pick fun t k => fm (mprod F (t + 1) (u - 1 - t)) i k, if_pos hw] at hyv
  exact hyv

/-- For composite `u - 1` the recursion is wrong on some sequence of non-commuting matrices. -/
theorem wrong_composite [Nontrivial α] {u : Nat} (hu : 2 < u) (hP : ¬ (u - 1).Prime) (s d : Bool) {B N M : Nat} (hB : 0 < B) (hM : 2 ≤ M) (hN : u < N) :
    ∃ (F : Nat → Matrix (Fin M) (Fin M) α) (x : Nat → Nat → Nat → α),
      stateSpaceRecursion (MT3 s B N M M fun _ t => fm (F t)) (t2 B M fun _ _ => 0) (XT d B N M x) (u : Int) none ≠
        .ok (t3 B N M fun b t m => vecRec M (fun t => fm (F t)) (fun _ => 0) (xe d (x b)) (t + 1) m) := by
  by_contra hcon
  push Not at hcon
  obtain ⟨q, n, rs, hf⟩ : ∃ q n rs, (u - 1).primeFactorsList = q :: n :: rs := by
    match hl : (u - 1).primeFactorsList with
    | [] =>
      have := (Nat.primeFactorsList_eq_nil _).1 hl
      omega
    | [p] =>
      exfalso
      apply hP
      have h1 := Nat.prod_primeFactorsList (n := u - 1) (by omega)
      rw [hl, List.prod_singleton] at h1
      rw [← h1]
      exact Nat.prime_of_mem_primeFactorsList (n := u - 1) (hl ▸ by simp)
    | q :: n :: rs => exact ⟨q, n, rs, rfl⟩
  have hpr : ∀ x ∈ q :: n :: rs, x.Prime := fun x hx => Nat.prime_of_mem_primeFactorsList (n := u - 1) (hf ▸ hx)
  have hq := (hpr q (by simp)).two_le
  have hlt : q < u - 1 := by
    have h1 := Nat.prod_primeFactorsList (n := u - 1) (by omega)
    rw [hf, List.prod_cons] at h1
    have h2 : 2 ≤ (n :: rs).prod := by
      rw [List.prod_cons]
      have := (hpr n (by simp)).two_le
      have h3 : 0 < rs.prod := List.prod_pos fun x hx => (hpr x (by simp [hx])).pos
      nlinarith
    nlinarith
  let e0 : Fin M := ⟨0, by omega⟩
  let e1 : Fin M := ⟨1, by omega⟩
  let F : Nat → Matrix (Fin M) (Fin M) α := fun t =>
    if t = u - 1 then Matrix.single e0 e1 1 else if t = u - 1 - q then Matrix.single e1 e0 1 else 1
  have key := cums_of_correct (by omega) s d hB (by omega : 0 < M) hN F (hcon F) (w := u - 1 - 1 - q) (by omega) (i := 0) (by omega)
  have hpre : ((List.range q).map fun p => F (0 + (u - 1 - 1 - p + 1))).prod = Matrix.single e0 e1 1 := by
    obtain ⟨m, rfl⟩ : ∃ m, q = m + 1 := ⟨q - 1, by omega⟩
    have : ∀ k, k < m + 1 → ((List.range (k + 1)).map fun p => F (0 + (u - 1 - 1 - p + 1))).prod = Matrix.single e0 e1 1 := by
      intro k
      induction k with
      | zero =>
        intro _
        simp only [Nat.zero_add, List.range_one, List.map_cons, List.map_nil, List.prod_singleton, F]
        rw [if_pos (by omega)]
      | succ k ih =>
        intro hk
        rw [prod_range_succ_list _ (k + 1), ih (by omega)]
        simp only [F]
        rw [if_neg (by omega), if_neg (by omega), mul_one]
    exact this m (by omega)
  have hFq : F (0 + (u - 1 - 1 - q + 1)) = Matrix.single e1 e0 1 := by
    simp only [F]
    rw [if_neg (by omega), if_pos (by omega)]
  have hr := prefix_mprod F u 0 (u - 1 - 1 - q) (by omega)
  rw [Nat.zero_add, show u - 1 - 1 - (u - 1 - 1 - q) + 1 = q + 1 by omega] at hr
  rw [← hr, cumsAt, show u - 1 - 1 - (u - 1 - 1 - q) = q by omega, cd_second hf, prod_range_succ_list _ q, hpre, hFq,
    Matrix.single_mul_single_same, Matrix.single_mul_single_same] at key
  have hM0 : 0 < M := by omega
  simp [fm, hM0, e0, e1] at key

/-- If `u - 1` has at least three prime factors, then the recursion is wrong on some sequence of commuting matrices. -/
theorem wrong_three [Nontrivial α] {u : Nat} (hu : 1 < u) (hP : 3 ≤ (u - 1).primeFactorsList.length) (s d : Bool) {B N M : Nat} (hB : 0 < B) (hM : 0 < M)
    (hN : u < N) : ∃ (F : Nat → Matrix (Fin M) (Fin M) α) (x : Nat → Nat → Nat → α), (∀ i j, Commute (F i) (F j)) ∧
      stateSpaceRecursion (MT3 s B N M M fun _ t => fm (F t)) (t2 B M fun _ _ => 0) (XT d B N M x) (u : Int) none ≠
        .ok (t3 B N M fun b t m => vecRec M (fun t => fm (F t)) (fun _ => 0) (xe d (x b)) (t + 1) m) := by
  by_contra hcon
  push Not at hcon
  obtain ⟨q, n, n', rs, hf⟩ : ∃ q n n' rs, (u - 1).primeFactorsList = q :: n :: n' :: rs := by
    match hl : (u - 1).primeFactorsList with
    | [] => rw [hl] at hP; simp at hP
    | [_] => rw [hl] at hP; simp at hP
    | [_, _] => rw [hl] at hP; simp at hP
    | q :: n :: n' :: rs => exact ⟨q, n, n', rs, rfl⟩
  have hpr : ∀ x ∈ q :: n :: n' :: rs, x.Prime := fun x hx => Nat.prime_of_mem_primeFactorsList (n := u - 1) (hf ▸ hx)
  have hpos : 0 < n * q := Nat.mul_pos (hpr n (by simp)).pos (hpr q (by simp)).pos
  have hlt : n * q < u - 1 := by
    have h1 := Nat.prod_primeFactorsList (n := u - 1) (by omega)
    rw [hf, List.prod_cons, List.prod_cons] at h1
    have h2 : 2 ≤ (n' :: rs).prod := by
      rw [List.prod_cons]
      have := (hpr n' (by simp)).two_le
      have h3 : 0 < rs.prod := List.prod_pos fun x hx => (hpr x (by simp [hx])).pos
      nlinarith
    have h4 : q * (n * (n' :: rs).prod) = n * q * (n' :: rs).prod := by ring
    rw [h4] at h1
    nlinarith
  let F : Nat → Matrix (Fin M) (Fin M) α := fun t => if t = u - 1 then 0 else 1
  have hcomm : ∀ i j, Commute (F i) (F j) := by
    intro i j
    simp only [F]
    by_cases hi : i = u - 1
    · rw [if_pos hi]; exact Commute.zero_left _
    · rw [if_neg hi]; exact Commute.one_left _
  have key := cums_of_correct (by omega) s d hB hM hN F (fun x => hcon F x hcomm) (w := u - 1 - 1 - n * q) (by omega) (i := 0) hM
  have h0 : ∀ k, ((List.range (k + 1)).map fun p => F (0 + (u - 1 - 1 - p + 1))).prod = 0 := by
    intro k
    induction k with
    | zero =>
      simp only [Nat.zero_add, List.range_one, List.map_cons, List.map_nil, List.prod_singleton, F]
      rw [if_pos (by omega)]
    | succ k ih => rw [prod_range_succ_list _ (k + 1), ih, zero_mul]
  have hr := prefix_mprod F u 0 (u - 1 - 1 - n * q) (by omega)
  rw [Nat.zero_add] at hr
  rw [← hr, h0, cumsAt, show u - 1 - 1 - (u - 1 - 1 - n * q) = n * q by omega, cd_third hf] at key
  have hF : F (0 + (u - 1 - 1 - n * q + 1)) = 1 := by
    simp only [F]
    rw [if_neg (by omega)]
  rw [hF] at key
  simp [fm, hM] at key

theorem stateSpaceRecursion_layout_commuting {B N M : Nat} {A x : Tensor α} {Av : Nat → Nat → Nat → Nat → α}
    {xv : Nat → Nat → Nat → α} (hA : MatSeq B N M M A Av) (hx : Drive B N M x xv) (zi : Nat → Nat → α) (u : Int)
    (o : Option Int) (ho : OV M o) (hB : 0 < B) (hM : 0 < M) (hN : 0 < N) (hu : 1 ≤ u)
    (hc : ∀ b i j, i < N → j < N → Commute (mat M M (Av b i)) (mat M M (Av b j)))
    (hP : u ≤ 2 ∨ (N : Int) ≤ u ∨ (u.toNat - 1).primeFactorsList.length ≤ 2) :
    stateSpaceRecursion A (t2 B M zi) x u o =
      .ok (OT o B N M fun b t m => vecRec M (Av b) (zi b) (xv b) (t + 1) m) := by
  by_cases hP' : u ≤ 2 ∨ (N : Int) ≤ u
  · exact stateSpaceRecursion_layout hA hx zi u o ho hB hM hN hu (by rcases hP' with h | h; exacts [Or.inl h, Or.inr (Or.inl h)])
  lift u to ℕ using by omega
  rw [Int.toNat_natCast] at hP
  obtain ⟨s, rfl, hs⟩ := layout_MT3 hA
  obtain ⟨d, x', rfl, hd⟩ := Phil.Lti.layout_XT hx
  have e : MT3 s B N M M (fun b t => fm (mat M M (Av b t))) = MT3 s B N M M fun b t => fm (if t < N then mat M M (Av b t) else 0) := by
    cases s
    · simp only [MT3]
      exact t3_congr rfl rfl rfl fun t i j ht _ _ => by rw [if_pos ht]
    · simp only [MT3]
      exact t4_congr rfl rfl rfl rfl fun b t i j _ ht _ _ => by rw [if_pos ht]
  rw [e, stateSpaceRecursion_commuting u (by omega) (by omega) s d (fun b t => if t < N then mat M M (Av b t) else 0) (fun b i j => by
    by_cases hi : i < N
    · by_cases hj : j < N
      · simp only [if_pos hi, if_pos hj]; exact hc b i j hi hj
      · simp only [if_neg hj]; exact Commute.zero_right _
    · simp only [if_neg hi]; exact Commute.zero_left _) zi x' o ho hB hM hN]
  refine congrArg Except.ok (OT_congr ho rfl rfl fun b t m _ ht hm => ?_)
  rw [hd]
  refine vecRec_congr (fun _ _ => rfl) (fun t' ht' i k hi hk => ?_) (fun _ _ _ _ => rfl) hm
  rw [if_pos (by omega), fm_mat _ hi hk, hs]

end Phil.Lpv
