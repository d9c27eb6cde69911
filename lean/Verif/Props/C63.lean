import Verif.Props.C62
import Verif.Props.C20

/-!
# C63: `filtfilt(backend="diag_ssm")`

`filtfilt` hands its further keyword arguments on to `lfilter`, here `backend="diag_ssm"` and possibly `L`, `V`, `Vinv`.
-/

namespace Props
open Torch Torch.Tensor Spec Phil Phil.Lti Phil.Mat Finset

variable {β : Type} [RCLike β]

/-- A filter that agrees with the `ssm` backend on every signal and initial state gives the same `filtfilt`, form tdf2. -/
theorem filtfiltWith_tdf2 {filt : Tensor β → Tensor β → Tensor β → Option (Tensor β) → Res (Tensor β × Option (Tensor β))} {B N K P : Nat}
    {b a X : Tensor β} {bv av x : Nat → Nat → β} {u : Option Int} {pm : Option PadMode} {padlen : Option Int}
    (hb : Rows B K b bv) (ha : Rows B P a av) (hX : Sig N B X x) (hK : 0 < K) (hM : 0 < max P (K - 1)) (hN : 0 < N)
    (hu : ∀ i, u = some i → 1 ≤ i) (hs : ∀ i, 1 + ∑ k ∈ range P, star (av i k) ≠ 0)
    (hfilt : ∀ n Y zi (y z : Nat → Nat → β), 0 < n → Sig n B Y y → InitState B (max P (K - 1)) zi z → filt b a Y zi = lfilter b a Y zi .tdf2 u) :
    filtfiltWith filt b a X pm padlen .tdf2 = filtfilt b a X pm padlen .tdf2 u := by
  by_cases he : edgeLength b a pm padlen < N
  · obtain ⟨zi, z, e, hz, h⟩ := lfilterZi_tdf2 hb ha hK hM hs
    obtain ⟨f, hf, rfl, hr⟩ := sig_eq_packed hX
    have key : ∀ x, Pass (fun b a x zi => lfilter b a x zi .tdf2 u) b a B (max P (K - 1)) (N + 2 * (edgeLength b a pm padlen).toNat) z x fun i =>
        tdf2Out (max P (K - 1)) (fun k => star (zext K (bv i) k)) (fun k => star (zext P (av i) k)) (fun m => z i m * x i 0) (x i) := by
      intro x f z' v hf hv hv'
      obtain ⟨x', hx, hx'⟩ := sig_packed (N := N + 2 * (edgeLength b a pm padlen).toNat) hf x
      refine ⟨_, (lfilter_tdf2 hb ha hx (rows_init hv) hK hM (by omega) hu).trans (ok_pair (packed_congr ?_ fun i t hi _ => ?_) rfl)⟩
      · intro hfl
        cases f with
        | true => exact hf rfl
        | false => simp [allFlat, packed] at hfl
      · rw [hx' i hi, funext (hv' i hi)]
    have key' : ∀ x, Pass filt b a B (max P (K - 1)) (N + 2 * (edgeLength b a pm padlen).toNat) z x fun i =>
        tdf2Out (max P (K - 1)) (fun k => star (zext K (bv i) k)) (fun k => star (zext P (av i) k)) (fun m => z i m * x i 0) (x i) := by
      intro x f z' v hf hv hv'
      obtain ⟨x', hx, -⟩ := sig_packed (N := N + 2 * (edgeLength b a pm padlen).toNat) hf x
      rw [hfilt _ _ _ x' v (by omega) hx (rows_init hv)]
      exact key x f z' v hf hv hv'
    rw [filtfilt, filtfilt_eq (form := .tdf2) hf x _ _ he hN e hz (zi_rank_tdf2 hb ha hK hM hs e) (key' _) (key' _),
      filtfilt_eq (form := .tdf2) hf x _ _ he hN e hz (zi_rank_tdf2 hb ha hK hM hs e) (key _) (key _)]
  · have hsz : X.size (-1) = N := by cases hX <;> rfl
    unfold filtfilt filtfiltWith
    rw [check_false (by rw [hsz]; exact he)]
    rfl

/-- The steady state of direct form II. -/
theorem lfilterZi_df2_value {B P : Nat} {a : Tensor β} {b : Option (Tensor β)} {av : Nat → Nat → β} (ha : Rows B P a av)
    (hP : 0 < P) (hs : ∀ i, 1 + ∑ k ∈ range P, av i k ≠ 0) :
    ∃ zi, lfilterZi a b false = .ok zi ∧ Rows B P zi fun i _ => 1 / (1 + ∑ k ∈ range P, av i k) := by
  obtain ⟨zi, z, e, hz, h⟩ := lfilterZi_df2 (b := b) ha hP hs
  have hv : ∀ i m, m < P → z i m = 1 / (1 + ∑ k ∈ range P, av i k) := by
    intro i
    have hstep : ∀ m, m < P → z i m = z i 0 := by
      intro m hm
      induction m with
      | zero => rfl
      | succ m ih =>
        rw [h i (m + 1) hm, comp_mv _ _ hm, if_neg (by omega), if_neg (by omega), Nat.add_sub_cancel, add_zero]
        exact ih (by omega)
    have h0 : z i 0 = 1 / (1 + ∑ k ∈ range P, av i k) := by
      have := h i 0 hP
      rw [comp_mv _ _ hP, if_pos rfl, if_pos rfl, sum_congr rfl fun k hk => by
        rw [hstep k (mem_range.1 hk)], ← sum_mul] at this
      rw [eq_div_iff (hs i)]
      linear_combination this
    intro m hm
    rw [hstep m hm, h0]
  refine ⟨zi, e, ?_⟩
  have hzr : a.rank = 1 → zi.rank = 1 := zi_rank_df2 ha hP hs e
  cases hz with
  | shared f =>
    have : t1 P f = t1 P fun _ => 1 / (1 + ∑ k ∈ range P, av 0 k) := t1_congr rfl fun m hm => hv 0 m hm
    rw [this]
    have h2 : (fun i (_ : Nat) => 1 / (1 + ∑ k ∈ range P, av i k)) = fun _ _ => 1 / (1 + ∑ k ∈ range P, av 0 k) := by
      funext i m
      rw [← hv i 0 hP, ← hv 0 0 hP]
    rw [h2]
    exact .shared _
  | batched f =>
    rw [show t2 B P z = t2 B P fun i _ => 1 / (1 + ∑ k ∈ range P, av i k) from t2_congr rfl rfl fun i m _ hm => hv i m hm]
    exact .batched _

/-- Values outside the tensor do not matter. -/
theorem rows_real {B M : Nat} {zi : Tensor β} {v : Nat → Nat → β} (h : Rows B M zi v) (hB : 0 < B)
    (hv : ∀ i, i < B → ∀ m, star (v i m) = v i m) : ∃ v', Rows B M zi v' ∧ ∀ i m, star (v' i m) = v' i m := by
  cases h with
  | shared f => exact ⟨_, .shared f, fun _ => hv 0 hB⟩
  | batched f =>
    refine ⟨fun i m => if i < B then v i m else 0, ?_, fun i m => ?_⟩
    · rw [show t2 B M v = t2 B M fun i m => if i < B then v i m else 0 from t2_congr rfl rfl fun i m hi _ => (if_pos hi).symm]
      exact .batched _
    · beta_reduce
      split
      · rename_i hi; exact hv i hi m
      · exact star_zero _

theorem dfSignal_real {M : Nat} {a z x : Nat → β} (ha : ∀ k, star (a k) = a k) (hz : ∀ k, star (z k) = z k) (hx : ∀ k, star (x k) = x k) (n : Int) :
    star (dfSignal M a z x n) = dfSignal M a z x n := by
  unfold dfSignal withPast
  split
  · exact hz _
  · refine vecRec_real (fun _ i j => ?_) hz (fun t i => ?_) _ _
    · rw [star_comp]; simp only [ha]
    · unfold first
      split
      · exact hx _
      · exact star_zero _

theorem taps_real {K : Nat} {b : Nat → β} {x : Int → β} (hb : ∀ k, star (b k) = b k) (hx : ∀ n, star (x n) = x n) (n : Int) :
    star (taps K b x n) = taps K b x n := by
  unfold taps
  rw [star_sum]
  exact sum_congr rfl fun k _ => by rw [star_mul', hb, hx]

theorem extended_real (pm : Option PadMode) (N e : Nat) {x : Nat → β} (hx : ∀ k, star (x k) = x k) (t : Nat) :
    star (extended pm N e x t) = extended pm N e x t := by
  unfold extended
  split
  · exact hx _
  · exact hx _
  · unfold extendMirror; split_ifs <;> exact hx _
  · unfold extendZero; split_ifs
    · exact hx _
    · exact star_zero _
  · unfold extendCyclic; split_ifs <;> exact hx _

/-- The same for form df2; the agreement may be restricted to real data. -/
theorem filtfiltWith_df2 {filt : Tensor β → Tensor β → Tensor β → Option (Tensor β) → Res (Tensor β × Option (Tensor β))} {B N K P : Nat}
    {b a X : Tensor β} {bv av x : Nat → Nat → β} {u : Option Int} {pm : Option PadMode} {padlen : Option Int} {real : Bool}
    (hb : Rows B K b bv) (ha : Rows B P a av) (hX : Sig N B X x) (hB : 0 < B) (hK : 0 < K) (hP : 0 < P) (hKP : K ≤ P + 1) (hN : 0 < N)
    (hu : ∀ i, u = some i → 1 ≤ i) (hs : ∀ i, 1 + ∑ k ∈ range P, av i k ≠ 0)
    (hreal : real = true → (∀ i k, star (bv i k) = bv i k) ∧ (∀ i k, star (av i k) = av i k) ∧ ∀ i t, star (x i t) = x i t)
    (hfilt : ∀ n Y zi (y z : Nat → Nat → β), 0 < n → Sig n B Y y → InitState B P zi z →
      (real = true → (∀ i m, star (z i m) = z i m) ∧ ∀ i t, star (y i t) = y i t) → filt b a Y zi = lfilter b a Y zi .df2 u) :
    filtfiltWith filt b a X pm padlen .df2 = filtfilt b a X pm padlen .df2 u := by
  by_cases he : edgeLength b a pm padlen < N
  · obtain ⟨zi, e, hz⟩ := lfilterZi_df2_value (b := some b) ha hP hs
    obtain ⟨f, hf, rfl, hr⟩ := sig_eq_packed hX
    have hM : max P (K - 1) = P := by omega
    generalize hzdef : (fun i (_ : Nat) => 1 / (1 + ∑ k ∈ range P, av i k)) = z at hz
    have key : ∀ x, Pass (fun b a x zi => lfilter b a x zi .df2 u) b a B P (N + 2 * (edgeLength b a pm padlen).toNat) z x fun i t =>
        taps K (bv i) (dfSignal P (zext P (av i)) (fun m => z i m * x i 0) (x i)) t := by
      intro x f z' v hf hv hv'
      obtain ⟨x', hx, hx'⟩ := sig_packed (N := N + 2 * (edgeLength b a pm padlen).toNat) hf x
      refine ⟨_, (lfilter_df2 hb ha hx (by rw [hM]; exact rows_init hv) hK (by omega) (by omega) hu).trans (ok_pair (packed_congr ?_ fun i t hi _ => ?_) rfl)⟩
      · intro hfl
        cases f with
        | true => exact hf rfl
        | false => simp [allFlat, packed] at hfl
      · rw [hM, hx' i hi, funext (hv' i hi)]
    have zr : real = true → ∀ i m, star (z i m) = z i m := by
      intro h i m
      subst hzdef
      simp only [star_div₀, star_one, star_add, star_sum, (hreal h).2.1]
    have key' : ∀ x, (real = true → ∀ i t, star (x i t) = x i t) →
        Pass filt b a B P (N + 2 * (edgeLength b a pm padlen).toNat) z x fun i t =>
          taps K (bv i) (dfSignal P (zext P (av i)) (fun m => z i m * x i 0) (x i)) t := by
      intro x hxr f z' v hf hv hv'
      have hx : ∃ x', Sig (N + 2 * (edgeLength b a pm padlen).toNat) B (packed f B (N + 2 * (edgeLength b a pm padlen).toNat) x) x' ∧
          (real = true → ∀ i t, star (x' i t) = x' i t) := by
        cases f with
        | true =>
          obtain rfl := hf rfl
          exact ⟨_, .flat (x 0), fun h _ t => hxr h 0 t⟩
        | false => exact ⟨x, .batched _ _, hxr⟩
      obtain ⟨x', hx, hx'⟩ := hx
      have hvr : ∃ v', Rows B P z' v' ∧ (real = true → ∀ i m, star (v' i m) = v' i m) := by
        by_cases hr : real = true
        · obtain ⟨v', h1, h2⟩ := rows_real hv hB fun i hi m => by rw [hv' i hi m, star_mul', zr hr, hxr hr]
          exact ⟨v', h1, fun _ => h2⟩
        · exact ⟨v, hv, fun h => absurd h hr⟩
      obtain ⟨v₁, hv₁, hv₁'⟩ := hvr
      rw [hfilt _ _ _ x' v₁ (by omega) hx (rows_init hv₁) fun h => ⟨hv₁' h, hx' h⟩]
      exact key x f z' v hf hv hv'
    have r1 : real = true → ∀ i t, star (extended pm N (edgeLength b a pm padlen).toNat (x i) t) =
        extended pm N (edgeLength b a pm padlen).toNat (x i) t := fun h i t => extended_real _ _ _ ((hreal h).2.2 i) t
    rw [filtfilt, filtfilt_eq (form := .df2) hf x _ _ he hN e hz (fun _ => zi_rank_df2 ha hP hs e) (key' _ r1) (key' _ fun h i t => ?_),
      filtfilt_eq (form := .df2) hf x _ _ he hN e hz (fun _ => zi_rank_df2 ha hP hs e) (key _) (key _)]
    refine taps_real ((hreal h).1 i) (fun n => dfSignal_real (fun k => ?_) (fun k => ?_) (fun k => r1 h i k) n) _
    · unfold zext; split
      · exact (hreal h).2.1 i k
      · exact star_zero _
    · rw [star_mul', zr h, r1 h]
  · have hsz : X.size (-1) = N := by cases hX <;> rfl
    unfold filtfilt filtfiltWith
    rw [check_false (by rw [hsz]; exact he)]
    rfl

/-- **C63 (partial), form tdf2, no keyword arguments.**  With at most `P + 1` taps and distinct poles `filtfilt` returns the same for both
backends, whatever the padding. -/
theorem C63_tdf2_partial {B N K P : Nat} {b a X : Tensor β} {bv av p x : Nat → Nat → β} {u u' : Option Int} {pm : Option PadMode}
    {padlen : Option Int} {ev : Tensor β → Res (Tensor β)} {re : β → β} {realC delayed : Bool}
    (hb : Rows B K b bv) (ha : Rows B P a av) (hX : Sig N B X x) (hK : 0 < K) (hP : 0 < P) (hKP : K ≤ P + 1) (hN : 0 < N)
    (hu : ∀ i, u = some i → 1 ≤ i) (hu' : ∀ i, u' = some i → 1 ≤ i) (hp : ∀ i, DistinctPoles P (av i) (p i))
    (hs : ∀ i, 1 + ∑ k ∈ range P, star (av i k) ≠ 0) (hev : ListsEigenvalues ev B P (fun i j k => comp (fun k => star (av i k)) k j)) :
    filtfiltDiagWith none none none ev findEigenvectors re realC b a X pm padlen .tdf2 delayed u = filtfilt b a X pm padlen .tdf2 u' := by
  refine filtfiltWith_tdf2 hb ha hX hK (by omega) hN hu' hs fun n Y zi y z hn hY hz => ?_
  rw [C62_basis_without_poles]
  rw [show max P (K - 1) = P by omega] at hz
  exact C23_short_partial hb ha hY hz hP hK hKP hn hu hu' hp hev

example (b x : Nat → Nat → ℂ) (pm : Option PadMode) :=
  C63_tdf2_partial (B := 3) (N := 7) (K := 2) (P := 2) (u := none) (u' := some 2) (pm := pm) (padlen := some 2)
    (ev := Witness.answer 3 2 Witness.rotEig) (re := id) (realC := true) (delayed := true) (.batched b)
    (.shared fun k => if k = 0 then (0 : ℂ) else 1) (.batched 3 x) (by decide) (by decide) (by decide) (by decide) (by simp) (by simp)
    (fun _ => Witness.rot_poles) (fun _ => by norm_num [Finset.sum_range_succ])
    (Witness.rot_listsT 3)

/-- **C63 (partial), form df2, no keyword arguments**; here no pole may be zero, and if the coefficients have a real dtype (`realC`) the data
must be real. -/
theorem C63_df2_partial {B N K P : Nat} {b a X : Tensor β} {bv av p x : Nat → Nat → β} {u u' : Option Int} {pm : Option PadMode}
    {padlen : Option Int} {ev : Tensor β → Res (Tensor β)} {re : β → β} {realC delayed : Bool}
    (hb : Rows B K b bv) (ha : Rows B P a av) (hX : Sig N B X x) (hB : 0 < B) (hK : 0 < K) (hP : 0 < P) (hKP : K ≤ P + 1) (hN : 0 < N)
    (hu : ∀ i, u = some i → 1 ≤ i) (hu' : ∀ i, u' = some i → 1 ≤ i) (hp : ∀ i, DistinctPoles P (av i) (p i))
    (hp0 : ∀ i m, m < P → p i m ≠ 0) (hs : ∀ i, 1 + ∑ k ∈ range P, av i k ≠ 0) (hev : ListsEigenvalues ev B P (fun i => comp (av i)))
    (hreal : realC = true → (∀ c, star c = c → re c = c) ∧ (∀ i k, star (bv i k) = bv i k) ∧ (∀ i k, star (av i k) = av i k) ∧
      ∀ i t, star (x i t) = x i t) :
    filtfiltDiagWith none none none ev findEigenvectors re realC b a X pm padlen .df2 delayed u = filtfilt b a X pm padlen .df2 u' := by
  refine filtfiltWith_df2 (real := realC) hb ha hX hB hK hP hKP hN hu' hs (fun h => (hreal h).2) fun n Y zi y z hn hY hz hyz => ?_
  rw [C62_basis_without_poles]
  exact C23_short_partial hb ha hY hz hP hK hKP hn hu hu' hp
    ⟨hp0, hev, fun h => ⟨(hreal h).1, (hreal h).2.2.1, (hyz h).1, (hyz h).2⟩⟩

example (b x : Nat → Nat → ℂ) (pm : Option PadMode) :=
  C63_df2_partial (B := 3) (N := 7) (K := 2) (P := 2) (u := none) (u' := some 2) (pm := pm) (padlen := some 2)
    (ev := Witness.answer 3 2 Witness.rotEig) (re := id) (realC := false) (delayed := true) (.batched b)
    (.shared fun k => if k = 0 then (0 : ℂ) else 1) (.batched 3 x) (by decide) (by decide) (by decide) (by decide) (by decide) (by simp) (by simp)
    (fun _ => Witness.rot_poles) (fun _ m _ => Witness.rotEig_ne m) (fun _ => by norm_num [Finset.sum_range_succ])
    (Witness.rot_lists 3) (by simp)

/-- **C63 (partial), a given basis** (as in `C62_given_basis_partial`): both forms. -/
theorem C63_given_basis_partial {B N K P : Nat} {b a L V W X : Tensor β} {V' W' : Option (Tensor β)} {bv av l x : Nat → Nat → β}
    {v w : Nat → Nat → Nat → β} {form : Form} {u u' : Option Int} {pm : Option PadMode} {padlen : Option Int}
    {ev : Tensor β → Res (Tensor β)} {fe : Tensor β → Tensor β → Res (Tensor β)} {re : β → β} {realC delayed : Bool}
    (hb : Rows B K b bv) (ha : Rows B P a av) (hX : Sig N B X x) (hB : 0 < B) (hK : 0 < K) (hP : 0 < P) (hKP : K ≤ P + 1) (hN : 0 < N)
    (hu : ∀ i, u = some i → 1 ≤ i) (hu' : ∀ i, u' = some i → 1 ≤ i)
    (hE : Eigen B P L V W l v w) (hlay : L.rank = a.rank)
    (hV' : V' = none ∨ V' = some V) (hW' : W' = none ∨ W' = some W) (hone : V'.isSome ∨ W'.isSome)
    (hs : ∀ i, 1 + ∑ k ∈ range P, av i k ≠ 0)
    (hform : form = .df2 ∧ (∀ i, Diagonalises P (comp (av i)) (l i) (v i) (w i)) ∧
        (realC = true → (∀ c, star c = c → re c = c) ∧ (∀ i k, star (bv i k) = bv i k) ∧ (∀ i k, star (av i k) = av i k) ∧
          ∀ i t, star (x i t) = x i t) ∨
      form = .tdf2 ∧ ∀ i, Diagonalises P (fun j k => comp (fun k => star (av i k)) k j) (l i) (v i) (w i)) :
    filtfiltDiagWith (some L) V' W' ev fe re realC b a X pm padlen form delayed u = filtfilt b a X pm padlen form u' := by
  rcases hform with ⟨rfl, hd, hreal⟩ | ⟨rfl, hd⟩
  · refine filtfiltWith_df2 (real := realC) hb ha hX hB hK hP hKP hN hu' hs (fun h => (hreal h).2) fun n Y zi y z hn hY hz hyz => ?_
    exact C62_given_basis_partial hb ha hY hz hP hK hKP hn hu hu' hE hlay hV' hW' hone
      (Or.inl ⟨rfl, hd, fun h => ⟨(hreal h).1, (hreal h).2.2.1, (hyz h).1, (hyz h).2⟩⟩)
  · have hs' : ∀ i, 1 + ∑ k ∈ range P, star (av i k) ≠ 0 := fun i h => hs i (by
      have := congrArg star h
      simpa only [star_add, star_one, star_sum, star_star, star_zero] using this)
    refine filtfiltWith_tdf2 hb ha hX hK (by omega) hN hu' hs' fun n Y zi y z hn hY hz => ?_
    rw [show max P (K - 1) = P by omega] at hz
    exact C62_given_basis_partial hb ha hY hz hP hK hKP hn hu hu' hE hlay hV' hW' hone (Or.inr ⟨rfl, hd⟩)

/-- A filter that returns no final state. -/
theorem filtfiltWith_lone {filt : Tensor β → Tensor β → Tensor β → Option (Tensor β) → Res (Tensor β × Option (Tensor β))} {B N : Nat}
    {b a X : Tensor β} {x : Nat → Nat → β} {form : Form} {pm : Option PadMode} {padlen : Option Int} (hX : Sig N B X x) (hB2 : B ≠ 2)
    (hfilt : ∀ n f (y : Nat → Nat → β) zi, N ≤ n → (f = true → B = 1) → y = (fun i => extended pm N (edgeLength b a pm padlen).toNat (x i)) →
      ∃ y', filt b a (packed f B n y) zi = .ok (t2 B n y', none)) : Fails (filtfiltWith filt b a X pm padlen form) := by
  obtain ⟨f, hf, rfl, hr⟩ := sig_eq_packed hX
  unfold filtfiltWith
  refine fails_check fun he => ?_
  have hsz : (packed f B N x).size (-1) = N := by cases f <;> simp [packed]
  rw [hsz] at he
  refine fails_bind fun ext hext => fails_bind fun zi _ => fails_bind fun x0 _ => fails_bind fun zx _ => fails_bind fun r hr => fails_left ?_
  rw [extendSignal_eq hf x pm he (by rintro rfl; rfl)] at hext
  cases hext
  obtain ⟨y', e⟩ := hfilt (N + 2 * (edgeLength b a pm padlen).toNat) f _ (some zx) (by omega) hf rfl
  rw [e] at hr
  cases hr
  exact fails_check fun h => absurd h (by simpa using hB2)

/-- **C63 is false for more than `P + 1` taps** (given with a batch axis, `B ≠ 2`): the backend drops the initial state and returns
the output alone, which `filtfilt` then tries to take apart as a pair.  In form tdf2 the `ssm` backend filters (C20).
Distinct poles, no keyword arguments. -/
theorem C63_long_numerator {B N K P : Nat} {a X : Tensor β} {bv av p x : Nat → Nat → β} {u : Option Int} {form : Form}
    {pm : Option PadMode} {padlen : Option Int} {ev : Tensor β → Res (Tensor β)} {re : β → β} {realC delayed : Bool}
    (ha : Rows B P a av) (hX : Sig N B X x) (hP : 0 < P) (hKP : P + 1 < K) (hB : 0 < B) (hB2 : B ≠ 2) (hN : 0 < N)
    (hu : ∀ i, u = some i → 1 ≤ i) (hp : ∀ i, DistinctPoles P (av i) (p i))
    (hform : DiagForm ev re realC B P av p (fun _ _ => 0) x form)
    (hsplit : if delayed then K - P ≤ N else ∀ i, av i (P - 1) ≠ 0)
    (hconj : form = .df2 → (∀ i k, star (bv i k) = bv i k) ∧ ∀ i k, star (av i k) = av i k) :
    Fails (filtfiltDiagWith none none none ev findEigenvectors re realC (t2 B K bv) a X pm padlen form delayed u) := by
  refine filtfiltWith_lone hX hB2 fun n f y zi hn hf hy => ?_
  have hf' : DiagForm ev re realC B P av p (fun _ _ => 0) y form := by
    cases form with
    | tdf2 => exact hform
    | df2 =>
      refine ⟨hform.1, hform.2.1, fun h => ?_⟩
      obtain ⟨r1, r2, r3, r4⟩ := hform.2.2 h
      subst hy
      exact ⟨r1, r2, r3, fun i t => extended_real _ _ _ (r4 i) t⟩
    | df1 => exact hform.elim
    | tdf1 => exact hform.elim
    | other => exact hform.elim
  have hY : ∃ y', Sig n B (packed f B n y) y' ∧ DiagForm ev re realC B P av p (fun _ _ => 0) y' form := by
    cases f with
    | false => exact ⟨y, .batched _ _, hf'⟩
    | true =>
      obtain rfl := hf rfl
      refine ⟨_, .flat (y 0), ?_⟩
      cases form with
      | tdf2 => exact hf'
      | df2 => exact ⟨hf'.1, hf'.2.1, fun h => ⟨(hf'.2.2 h).1, (hf'.2.2 h).2.1, (hf'.2.2 h).2.2.1, fun i t => (hf'.2.2 h).2.2.2 0 t⟩⟩
      | df1 => exact hf'.elim
      | tdf1 => exact hf'.elim
      | other => exact hf'.elim
  obtain ⟨y', hY, hy'⟩ := hY
  rw [C62_basis_without_poles, C23_long_partial ha hY hB hP hKP (by omega) hu hu hp hy' (by
    cases delayed with
    | true => simp only [if_true] at hsplit ⊢; omega
    | false => exact hsplit) hconj]
  have hfo : form ≠ .other := by rcases hform.cases with h | h <;> simp [h.1]
  obtain ⟨y2, -, -, e2⟩ := ssmLfilter_diff (K := K) (zi := none) (form := form) (.batched bv) ha y' hfo (Or.inl rfl) hB (by omega) (by omega)
    (show 0 < n by omega) hu
  have l2 := lfilterWith_eq (backend := fun b a x zi => ssmLfilter b a x zi form u) (c := false)
    (M := 0) (zf := fun _ _ => 0) (.batched bv) ha hY e2
  have hflat : ∀ zi, allFlat (packed f B n y) (t2 B K bv) a zi = false := fun zi => decide_eq_false fun h => by simp at h
  rw [hflat] at l2
  exact ⟨fun i t => y2 i t, l2⟩

/-- `filtfilt` for `1 / (1 + z⁻²)` with given poles and eigenvectors. -/
example (b : Nat → Nat → ℂ) (x : Nat → Nat → ℂ) (ev : Tensor ℂ → Res (Tensor ℂ)) (pm : Option PadMode) :
    ∃ W, filtfiltDiagWith (some (t1 2 fun m => if m = 0 then Complex.I else -Complex.I))
        (some (t2 2 2 fun i j => (if j = 0 then Complex.I else -Complex.I) ^ (2 - 1 - i))) (some W) ev findEigenvectors id false
        (t2 3 3 b) (t1 2 fun k => if k = 0 then 0 else 1) (t2 3 7 x) pm (some 2) .df2 false none =
      filtfilt (t2 3 3 b) (t1 2 fun k => if k = 0 then 0 else 1) (t2 3 7 x) pm (some 2) .df2 none := by
  obtain ⟨w, hd⟩ := vandermonde_diagonalises (by decide) two_poles_distinct
  exact ⟨t2 2 2 w, C63_given_basis_partial (.batched _) (.shared _) (.batched 3 _) (by decide) (by decide) (by decide) (by decide) (by decide)
    (by simp) (by simp) (.shared _ _ w) (by simp) (Or.inr rfl) (Or.inr rfl) (Or.inl rfl) (fun _ => by simp [Finset.sum_range_succ])
    (Or.inl ⟨rfl, fun _ => hd, by simp⟩)⟩

/-- Five taps over `1 + z⁻²`: raises. -/
example (b : Nat → Nat → ℝ) (x : Nat → Nat → ℂ) (pm : Option PadMode) :
    Fails (filtfiltDiagWith none none none (fun A : Tensor ℂ => .ok (if A.rank = 2 then
      t1 2 (fun m => if m = 0 then Complex.I else -Complex.I) else t2 3 2 fun _ m => if m = 0 then Complex.I else -Complex.I))
        findEigenvectors id false (t2 3 5 fun i k => (b i k : ℂ)) (t1 2 fun k => if k = 0 then 0 else 1) (t2 3 7 x) pm (some 2) .df2 true none) :=
  C63_long_numerator (p := fun _ m => if m = 0 then Complex.I else -Complex.I) (.shared fun k => if k = 0 then (0 : ℂ) else 1) (.batched 3 x)
    (by decide) (by decide) (by decide) (by decide) (by decide) (by simp) (fun _ => two_poles_distinct)
    ⟨fun i m hm => by beta_reduce; split <;> simp, two_poles_lists 3, by simp⟩ (by simp) (fun _ => ⟨by simp, fun i k => by split <;> simp⟩)

end Props
