import Verif.Proof.ZeroPhase
import Verif.Proof.LtiFiltfilt
import Mathlib.Tactic.NormNum

/-!
# C20: forward-backward filtering

`edgeLength b a padmode padlen` is the padding the code chooses: `0` without padding, `padlen`, or three times the larger order.
The code asks for a signal longer than that.
-/

namespace Props
open Torch Torch.Tensor Spec Phil Phil.Lti
variable {α : Type} [Field α] [StarRing α]

/-- **C20 (partial), transposed direct form II** (the default).  There is one map `F i` per batch item, independent of the
signal, of the layout and of the unroll factor, such that `filtfilt` succeeds and returns `F i (x i)` with the length and batch
layout of `x`; `F i` is linear; and with real coefficients and a padding mode that keeps constants, `F i` multiplies a constant
by the square of the DC gain `Σ b / (1 + Σ a)`.  Missing: direct form I (see `C20_df1_raises`) and the constant response for
complex coefficients (see `C16_tdf2_complex`). -/
theorem C20_tdf2_partial {B N K P : Nat} {b a : Tensor α} {bv av : Nat → Nat → α} {pm : Option PadMode} {padlen : Option Int}
    (hb : Rows B K b bv) (ha : Rows B P a av) (hK : 0 < K) (hM : 0 < max P (K - 1))
    (hs : ∀ i, 1 + ∑ k ∈ Finset.range P, star (av i k) ≠ 0) (he : edgeLength b a pm padlen < N) (hN : 0 < N) :
    ∃ F : Nat → (Nat → α) → Nat → α,
      (∀ (X : Tensor α) (x : Nat → Nat → α) (u : Option Int), Sig N B X x → (∀ i, u = some i → 1 ≤ i) →
        filtfilt b a X pm padlen .tdf2 u =
          .ok (packed (decide (X.rank = 1 ∧ b.rank = 1 ∧ a.rank = 1)) B N fun i => F i (x i))) ∧
      (∀ i c x x' t, F i (fun t => c * x t + x' t) t = c * F i x t + F i x' t) ∧
      (∀ i c t, pm ≠ some .constant → (∀ j, star (bv i j) = bv i j) → (∀ k, star (av i k) = av i k) →
        F i (fun _ => c) t = c * ((∑ j ∈ Finset.range K, bv i j) / (1 + ∑ k ∈ Finset.range P, av i k)) ^ 2) := by
  obtain ⟨z, h, hF⟩ := filtfilt_tdf2 hb ha hK hM hs he hN
  refine ⟨fun i => twice (fun x => tdf2Out (max P (K - 1)) (fun k => star (zext K (bv i) k)) (fun k => star (zext P (av i) k))
      (fun m => z i m * x 0) x) pm N (edgeLength b a pm padlen).toNat,
    fun X x u hX hu => ?_, fun i => twice_linear (fun c x x' t => ?_) _ _ _, fun i c t hpm hbr har => ?_⟩
  rotate_left
  rotate_left
  · refine twice_const (fun c t => ?_) hpm _ _ _ _
    have hb' : (fun k => star (zext K (bv i) k)) = zext K (bv i) := by
      funext k; unfold zext; split
      · exact hbr k
      · exact star_zero α
    have ha' : (fun k => star (zext P (av i) k)) = zext P (av i) := by
      funext k; unfold zext; split
      · exact har k
      · exact star_zero α
    have hi := h i
    rw [ha'] at hi
    rw [hb', ha']
    exact tdf2_dc hK hM (by simpa only [har] using hs i) hi c t
  · obtain ⟨f, hf, rfl, hr⟩ := sig_eq_packed hX
    rw [hF hf hu]
    have : (f && decide (b.rank = 1 ∧ a.rank = 1)) = decide ((packed f B N x).rank = 1 ∧ b.rank = 1 ∧ a.rank = 1) := by
      rw [Bool.eq_iff_iff]; simp [hr]
    rw [this]
  · rw [← tdf2Out_linear]
    congr 1
    funext m; ring

/-- **C20 (partial), direct form II**; real or complex coefficients.  Missing: more than `P + 1` taps
(see `C20_df2_long_numerator`). -/
theorem C20_df2_partial {B N K P : Nat} {b a : Tensor α} {bv av : Nat → Nat → α} {pm : Option PadMode} {padlen : Option Int}
    (hb : Rows B K b bv) (ha : Rows B P a av) (hK : 0 < K) (hP : 0 < P) (hKP : K ≤ P + 1)
    (hs : ∀ i, 1 + ∑ k ∈ Finset.range P, av i k ≠ 0) (he : edgeLength b a pm padlen < N) (hN : 0 < N) :
    ∃ F : Nat → (Nat → α) → Nat → α,
      (∀ (X : Tensor α) (x : Nat → Nat → α) (u : Option Int), Sig N B X x → (∀ i, u = some i → 1 ≤ i) →
        filtfilt b a X pm padlen .df2 u =
          .ok (packed (decide (X.rank = 1 ∧ b.rank = 1 ∧ a.rank = 1)) B N fun i => F i (x i))) ∧
      (∀ i c x x' t, F i (fun t => c * x t + x' t) t = c * F i x t + F i x' t) ∧
      (∀ i c t, pm ≠ some .constant →
        F i (fun _ => c) t = c * ((∑ j ∈ Finset.range K, bv i j) / (1 + ∑ k ∈ Finset.range P, av i k)) ^ 2) := by
  obtain ⟨z, h, hF⟩ := filtfilt_df2 hb ha hK hP hKP hs he hN
  refine ⟨fun i => twice (fun x t => taps K (bv i) (dfSignal P (zext P (av i)) (fun m => z i m * x 0) x) t) pm N
      (edgeLength b a pm padlen).toNat,
    fun X x u hX hu => ?_, fun i => twice_linear (fun c x x' t => ?_) _ _ _, fun i c t hpm => ?_⟩
  rotate_left
  rotate_left
  · refine twice_const (fun c t => ?_) hpm _ _ _ _
    exact df2_dc hP hKP (hs i) (h i) c t
  · obtain ⟨f, hf, rfl, hr⟩ := sig_eq_packed hX
    rw [hF hf hu]
    have : (f && decide (b.rank = 1 ∧ a.rank = 1)) = decide ((packed f B N x).rank = 1 ∧ b.rank = 1 ∧ a.rank = 1) := by
      rw [Bool.eq_iff_iff]; simp [hr]
    rw [this]
  · beta_reduce
    rw [← taps_linear, show (fun m => z i m * (c * x 0 + x' 0)) = fun m => c * (z i m * x 0) + z i m * x' 0 by funext m; ring]
    congr 1
    funext n
    exact dfSignal_linear _ _ _ _ _ _ _ _

example := C20_df2_partial (B := 1) (N := 20) (K := 2) (P := 1) (pm := some .replicate) (padlen := none) (.shared fun j => (j : ℚ) + 1)
  (.shared fun _ => (1 / 2 : ℚ)) (by decide) (by decide) (by decide) (fun _ => by norm_num) (by decide) (by decide)

/-- The padding the documentation of `filtfilt` describes for `K` taps and `P` denominator coefficients: none without a padding
mode, else the requested length, else three times the larger of the lengths of `b` and of `(1, a)`. -/
def documentedPadding (K P : Nat) (padded : Bool) (padlen : Option Int) : Int :=
  if padded then (match padlen with | some e => e | none => 3 * ((max K (P + 1) : Nat) : Int)) else 0

/-- Run `R` over the extended signal, run it again over the reversed result, reverse and drop the extension. -/
def forwardBackward (R E : (Nat → α) → Nat → α) (N e : Nat) (x : Nat → α) (t : Nat) : α :=
  R (fun s => R (E x) (N + 2 * e - 1 - s)) (e + (N - 1 - t))

omit [StarRing α] in
/-- The padding chosen by the code is the documented one. -/
theorem C20_padding {B K P : Nat} {b a : Tensor α} {bv av : Nat → Nat → α} (hb : Rows B K b bv) (ha : Rows B P a av)
    (pm : Option PadMode) (padlen : Option Int) : edgeLength b a pm padlen = documentedPadding K P pm.isSome padlen := by
  unfold edgeLength documentedPadding
  cases pm with
  | none => rfl
  | some m =>
    cases padlen with
    | some e => rfl
    | none =>
      simp only [Option.isSome_some, if_true, Option.getD_none, size_rows hb, size_rows ha]

example := C20_padding (B := 3) (K := 4) (P := 2) (.batched fun i j => (i : ℚ) + j) (.shared fun k => (k : ℚ)) (some .reflect) none

/-- A signal no longer than the documented padding is rejected. -/
theorem C20_too_short {B N K P : Nat} {b a X : Tensor α} {bv av x : Nat → Nat → α} {pm : Option PadMode} {padlen : Option Int}
    {form : Form} {u : Option Int} (hb : Rows B K b bv) (ha : Rows B P a av) (hX : Sig N B X x)
    (hN : (N : Int) ≤ documentedPadding K P pm.isSome padlen) : Fails (filtfilt b a X pm padlen form u) := by
  unfold filtfilt filtfiltWith
  refine fails_check fun h => ?_
  have hsz : X.size (-1) = N := by cases hX <;> rfl
  rw [C20_padding hb ha, hsz] at h
  exact absurd h (not_lt.2 hN)

/-- **C20, transposed direct form II**: what is computed.  The filter is run forwards and backwards over the signal extended by
the documented padding (`E`: ends repeated, mirrored, zeros, or the signal repeated); each run starts from the first sample it sees times a state `z`
which is a fixed point of the state equation under the constant input `1`. -/
theorem C20_tdf2_forward_backward {B N K P : Nat} {b a : Tensor α} {bv av : Nat → Nat → α} {pm : Option PadMode}
    {padlen : Option Int} (hb : Rows B K b bv) (ha : Rows B P a av) (hK : 0 < K) (hM : 0 < max P (K - 1))
    (hs : ∀ i, 1 + ∑ k ∈ Finset.range P, star (av i k) ≠ 0) (he : documentedPadding K P pm.isSome padlen < N) (hN : 0 < N)
    {E : (Nat → α) → Nat → α}
    (hE : E = (match pm with
      | none => id
      | some .replicate => extendConst N (documentedPadding K P true padlen).toNat
      | some .reflect => extendMirror N (documentedPadding K P true padlen).toNat
      | some .constant => extendZero N (documentedPadding K P true padlen).toNat
      | some .circular => extendCyclic N (documentedPadding K P true padlen).toNat)) :
    ∃ z : Nat → Nat → α, (∀ i m, m < max P (K - 1) →
      z i m = ∑ j ∈ Finset.range (max P (K - 1)), comp (fun k => star (zext P (av i) k)) j m * z i j +
        (zext K (bv i) (m + 1) - zext K (bv i) 0 * zext P (av i) m)) ∧
      ∀ (X : Tensor α) (x : Nat → Nat → α) (u : Option Int), Sig N B X x → (∀ i, u = some i → 1 ≤ i) →
        filtfilt b a X pm padlen .tdf2 u = .ok (packed (decide (X.rank = 1 ∧ b.rank = 1 ∧ a.rank = 1)) B N fun i =>
          forwardBackward (fun x => tdf2Out (max P (K - 1)) (fun k => star (zext K (bv i) k)) (fun k => star (zext P (av i) k))
            (fun m => z i m * x 0) x) E N (documentedPadding K P pm.isSome padlen).toNat (x i)) := by
  rw [← C20_padding hb ha] at he
  obtain ⟨z, h, hF⟩ := filtfilt_tdf2 hb ha hK hM hs he hN
  refine ⟨z, h, fun X x u hX hu => ?_⟩
  obtain ⟨f, hf, rfl, hr⟩ := sig_eq_packed hX
  rw [hF hf hu]
  have e1 : (f && decide (b.rank = 1 ∧ a.rank = 1)) = decide ((packed f B N x).rank = 1 ∧ b.rank = 1 ∧ a.rank = 1) := by
    rw [Bool.eq_iff_iff]; simp [hr]
  rw [e1, C20_padding hb ha]
  have e2 : extended pm N (documentedPadding K P pm.isSome padlen).toNat = E := by
    subst hE
    funext x
    rcases pm with _ | _ | _ | _ | _ <;> rfl
  unfold twice forwardBackward
  rw [e2]

example := C20_tdf2_forward_backward (B := 3) (N := 20) (K := 4) (P := 1) (pm := some .reflect) (padlen := some 5) (.batched fun i j => (i : ℚ) + j)
  (.shared fun _ => (1 / 2 : ℚ)) (by decide) (by decide) (fun _ => by norm_num) (by decide) (by decide) rfl

/-- **C20, direct form II**: what is computed, as in `C20_tdf2_forward_backward`. -/
theorem C20_df2_forward_backward {B N K P : Nat} {b a : Tensor α} {bv av : Nat → Nat → α} {pm : Option PadMode}
    {padlen : Option Int} (hb : Rows B K b bv) (ha : Rows B P a av) (hK : 0 < K) (hP : 0 < P) (hKP : K ≤ P + 1)
    (hs : ∀ i, 1 + ∑ k ∈ Finset.range P, av i k ≠ 0) (he : documentedPadding K P pm.isSome padlen < N) (hN : 0 < N)
    {E : (Nat → α) → Nat → α}
    (hE : E = (match pm with
      | none => id
      | some .replicate => extendConst N (documentedPadding K P true padlen).toNat
      | some .reflect => extendMirror N (documentedPadding K P true padlen).toNat
      | some .constant => extendZero N (documentedPadding K P true padlen).toNat
      | some .circular => extendCyclic N (documentedPadding K P true padlen).toNat)) :
    ∃ z : Nat → Nat → α, (∀ i m, m < P →
      z i m = ∑ j ∈ Finset.range P, comp (av i) m j * z i j + if m = 0 then 1 else 0) ∧
      ∀ (X : Tensor α) (x : Nat → Nat → α) (u : Option Int), Sig N B X x → (∀ i, u = some i → 1 ≤ i) →
        filtfilt b a X pm padlen .df2 u = .ok (packed (decide (X.rank = 1 ∧ b.rank = 1 ∧ a.rank = 1)) B N fun i =>
          forwardBackward (fun x t => taps K (bv i) (dfSignal P (zext P (av i)) (fun m => z i m * x 0) x) t) E N
            (documentedPadding K P pm.isSome padlen).toNat (x i)) := by
  rw [← C20_padding hb ha] at he
  obtain ⟨z, h, hF⟩ := filtfilt_df2 hb ha hK hP hKP hs he hN
  refine ⟨z, h, fun X x u hX hu => ?_⟩
  obtain ⟨f, hf, rfl, hr⟩ := sig_eq_packed hX
  rw [hF hf hu]
  have e1 : (f && decide (b.rank = 1 ∧ a.rank = 1)) = decide ((packed f B N x).rank = 1 ∧ b.rank = 1 ∧ a.rank = 1) := by
    rw [Bool.eq_iff_iff]; simp [hr]
  rw [e1, C20_padding hb ha]
  have e2 : extended pm N (documentedPadding K P pm.isSome padlen).toNat = E := by
    subst hE
    funext x
    rcases pm with _ | _ | _ | _ | _ <;> rfl
  unfold twice forwardBackward
  rw [e2]

example := C20_df2_forward_backward (B := 3) (N := 20) (K := 2) (P := 1) (pm := some .reflect) (padlen := some 5) (.batched fun i j => (i : ℚ) + j)
  (.shared fun _ => (1 / 2 : ℚ)) (by decide) (by decide) (by decide) (fun _ => by norm_num) (by decide) (by decide) rfl

/-- **C20, zero phase, transposed direct form II** (real coefficients).  The result is part of a signal `V` with
`a(z) a(1/z) V = b(z) b(1/z) E(x)`, where `E(x)` is the signal extended by the documented padding, at every time that is at least the
order away from the ends of `E(x)`: both operators are symmetric in time. -/
theorem C20_zero_phase_tdf2 {B N K P : Nat} {b a : Tensor α} {bv av : Nat → Nat → α} {pm : Option PadMode}
    {padlen : Option Int} (hb : Rows B K b bv) (ha : Rows B P a av) (hK : 0 < K) (hM : 0 < max P (K - 1))
    (hbr : ∀ i j, star (bv i j) = bv i j) (har : ∀ i k, star (av i k) = av i k)
    (hs : ∀ i, 1 + ∑ k ∈ Finset.range P, av i k ≠ 0) (he : documentedPadding K P pm.isSome padlen < N) (hN : 0 < N)
    {E : (Nat → α) → Nat → α}
    (hE : E = (match pm with
      | none => id
      | some .replicate => extendConst N (documentedPadding K P true padlen).toNat
      | some .reflect => extendMirror N (documentedPadding K P true padlen).toNat
      | some .constant => extendZero N (documentedPadding K P true padlen).toNat
      | some .circular => extendCyclic N (documentedPadding K P true padlen).toNat))
    {X : Tensor α} {x : Nat → Nat → α} {u : Option Int} (hX : Sig N B X x) (hu : ∀ i, u = some i → 1 ≤ i) :
    ∃ V : Nat → Nat → α,
      filtfilt b a X pm padlen .tdf2 u = .ok (packed (decide (X.rank = 1 ∧ b.rank = 1 ∧ a.rank = 1)) B N fun i t =>
        V i ((documentedPadding K P pm.isSome padlen).toNat + t)) ∧
      ∀ i n, max P (K - 1) ≤ n → n + max P (K - 1) < N + 2 * (documentedPadding K P pm.isSome padlen).toNat →
        ∑ k ∈ Finset.range (P + 1), ∑ l ∈ Finset.range (P + 1), denom P (av i) k * denom P (av i) l * V i (n + k - l) =
          ∑ k ∈ Finset.range K, ∑ l ∈ Finset.range K, bv i k * bv i l * E (x i) (n + k - l) := by
  obtain ⟨z, -, h⟩ := C20_tdf2_forward_backward hb ha hK hM (fun i => by simpa only [har] using hs i) he hN hE
  have h := h X x u hX hu
  set e := (documentedPadding K P pm.isSome padlen).toNat
  have hst : ∀ i, (fun k => star (zext K (bv i) k)) = zext K (bv i) ∧ (fun k => star (zext P (av i) k)) = zext P (av i) := by
    intro i
    rw [zext_star, zext_star]
    exact ⟨congrArg _ (funext (hbr i)), congrArg _ (funext (har i))⟩
  let R : Nat → (Nat → α) → Nat → α := fun i x => tdf2Out (max P (K - 1)) (zext K (bv i)) (zext P (av i)) (fun m => z i m * x 0) x
  refine ⟨fun i t => R i (fun s => R i (E (x i)) (N + 2 * e - 1 - s)) (N + 2 * e - 1 - t), ?_, fun i n h1 h2 => ?_⟩
  · rw [h]
    refine congrArg Except.ok (packed_congr (fun hf => ?_) fun i t _ ht => ?_)
    · cases hX with
      | flat x => rfl
      | batched B x => simp at hf
    · unfold forwardBackward
      beta_reduce
      rw [(hst i).1, (hst i).2, show N + 2 * e - 1 - (e + t) = e + (N - 1 - t) by omega]
  · exact zero_phase (le_max_left _ _) (by omega)
      (fun n hn => tdf2_interior hM (by omega) (le_max_left _ _) (bv i) (av i) _ (E (x i)) hn)
      (fun n hn => tdf2_interior hM (by omega) (le_max_left _ _) (bv i) (av i) _ _ hn) h1 h2

/-- **C20, zero phase, direct form II**, real or complex coefficients, as `C20_zero_phase_tdf2`. -/
theorem C20_zero_phase_df2 {B N K P : Nat} {b a : Tensor α} {bv av : Nat → Nat → α} {pm : Option PadMode}
    {padlen : Option Int} (hb : Rows B K b bv) (ha : Rows B P a av) (hK : 0 < K) (hP : 0 < P) (hKP : K ≤ P + 1)
    (hs : ∀ i, 1 + ∑ k ∈ Finset.range P, av i k ≠ 0) (he : documentedPadding K P pm.isSome padlen < N) (hN : 0 < N)
    {E : (Nat → α) → Nat → α}
    (hE : E = (match pm with
      | none => id
      | some .replicate => extendConst N (documentedPadding K P true padlen).toNat
      | some .reflect => extendMirror N (documentedPadding K P true padlen).toNat
      | some .constant => extendZero N (documentedPadding K P true padlen).toNat
      | some .circular => extendCyclic N (documentedPadding K P true padlen).toNat))
    {X : Tensor α} {x : Nat → Nat → α} {u : Option Int} (hX : Sig N B X x) (hu : ∀ i, u = some i → 1 ≤ i) :
    ∃ V : Nat → Nat → α,
      filtfilt b a X pm padlen .df2 u = .ok (packed (decide (X.rank = 1 ∧ b.rank = 1 ∧ a.rank = 1)) B N fun i t =>
        V i ((documentedPadding K P pm.isSome padlen).toNat + t)) ∧
      ∀ i n, P ≤ n → n + P < N + 2 * (documentedPadding K P pm.isSome padlen).toNat →
        ∑ k ∈ Finset.range (P + 1), ∑ l ∈ Finset.range (P + 1), denom P (av i) k * denom P (av i) l * V i (n + k - l) =
          ∑ k ∈ Finset.range K, ∑ l ∈ Finset.range K, bv i k * bv i l * E (x i) (n + k - l) := by
  obtain ⟨z, -, h⟩ := C20_df2_forward_backward hb ha hK hP hKP hs he hN hE
  have h := h X x u hX hu
  set e := (documentedPadding K P pm.isSome padlen).toNat
  let R : Nat → (Nat → α) → Nat → α := fun i x t => taps K (bv i) (dfSignal P (zext P (av i)) (fun m => z i m * x 0) x) t
  refine ⟨fun i t => R i (fun s => R i (E (x i)) (N + 2 * e - 1 - s)) (N + 2 * e - 1 - t), ?_, fun i n h1 h2 => ?_⟩
  · rw [h]
    refine congrArg Except.ok (packed_congr (fun hf => ?_) fun i t _ ht => ?_)
    · cases hX with
      | flat x => rfl
      | batched B x => simp at hf
    · unfold forwardBackward
      beta_reduce
      rw [show N + 2 * e - 1 - (e + t) = e + (N - 1 - t) by omega]
  · exact zero_phase le_rfl hKP
      (fun n hn => df2_interior hP hKP le_rfl (bv i) (av i) _ (E (x i)) hn)
      (fun n hn => df2_interior hP hKP le_rfl (bv i) (av i) _ _ hn) h1 h2

example := C20_zero_phase_df2 (B := 3) (N := 20) (K := 2) (P := 1) (pm := some .constant) (padlen := some 5) (u := some 4)
  (.batched fun i j => (i : ℚ) + j) (.shared fun _ => (1 / 2 : ℚ)) (by decide) (by decide) (by decide) (fun _ => by norm_num) (by decide)
  (by decide) rfl (.batched 3 fun i t => (i : ℚ) * t) (by simp)

example := C20_tdf2_forward_backward (B := 1) (N := 20) (K := 2) (P := 1) (pm := some .circular) (padlen := some 19)
  (.shared fun j => (j : ℚ) + 1) (.shared fun _ => (1 / 2 : ℚ)) (by decide) (by decide) (fun _ => by norm_num) (by decide) (by decide) rfl

/-- Non-vacuity of `C20_zero_phase_tdf2`: a first-order filter, 20 samples, the default padding of 6. -/
example : ∃ V : Nat → Nat → ℚ, filtfilt (t1 2 fun j => (j : ℚ) + 1) (t1 1 fun _ => 1 / 2) (t1 20 fun t => (t : ℚ) * t) (some .replicate)
    none .tdf2 none = .ok (packed true 1 20 fun i t => V i (6 + t)) ∧
    ∀ n, 1 ≤ n → n + 1 < 32 → ∑ k ∈ Finset.range 2, ∑ l ∈ Finset.range 2, denom 1 (fun _ => (1 / 2 : ℚ)) k *
      denom 1 (fun _ => (1 / 2 : ℚ)) l * V 0 (n + k - l) =
      ∑ k ∈ Finset.range 2, ∑ l ∈ Finset.range 2, ((k : ℚ) + 1) * ((l : ℚ) + 1) * extendConst 20 6 (fun t => (t : ℚ) * t) (n + k - l) := by
  obtain ⟨V, h1, h2⟩ := C20_zero_phase_tdf2 (B := 1) (N := 20) (pm := some .replicate) (padlen := none)
    (.shared fun j => (j : ℚ) + 1) (.shared fun _ => (1 / 2 : ℚ)) (by decide) (by decide) (fun _ _ => rfl) (fun _ _ => rfl)
    (fun i => by norm_num) (by decide) (by decide) rfl (.flat fun t => (t : ℚ) * t) (u := none) (fun i hi => by cases hi) (K := 2) (P := 1)
  exact ⟨V, h1, fun n h3 h4 => h2 0 n h3 h4⟩

/-- Non-vacuity: three taps and one denominator coefficient are padded by nine samples; nine samples are too few. -/
example : Fails (filtfilt (t1 3 fun j => (j : ℚ) + 1) (t1 1 fun _ => (1 / 2 : ℚ)) (t1 9 fun _ => 5) (some .replicate) none .tdf2
    none) :=
  C20_too_short (B := 1) (x := fun _ _ => 5) (.shared fun j => (j : ℚ) + 1) (.shared fun _ => (1 / 2 : ℚ)) (.flat fun _ => 5)
    (by decide)

/-- Direct form I and its transpose, documented as accepted: with a batch of any size other than two, `filtfilt` raises,
because `lfilter` returns a lone tensor which is then unpacked into two values. -/
theorem C20_df1_raises {B N K P : Nat} {b a X : Tensor α} {bv av x : Nat → Nat → α} {pm : Option PadMode} {padlen : Option Int}
    {form : Form} {u : Option Int} (hform : form = .df1 ∨ form = .tdf1) (hb : Rows B K b bv) (ha : Rows B P a av) (hB : 0 < B)
    (hB2 : B ≠ 2) (hX : X = t2 B N x) (hK : 0 < K) (hM : 0 < max P (K - 1)) (hu : ∀ i, u = some i → 1 ≤ i) (hN : 0 < N) :
    Fails (filtfilt b a X pm padlen form u) := by
  subst hX
  unfold filtfilt filtfiltWith
  refine fails_check fun hlen => ?_
  have hx := extendSignal_eq (f := false) (B := B) (N := N) (by simp) x pm (edge := edgeLength b a pm padlen)
    (by simpa using hlen) (by rintro rfl; rfl)
  rw [packed_false] at hx
  rw [hx, packed_false]
  refine fails_bind fun ext hext => fails_bind fun zi hzi => fails_bind fun x0 hx0 => fails_bind fun zx hzx => ?_
  cases hext
  obtain ⟨y, _, _, hy⟩ := lfilter_diff (zi := some zx) hb ha
    (.batched B fun i => extended pm N (edgeLength b a pm padlen).toNat (x i)) (by rcases hform with rfl | rfl <;> simp)
    (Or.inr hform) hB hK hM (N := N + 2 * (edgeLength b a pm padlen).toNat) (by omega) hu
  refine fails_bind fun r hr => fails_left ?_
  beta_reduce at hr
  rw [hy] at hr
  cases hr
  unfold unpackPair
  refine fails_check fun h => (hB2 ?_).elim
  simpa [allFlat, packed] using h

/-- Direct form II with more than `P + 1` taps raises: `b = (1, 1, 1)`, `a = (0)`, the signal `(1, 1)` without padding. -/
theorem C20_df2_long_numerator :
    Fails (filtfilt (t1 3 fun _ => (1 : ℚ)) (t1 1 fun _ => 0) (t1 2 fun _ => 1) none none .df2 none) := by
  obtain ⟨zi, z, e, hz, h⟩ := lfilterZi_df2 (B := 1) (P := 1) (b := some (t1 3 fun _ => (1 : ℚ))) (.shared fun _ => (0 : ℚ))
    (by decide) (by simp)
  have h0 : z 0 0 = 1 := by
    have := h 0 0 (by decide)
    simpa [comp] using this
  unfold filtfilt filtfiltWith
  refine fails_check fun _ => ?_
  refine fails_bind fun ext hext => fails_bind fun zi' hzi => fails_bind fun x0 hx0 => fails_bind fun zx hzx => fails_left ?_
  cases hext
  have hzi := e.symm.trans hzi
  cases hzi
  have hx : slice (t1 2 fun _ => (1 : ℚ)) (-1) none (some 1) = .ok (t1 1 fun _ => 1) := slice_packed_first (B := 1) true (fun _ _ => 1) (by decide)
  rw [hx] at hx0
  cases hx0
  cases hz with
  | shared f =>
    rw [mul, zipWith_n_1] at hzx
    cases hzx
    rw [show (t1 1 fun i => f i * 1) = t1 1 fun _ => (1 : ℚ) from t1_congr rfl fun i hi => by
      rw [show i = 0 by omega]; simpa using h0]
    refine fails_of_isOk ?_
    decide +kernel
  | batched f =>
    rw [mul, zipWith_nm_1] at hzx
    cases hzx
    rw [show (t2 1 1 fun i j => z i j * 1) = t2 1 1 fun _ _ => (1 : ℚ) from t2_congr rfl rfl fun i j hi hj => by
      rw [show i = 0 by omega, show j = 0 by omega]; simpa using h0]
    refine fails_of_isOk ?_
    decide +kernel

/-- Non-vacuity: `b = (1, 2, 3)`, `a = (1/2)` (gain 4) and replicated ends; the signal of twelve fives becomes twelve eighties. -/
example : filtfilt (t1 3 fun j => (j : ℚ) + 1) (t1 1 fun _ => (1 / 2 : ℚ)) (t1 12 fun _ => 5) (some .replicate) none .tdf2 none =
    .ok (t1 12 fun _ => 80) := by
  obtain ⟨F, h1, _, h3⟩ := C20_tdf2_partial (B := 1) (N := 12) (K := 3) (P := 1) (pm := some .replicate) (padlen := none)
    (.shared fun j => (j : ℚ) + 1) (.shared fun _ => (1 / 2 : ℚ)) (by decide) (by decide) (by intro i; norm_num) (by decide)
    (by decide)
  have h3 := fun i t => h3 i 5 t (by simp) (fun _ => rfl) (fun _ => rfl)
  refine (h1 _ (fun _ _ => 5) none (.flat fun _ => 5) (by simp)).trans ?_
  refine congrArg Except.ok (t1_congr rfl fun t _ => ?_)
  rw [h3]
  have e1 : (5 : ℚ) * ((∑ j ∈ Finset.range 3, ((j : ℚ) + 1)) / (1 + ∑ k ∈ Finset.range 1, (1 / 2 : ℚ))) ^ 2 = 80 := by
    norm_num [Finset.sum_range_succ]
  exact e1

/-- Non-vacuity of `C20_df1_raises`. -/
example : Fails (filtfilt (t1 3 fun j => (j : ℚ) + 1) (t1 1 fun _ => (1 / 2 : ℚ)) (t2 3 12 fun i t => (i : ℚ) + t) (some .replicate)
    none .df1 none) :=
  C20_df1_raises (K := 3) (P := 1) (Or.inl rfl) (.shared fun j => (j : ℚ) + 1) (.shared fun _ => (1 / 2 : ℚ)) (by decide) (by decide)
    rfl (by decide) (by decide) (by simp) (by decide)

/-- **Signals with three axes.** With padding the first two axes are merged, so the result has two axes; without padding `filtfilt`
raises.  Documented are one and two axes. -/
theorem C20_three_axes_merged {C B N : Nat} {b a : Tensor α} {mode : PadMode} {padlen : Option Int} {form : Form} {u : Option Int}
    (x : Nat → Nat → Nat → α) (he : 0 < edgeLength b a (some mode) padlen) :
    filtfilt b a (t3 C B N x) (some mode) padlen form u =
      filtfilt b a (t2 (C * B) N fun i t => x (i / B) (i % B) t) (some mode) padlen form u := by
  have e : extendSignal (t3 C B N x) (some mode) (edgeLength b a (some mode) padlen) =
      extendSignal (t2 (C * B) N fun i t => x (i / B) (i % B) t) (some mode) (edgeLength b a (some mode) padlen) := by
    unfold extendSignal
    simp only [if_pos he, rank_t3, rank_t2, show ¬ (3 = 1) by decide, show ¬ (2 = 1) by decide, if_false]
    rw [show flatten (t3 C B N x) 0 (-2) = .ok (t2 (C * B) N fun i t => x (i / B) (i % B) t) from flatten_t3_0_1 _ _ _ _,
      flatten_single (p := 0) (x := t2 (C * B) N _) (by rfl) (by rfl) (by simp)]
  unfold filtfilt filtfiltWith
  rw [e, size_t3_n1, size_t2_n1]

example := C20_three_axes_merged (C := 2) (B := 3) (N := 20) (b := t1 2 fun j => (j : ℚ) + 1) (a := t1 1 fun _ => (1 / 2 : ℚ))
  (mode := .circular) (padlen := none) (form := .tdf2) (u := none) (fun i j t => (i : ℚ) + j * t) (by decide)

theorem C20_three_axes_raises {C B N : Nat} {b a : Tensor α} {padlen : Option Int} {form : Form} {u : Option Int}
    (x : Nat → Nat → Nat → α) : Fails (filtfilt b a (t3 C B N x) none padlen form u) := by
  unfold filtfilt filtfiltWith
  refine fails_check fun _ => fails_bind fun e he => ?_
  cases he
  refine fails_bind fun zi _ => fails_bind fun x0 _ => fails_bind fun zx _ => fails_left ?_
  unfold lfilter lfilterWith
  exact fails_left ⟨_, rfl⟩

end Props
