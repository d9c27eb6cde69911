import Verif.Model.LtiFiltfilt
import Verif.Spec.Filtfilt
import Verif.Proof.LtiInit
import Verif.Proof.FilterStream
import Verif.Proof.LtiComb

/-! # `filtfilt` -/

namespace Torch.Tensor
open Spec
variable {α : Type} [Zero α]

theorem padReplicate_t2 (n m e : Nat) (f : Nat → Nat → α) (hm : 0 < m) :
    padReplicate (t2 n m f) e e = .ok (t2 n (m + e + e) fun i j => extendConst m e (f i) j) := by
  unfold padReplicate
  refine bind_step (v := 1) rfl ?_
  refine check_step (by simpa using hm) ?_
  refine congrArg Except.ok (ext2 (n := n) (m := m + e + e) (by simp) rfl fun i j hi hj => ?_)
  rw [get_t2 hi hj]
  simp only [shape_t2, List.set, List.getD_cons_zero, List.getD_cons_succ]
  rw [get_ofFn2 hi hj]
  simp only [List.set, List.getD_cons_zero, List.getD_cons_succ]
  exact get_t2 hi (by omega)

theorem padReflect_t2 (n m e : Nat) (f : Nat → Nat → α) (hm : e < m) :
    padReflect (t2 n m f) e e = .ok (t2 n (m + e + e) fun i j => extendMirror m e (f i) j) := by
  unfold padReflect
  refine bind_step (v := 1) rfl ?_
  refine check_step (by simpa using hm) ?_
  refine congrArg Except.ok (ext2 (n := n) (m := m + e + e) (by simp) rfl fun i j hi hj => ?_)
  rw [get_t2 hi hj]
  simp only [shape_t2, List.set, List.getD_cons_zero, List.getD_cons_succ]
  rw [get_ofFn2 hi hj]
  simp only [List.set, List.getD_cons_zero, List.getD_cons_succ]
  unfold extendMirror
  split
  · exact get_t2 hi (by omega)
  · split
    · exact get_t2 hi (by omega)
    · exact get_t2 hi (by omega)

theorem padCircular_t2 (n m e : Nat) (f : Nat → Nat → α) (hm : e < m) :
    padCircular (t2 n m f) e e = .ok (t2 n (m + e + e) fun i j => extendCyclic m e (f i) j) := by
  unfold padCircular
  refine bind_step (v := 1) rfl ?_
  refine check_step (by simpa using hm.le) ?_
  refine congrArg Except.ok (ext2 (n := n) (m := m + e + e) (by simp) rfl fun i j hi hj => ?_)
  rw [get_t2 hi hj]
  simp only [shape_t2, List.set, List.getD_cons_zero, List.getD_cons_succ]
  rw [get_ofFn2 hi hj]
  simp only [List.set, List.getD_cons_zero, List.getD_cons_succ]
  rw [get_t2 hi (Nat.mod_lt _ (by omega))]
  unfold extendCyclic
  split_ifs with h1 h2
  · rw [Nat.mod_eq_of_lt (by omega), Nat.add_comm]
  · rw [show j + (m - e) = j - e + m by omega, Nat.add_mod_right, Nat.mod_eq_of_lt (by omega)]
  · rw [show j + (m - e) = j - e - m + m + m by omega, Nat.add_mod_right, Nat.add_mod_right, Nat.mod_eq_of_lt (by omega)]

theorem padZero_t2 (n m e : Nat) (f : Nat → Nat → α) :
    padDim (t2 n m f) (-1) (e : Int) (e : Int) 0 = .ok (t2 n (m + e + e) fun i j => extendZero m e (f i) j) := by
  unfold padDim
  tev_list
  rw [check_true (by omega)]
  refine congrArg Except.ok (ext2 (n := n) (m := m + e + e) (by simp; omega) rfl ?_)
  intro i j hi hj
  rw [get_t2 hi hj]
  tev_pad
  unfold extendZero
  split_ifs <;> first | tev_core | omega

end Torch.Tensor

namespace Spec
open Finset
variable {α : Type} [CommRing α]

/-- The recurrence is linear in state and input together. -/
theorem vecRec_linear (M : Nat) (A : Nat → Nat → Nat → α) (c : α) (z z' : Nat → α) (x x' : Nat → Nat → α) (t i : Nat) :
    vecRec M A (fun k => c * z k + z' k) (fun t k => c * x t k + x' t k) t i =
      c * vecRec M A z x t i + vecRec M A z' x' t i := by
  induction t generalizing i with
  | zero => rfl
  | succ t ih =>
    simp only [vecRec]
    rw [sum_congr rfl fun k _ => by rw [ih k], mul_add, mul_sum]
    rw [show (∑ k ∈ range M, A t i k * (c * vecRec M A z x t k + vecRec M A z' x' t k)) =
      ∑ k ∈ range M, c * (A t i k * vecRec M A z x t k) + ∑ k ∈ range M, A t i k * vecRec M A z' x' t k by
        rw [← sum_add_distrib]; exact sum_congr rfl fun k _ => by ring]
    ring

theorem tdf2State_linear (M : Nat) (b a : Nat → α) (c : α) (z z' x x' : Nat → α) (t i : Nat) :
    tdf2State M b a (fun k => c * z k + z' k) (fun t => c * x t + x' t) t i =
      c * tdf2State M b a z x t i + tdf2State M b a z' x' t i := by
  unfold tdf2State
  rw [← vecRec_linear]
  congr 1
  funext t k; ring

theorem tdf2Out_linear (M : Nat) (b a : Nat → α) (c : α) (z z' x x' : Nat → α) (t : Nat) :
    tdf2Out M b a (fun k => c * z k + z' k) (fun t => c * x t + x' t) t =
      c * tdf2Out M b a z x t + tdf2Out M b a z' x' t := by
  unfold tdf2Out
  rw [tdf2State_linear]; ring

theorem dfSignal_linear (M : Nat) (a : Nat → α) (c : α) (z z' x x' : Nat → α) (n : Int) :
    dfSignal M a (fun k => c * z k + z' k) (fun t => c * x t + x' t) n =
      c * dfSignal M a z x n + dfSignal M a z' x' n := by
  unfold dfSignal withPast
  split
  · rfl
  · rw [← vecRec_linear]
    beta_reduce
    congr 1
    funext t k; unfold first; split <;> ring

theorem taps_linear (K : Nat) (b : Nat → α) (c : α) (x x' : Int → α) (n : Int) :
    taps K b (fun n => c * x n + x' n) n = c * taps K b x n + taps K b x' n := by
  unfold taps
  rw [mul_sum, ← sum_add_distrib]
  exact sum_congr rfl fun j _ => by ring

end Spec

namespace Phil.Lti
open Torch Torch.Tensor Spec

section
variable {α : Type} [CommRing α]

/-- The values of the extended signal. -/
def extended (pm : Option PadMode) (N e : Nat) (x : Nat → α) : Nat → α :=
  match pm with
  | none => x
  | some .replicate => extendConst N e x
  | some .reflect => extendMirror N e x
  | some .constant => extendZero N e x
  | some .circular => extendCyclic N e x

theorem extended_zero (pm : Option PadMode) {N t : Nat} (h : t < N) (x : Nat → α) : extended pm N 0 x t = x t := by
  unfold extended
  split
  · rfl
  · unfold extendConst; congr 1; omega
  · unfold extendMirror; rw [if_neg (by omega), if_pos (by omega)]; rfl
  · unfold extendZero; rw [if_pos (by omega)]; rfl
  · unfold extendCyclic; rw [if_neg (by omega), if_pos (by omega)]; rfl

theorem extended_linear (pm : Option PadMode) (N e : Nat) (c : α) (x x' : Nat → α) :
    extended pm N e (fun t => c * x t + x' t) = fun t => c * extended pm N e x t + extended pm N e x' t := by
  funext t
  unfold extended
  split
  · rfl
  · rfl
  · unfold extendMirror; split_ifs <;> rfl
  · unfold extendZero; split_ifs
    · rfl
    · ring
  · unfold extendCyclic; split_ifs <;> rfl

theorem Sig_congr {N B : Nat} {X : Tensor α} {x x' : Nat → Nat → α} (h : Sig N B X x) (hx : ∀ i t, i < B → t < N → x i t = x' i t) :
    Sig N B X x' ∨ ∃ y, Sig N B X y ∧ B = 1 ∧ ∀ t, y 0 t = x' 0 t := by
  cases h with
  | flat f =>
    refine Or.inr ⟨fun _ => x' 0, ?_, rfl, fun _ => rfl⟩
    rw [show t1 N f = t1 N (x' 0) from t1_congr rfl fun t ht => hx 0 t (by decide) ht]
    exact .flat _
  | batched B f =>
    rw [show t2 B N x = t2 B N x' from t2_congr rfl rfl hx]
    exact Or.inl (.batched _ _)

theorem sig_packed {N B : Nat} {f : Bool} (hf : f = true → B = 1) (y : Nat → Nat → α) :
    ∃ y', Sig N B (packed f B N y) y' ∧ ∀ i, i < B → y' i = y i := by
  cases f with
  | true =>
    obtain rfl := hf rfl
    exact ⟨_, .flat (y 0), fun i hi => by rw [show i = 0 by omega]⟩
  | false => exact ⟨y, .batched _ _, fun _ _ => rfl⟩

theorem sig_eq_packed {N B : Nat} {X : Tensor α} {x : Nat → Nat → α} (h : Sig N B X x) :
    ∃ f : Bool, (f = true → B = 1) ∧ X = packed f B N x ∧ (f = true ↔ X.rank = 1) := by
  cases h with
  | flat x => exact ⟨true, fun _ => rfl, rfl, by simp⟩
  | batched B x => exact ⟨false, by simp, rfl, by simp⟩

theorem extendSignal_eq {N B : Nat} {f : Bool} (hf : f = true → B = 1) (x : Nat → Nat → α) (pm : Option PadMode) {edge : Int}
    (h : edge < N) (h0 : pm = none → edge = 0) :
    extendSignal (packed f B N x) pm edge =
      .ok (packed f B (N + 2 * edge.toNat) fun i => extended pm N edge.toNat (x i)) := by
  unfold extendSignal
  cases pm with
  | none => rw [h0 rfl]; rfl
  | some mode =>
    simp only
    split
    · rename_i he
      have hN : N + 2 * edge.toNat = N + edge.toNat + edge.toNat := by ring
      have hpad : ∀ B (x : Nat → Nat → α), padMode mode (t2 B N x) edge.toNat =
          .ok (t2 B (N + 2 * edge.toNat) fun i => extended (some mode) N edge.toNat (x i)) := by
        intro B x
        rw [hN]
        cases mode with
        | replicate => exact padReplicate_t2 _ _ _ _ (by omega)
        | reflect => exact padReflect_t2 _ _ _ _ (by omega)
        | constant => exact padZero_t2 _ _ _ _
        | circular => exact padCircular_t2 _ _ _ _ (by omega)
      cases f with
      | true =>
        simp only [packed, if_true, rank_t1]
        refine bind_step (unsqueeze_t1_0 _ _) (bind_step (hpad _ _) ?_)
        exact squeeze_t2_0 _ _
      | false =>
        simp only [packed, Bool.false_eq_true, if_false, rank_t2]
        rw [if_neg (by decide)]
        refine bind_step (flatten_single (p := 0) (by rfl) (by rfl) (by simp)) (bind_step (hpad _ _) rfl)
    · rename_i he
      rw [show edge.toNat = 0 by omega, pure_eq_ok]
      refine congrArg Except.ok ?_
      exact packed_congr hf fun i t hi ht => (extended_zero _ ht _).symm

/-- `zi * x0`. -/
theorem scaled_state {B M : Nat} {f : Bool} {zi : Tensor α} {z : Nat → Nat → α} (hf : f = true → B = 1) (hz : Rows B M zi z)
    (x0 : Nat → α) :
    ∃ z', mul zi (packed f B 1 fun i _ => x0 i) = .ok z' ∧ (∃ v, Rows B M z' v ∧ ∀ i, i < B → ∀ m, v i m = z i m * x0 i) ∧
      (z'.rank = 1 ↔ f = true ∧ zi.rank = 1) := by
  cases hz with
  | shared g =>
    cases f with
    | true =>
      obtain rfl := hf rfl
      simp only [packed, if_true]
      exact ⟨_, zipWith_n_1 _ _ _ _, ⟨_, .shared _, fun i hi m => by rw [show i = 0 by omega]⟩, by simp⟩
    | false =>
      rw [packed_false]
      exact ⟨_, zipWith_m_n1 _ _ _ _ _, ⟨_, .batched _, fun i hi m => rfl⟩, by simp⟩
  | batched g =>
    cases f with
    | true =>
      obtain rfl := hf rfl
      simp only [packed, if_true]
      exact ⟨_, zipWith_nm_1 _ _ _ _ _, ⟨_, .batched _, fun i hi m => by rw [show i = 0 by omega]⟩, by simp⟩
    | false =>
      rw [packed_false]
      exact ⟨_, zipWith_nm_n1 _ _ _ _ _, ⟨_, .batched _, fun i hi m => rfl⟩, by simp⟩

theorem slice_packed_first {B L : Nat} (f : Bool) (y : Nat → Nat → α) (hL : 0 < L) :
    slice (packed f B L y) (-1) none (some 1) = .ok (packed f B 1 fun i _ => y i 0) := by
  cases f with
  | true =>
    simp only [packed, if_true]
    rw [slice_t1_n1, pyStop_one, pyStart_none]
    exact congrArg Except.ok (t1_congr (by omega) fun t ht => by congr 1; omega)
  | false =>
    simp only [packed, Bool.false_eq_true, if_false]
    rw [slice_t2_n1, pyStop_one, pyStart_none]
    exact congrArg Except.ok (t2_congr rfl (by omega) fun i t _ ht => by congr 1; omega)

theorem slice_packed_last {B L : Nat} (f : Bool) (y : Nat → Nat → α) (hL : 0 < L) :
    slice (packed f B L y) (-1) (some (-1)) none = .ok (packed f B 1 fun i _ => y i (L - 1)) := by
  have h : pyStart L (some (-1)) = L - 1 := by simp only [pyStart, pyBound]; split <;> omega
  cases f with
  | true =>
    simp only [packed, if_true]
    rw [slice_t1_n1, pyStop_none, h]
    exact congrArg Except.ok (t1_congr (by omega) fun t ht => by congr 1; omega)
  | false =>
    simp only [packed, Bool.false_eq_true, if_false]
    rw [slice_t2_n1, pyStop_none, h]
    exact congrArg Except.ok (t2_congr rfl (by omega) fun i t _ ht => by congr 1; omega)

theorem flip_packed {B L : Nat} (f : Bool) (y : Nat → Nat → α) :
    flip (packed f B L y) (-1) = .ok (packed f B L fun i t => y i (L - 1 - t)) := by
  cases f with
  | true => exact flip_t1_n1 _ _
  | false => exact flip_t2_n1 _ _ _

theorem slice_packed_mid {B N : Nat} (f : Bool) {edge : Int} (y : Nat → Nat → α) (he : 0 < edge) :
    slice (packed f B (N + 2 * edge.toNat) y) (-1) (some edge) (some (-edge)) =
      .ok (packed f B N fun i t => y i (edge.toNat + t)) := by
  lift edge to ℕ using he.le
  have h1 : pyStart (N + 2 * edge) (some (edge : Int)) = edge := by rw [pyStart_nat]; omega
  have h2 : pyStop (N + 2 * edge) (some (-(edge : Int))) = N + edge := by rw [pyStop_neg _ _ (by omega)]; omega
  simp only [Int.toNat_natCast]
  cases f with
  | true =>
    simp only [packed, if_true]
    rw [slice_t1_n1, h1, h2]
    exact congrArg Except.ok (t1_congr (by omega) fun t ht => by rw [Nat.add_comm])
  | false =>
    simp only [packed, Bool.false_eq_true, if_false]
    rw [slice_t2_n1, h1, h2]
    exact congrArg Except.ok (t2_congr rfl (by omega) fun i t _ ht => by rw [Nat.add_comm])

end

variable {α : Type} [Field α] [StarRing α]

/-- One pass of the filter with the scaled steady state. -/
def Pass (filt : Tensor α → Tensor α → Tensor α → Option (Tensor α) → Res (Tensor α × Option (Tensor α))) (b a : Tensor α) (B M L : Nat) (z : Nat → Nat → α)
    (x y : Nat → Nat → α) : Prop :=
  ∀ (f : Bool) (z' : Tensor α) (v : Nat → Nat → α), (f = true → B = 1) → Rows B M z' v →
    (∀ i, i < B → ∀ m, v i m = z i m * x i 0) →
    ∃ zf, filt b a (packed f B L x) (some z') = .ok (packed (allFlat (packed f B L x) b a (some z')) B L y, some zf)

theorem filtfilt_eq {filt : Tensor α → Tensor α → Tensor α → Option (Tensor α) → Res (Tensor α × Option (Tensor α))} {B N M : Nat} {b a zi : Tensor α} {z : Nat → Nat → α} {f : Bool} {pm : Option PadMode}
    {padlen : Option Int} {form : Form} (hf : f = true → B = 1) (x y1 y2 : Nat → Nat → α)
    (he : edgeLength b a pm padlen < N) (hN : 0 < N) (ezi : lfilterZi a (some b) form.isTdf2 = .ok zi) (hz : Rows B M zi z)
    (hzr : b.rank = 1 → a.rank = 1 → zi.rank = 1)
    (h1 : Pass filt b a B M (N + 2 * (edgeLength b a pm padlen).toNat) z
      (fun i => extended pm N (edgeLength b a pm padlen).toNat (x i)) y1)
    (h2 : Pass filt b a B M (N + 2 * (edgeLength b a pm padlen).toNat) z
      (fun i t => y1 i (N + 2 * (edgeLength b a pm padlen).toNat - 1 - t)) y2) :
    filtfiltWith filt b a (packed f B N x) pm padlen form =
      .ok (packed (f && decide (b.rank = 1 ∧ a.rank = 1)) B N fun i t =>
        y2 i ((edgeLength b a pm padlen).toNat + (N - 1 - t))) := by
  unfold filtfiltWith
  have h0 : pm = none → edgeLength b a pm padlen = 0 := by rintro rfl; rfl
  generalize edgeLength b a pm padlen = edge at *
  refine check_step (by cases f <;> simpa [packed] using he) ?_
  refine bind_step (extendSignal_eq hf x pm he h0) ?_
  refine bind_step ezi ?_
  refine bind_step (slice_packed_first _ _ (by omega)) ?_
  obtain ⟨zx, e1, ⟨v, hv, hv'⟩, r1⟩ := scaled_state hf hz fun i => extended pm N edge.toNat (x i) 0
  refine bind_step e1 ?_
  obtain ⟨zf, e2⟩ := h1 f zx v hf hv hv'
  refine bind_step e2 ?_
  have hflat : ∀ (f : Bool) (L : Nat) (w : Nat → Nat → α) (zx : Tensor α), (zx.rank = 1 ↔ f = true ∧ zi.rank = 1) →
      allFlat (packed f B L w) b a (some zx) = (f && decide (b.rank = 1 ∧ a.rank = 1)) := by
    intro f L w zx r
    unfold allFlat
    have hr : (packed f B L w).rank = 1 ↔ f = true := by cases f <;> simp [packed]
    rw [Bool.eq_iff_iff]
    simp only [decide_eq_true_eq, Bool.and_eq_true, hr]
    constructor
    · rintro ⟨hh1, hh2, hh3, _⟩; exact ⟨hh1, hh2, hh3⟩
    · rintro ⟨hh1, hh2, hh3⟩
      refine ⟨hh1, hh2, hh3, fun z hz' => ?_⟩
      cases hz'
      exact r.2 ⟨hh1, hzr hh2 hh3⟩
  rw [hflat _ _ _ _ r1]
  have hf' : (f && decide (b.rank = 1 ∧ a.rank = 1)) = true → B = 1 := fun h => hf (Bool.and_eq_true _ _ ▸ h).1
  refine bind_step (v := packed (f && decide (b.rank = 1 ∧ a.rank = 1)) B (N + 2 * edge.toNat) y1) rfl ?_
  refine bind_step (slice_packed_last _ _ (by omega)) ?_
  refine bind_step (flip_packed _ _) ?_
  obtain ⟨zy, e3, ⟨v', hv, hv'⟩, r2⟩ := scaled_state hf' hz fun i => y1 i (N + 2 * edge.toNat - 1)
  refine bind_step e3 ?_
  obtain ⟨zf, e4⟩ := h2 _ zy v' hf' hv (by simpa using hv')
  refine bind_step e4 ?_
  rw [hflat _ _ _ _ r2]
  have hff : ((f && decide (b.rank = 1 ∧ a.rank = 1)) && decide (b.rank = 1 ∧ a.rank = 1)) = (f && decide (b.rank = 1 ∧ a.rank = 1)) := by
    cases f <;> simp
  rw [hff]
  refine bind_step (v := packed (f && decide (b.rank = 1 ∧ a.rank = 1)) B (N + 2 * edge.toNat) y2) rfl ?_
  refine bind_step (v := packed (f && decide (b.rank = 1 ∧ a.rank = 1)) B N fun i t => y2 i (edge.toNat + t)) ?_ ?_
  · split
    · rename_i hpos
      exact slice_packed_mid _ _ hpos
    · rename_i hpos
      rw [show edge.toNat = 0 by omega]
      simp only [Nat.zero_add, Nat.mul_zero, Nat.add_zero]; rfl
  · exact flip_packed _ _

omit [StarRing α] in
/-- The steady state of a filter without batch axes has no batch axis. -/
theorem rank_of_rows {B M : Nat} {zi : Tensor α} {z z' : Nat → Nat → α} (h : Rows B M zi z) (h' : Rows (B + 1) M zi z') : zi.rank = 1 := by
  generalize hB : B + 1 = B' at h'
  cases h with
  | shared f => simp
  | batched f =>
    exfalso
    generalize ht : t2 B M z = t at h'
    cases h' with
    | shared g => have := congrArg shape ht; simp at this
    | batched g => have := congrArg shape ht; simp at this; omega

theorem zi_rank_tdf2 {B K P : Nat} {b a zi : Tensor α} {bv av : Nat → Nat → α} (hb : Rows B K b bv) (ha : Rows B P a av)
    (hK : 0 < K) (hM : 0 < max P (K - 1)) (hs : ∀ i, 1 + ∑ k ∈ Finset.range P, star (av i k) ≠ 0)
    (e : lfilterZi a (some b) true = .ok zi) (hbr : b.rank = 1) (har : a.rank = 1) : zi.rank = 1 := by
  cases hb with
  | batched f => simp at hbr
  | shared f =>
    cases ha with
    | batched f => simp at har
    | shared g =>
      obtain ⟨z1, _, e1, h1, _⟩ := lfilterZi_tdf2 (B := 1) (.shared f) (.shared g) hK hM hs
      obtain ⟨z2, _, e2, h2, _⟩ := lfilterZi_tdf2 (B := 2) (.shared f) (.shared g) hK hM hs
      rw [e] at e1 e2; cases e1; cases e2
      exact rank_of_rows h1 h2

theorem zi_rank_df2 {B P : Nat} {a zi : Tensor α} {b : Option (Tensor α)} {av : Nat → Nat → α} (ha : Rows B P a av)
    (hP : 0 < P) (hs : ∀ i, 1 + ∑ k ∈ Finset.range P, av i k ≠ 0)
    (e : lfilterZi a b false = .ok zi) (har : a.rank = 1) : zi.rank = 1 := by
  cases ha with
  | batched f => simp at har
  | shared g =>
    obtain ⟨z1, _, e1, h1, _⟩ := lfilterZi_df2 (B := 1) (b := b) (.shared g) hP hs
    obtain ⟨z2, _, e2, h2, _⟩ := lfilterZi_df2 (B := 2) (b := b) (.shared g) hP hs
    rw [e] at e1 e2; cases e1; cases e2
    exact rank_of_rows h1 h2

omit [StarRing α] in
/-- Steady response of transposed direct form II to a constant. -/
theorem tdf2_dc {K P : Nat} {b a z : Nat → α} (hK : 0 < K) (hM : 0 < max P (K - 1)) (hs : 1 + ∑ k ∈ Finset.range P, a k ≠ 0)
    (h : ∀ m, m < max P (K - 1) → z m = ∑ j ∈ Finset.range (max P (K - 1)), comp (zext P a) j m * z j +
      (zext K b (m + 1) - zext K b 0 * zext P a m)) (c : α) (t : Nat) :
    tdf2Out (max P (K - 1)) (zext K b) (zext P a) (fun m => z m * c) (fun _ => c) t =
      c * ((∑ j ∈ Finset.range K, b j) / (1 + ∑ k ∈ Finset.range P, a k)) := by
  have hc : ∀ m, m < max P (K - 1) → z m * c = ∑ j ∈ Finset.range (max P (K - 1)), comp (zext P a) j m * (z j * c) +
      (zext K b (m + 1) - zext K b 0 * zext P a m) * c := by
    intro m hm
    rw [h m hm, add_mul, Finset.sum_mul]
    exact congrArg₂ (· + ·) (Finset.sum_congr rfl fun j _ => by ring) (by ring)
  rw [tdf2Out, tdf2_steady hc t hM, zext_lt _ hK]
  have h1 := steady_sum hM h
  rw [sum_zext_one (by omega), Finset.sum_sub_distrib, ← Finset.mul_sum, sum_zext_one (by omega), zext_lt _ hK] at h1
  have h2 : ∑ j ∈ Finset.range (max P (K - 1) + 1), zext K b j = ∑ j ∈ Finset.range K, b j := sum_zext_one (by omega) _
  rw [Finset.sum_range_succ', zext_lt _ hK] at h2
  field_simp
  rw [← h2]
  linear_combination c * h1

omit [StarRing α] in
/-- Steady response of direct form II to a constant. -/
theorem df2_dc {K P : Nat} {b a z : Nat → α} (hP : 0 < P) (hKP : K ≤ P + 1) (hs : 1 + ∑ k ∈ Finset.range P, a k ≠ 0)
    (h : ∀ m, m < P → z m = ∑ j ∈ Finset.range P, comp a m j * z j + if m = 0 then 1 else 0) (c : α) (t : Nat) :
    taps K b (dfSignal P (zext P a) (fun m => z m * c) (fun _ => c)) t =
      c * ((∑ j ∈ Finset.range K, b j) / (1 + ∑ k ∈ Finset.range P, a k)) := by
  have hza : ∀ k, k < P → zext P a k = a k := fun k hk => zext_lt _ hk
  have hcomp : ∀ m j, j < P → comp (zext P a) m j = comp a m j := by
    intro m j hj; unfold comp; rw [hza j hj]
  have hc : ∀ m, m < P → z m * c = ∑ j ∈ Finset.range P, comp (zext P a) m j * (z j * c) + if m = 0 then c else 0 := by
    intro m hm
    rw [h m hm, add_mul, Finset.sum_mul]
    refine congrArg₂ (· + ·) (Finset.sum_congr rfl fun j hj => ?_) (by split <;> simp)
    rw [hcomp m j (Finset.mem_range.1 hj)]; ring
  have hst := fun t m (hm : m < P) => df2_steady hc t hm
  have hz0 : ∀ m, m < P → z m = 1 / (1 + ∑ k ∈ Finset.range P, a k) := by
    have hstep : ∀ m, m < P → z m = z 0 := by
      intro m hm
      induction m with
      | zero => rfl
      | succ m ih =>
        rw [h (m + 1) hm, comp_mv _ _ hm, if_neg (by omega), if_neg (by omega), Nat.add_sub_cancel, add_zero]
        exact ih (by omega)
    have h0 : z 0 = 1 / (1 + ∑ k ∈ Finset.range P, a k) := by
      have := h 0 hP
      rw [comp_mv _ _ hP, if_pos rfl, if_pos rfl, Finset.sum_congr rfl fun k hk => by
        rw [hstep k (Finset.mem_range.1 hk)], ← Finset.sum_mul] at this
      rw [eq_div_iff hs]
      linear_combination this
    intro m hm
    rw [hstep m hm, h0]
  rw [← taps_zext (M := P + 1) hKP, ← df_output hP, Finset.sum_congr rfl fun m hm => by
    rw [hst t m (Finset.mem_range.1 hm), hz0 m (Finset.mem_range.1 hm), hza m (Finset.mem_range.1 hm)]]
  have h2 : ∑ j ∈ Finset.range (P + 1), zext K b j = ∑ j ∈ Finset.range K, b j := sum_zext_one (by omega) _
  rw [Finset.sum_range_succ'] at h2
  rw [← Finset.sum_mul, Finset.sum_sub_distrib, ← Finset.mul_sum, ← h2]
  field_simp
  ring

/-- Both passes, for a single item: `R` is one pass with the scaled steady state. -/
def twice (R : (Nat → α) → Nat → α) (pm : Option PadMode) (N e : Nat) (x : Nat → α) (t : Nat) : α :=
  R (fun s => R (extended pm N e x) (N + 2 * e - 1 - s)) (e + (N - 1 - t))

omit [StarRing α] in
theorem twice_linear {R : (Nat → α) → Nat → α}
    (h : ∀ c x x' t, R (fun t => c * x t + x' t) t = c * R x t + R x' t) (pm : Option PadMode) (N e : Nat) (c : α) (x x' : Nat → α)
    (t : Nat) : twice R pm N e (fun t => c * x t + x' t) t = c * twice R pm N e x t + twice R pm N e x' t := by
  unfold twice
  rw [extended_linear, ← h]
  congr 1
  funext s
  exact h _ _ _ _

omit [StarRing α] in
theorem twice_const {R : (Nat → α) → Nat → α} {G : α} (h : ∀ c t, R (fun _ => c) t = c * G) {pm : Option PadMode}
    (hpm : pm ≠ some .constant) (N e : Nat) (c : α) (t : Nat) : twice R pm N e (fun _ => c) t = c * G ^ 2 := by
  have he : extended pm N e (fun _ => c) = fun _ => c := by
    funext t
    unfold extended
    split
    · rfl
    · rfl
    · unfold extendMirror; split_ifs <;> rfl
    · exact absurd rfl hpm
    · unfold extendCyclic; split_ifs <;> rfl
  unfold twice
  simp only [he, h]
  ring

theorem filtfilt_tdf2 {B N K P : Nat} {b a : Tensor α} {bv av : Nat → Nat → α} (hb : Rows B K b bv)
    (ha : Rows B P a av) (hK : 0 < K) (hM : 0 < max P (K - 1)) (hs : ∀ i, 1 + ∑ k ∈ Finset.range P, star (av i k) ≠ 0)
    {pm : Option PadMode} {padlen : Option Int} (he : edgeLength b a pm padlen < N) (hN : 0 < N) :
    ∃ z : Nat → Nat → α, (∀ i m, m < max P (K - 1) →
      z i m = ∑ j ∈ Finset.range (max P (K - 1)), comp (fun k => star (zext P (av i) k)) j m * z i j +
        (zext K (bv i) (m + 1) - zext K (bv i) 0 * zext P (av i) m)) ∧
      ∀ {f : Bool} {x : Nat → Nat → α} {u : Option Int}, (f = true → B = 1) → (∀ i, u = some i → 1 ≤ i) →
        filtfilt b a (packed f B N x) pm padlen .tdf2 u = .ok (packed (f && decide (b.rank = 1 ∧ a.rank = 1)) B N fun i =>
          twice (fun x => tdf2Out (max P (K - 1)) (fun k => star (zext K (bv i) k)) (fun k => star (zext P (av i) k))
            (fun m => z i m * x 0) x) pm N (edgeLength b a pm padlen).toNat (x i)) := by
  obtain ⟨zi, z, e, hz, h⟩ := lfilterZi_tdf2 hb ha hK hM hs
  refine ⟨z, h, fun {f x u} hf hu => ?_⟩
  have key : ∀ x, Pass (fun b a x zi => lfilter b a x zi .tdf2 u) b a B (max P (K - 1)) (N + 2 * (edgeLength b a pm padlen).toNat) z x fun i =>
      tdf2Out (max P (K - 1)) (fun k => star (zext K (bv i) k)) (fun k => star (zext P (av i) k))
        (fun m => z i m * x i 0) (x i) := by
    intro x f z' v hf hv hv'
    obtain ⟨x', hx, hx'⟩ := sig_packed (N := N + 2 * (edgeLength b a pm padlen).toNat) hf x
    refine ⟨_, (lfilter_tdf2 hb ha hx (rows_init hv) hK hM (by omega) hu).trans (ok_pair (packed_congr ?_ fun i t hi _ => ?_) rfl)⟩
    · intro hfl
      cases f with
      | true => exact hf rfl
      | false => simp [allFlat, packed] at hfl
    · rw [hx' i hi, funext (hv' i hi)]
  rw [filtfilt, filtfilt_eq (form := .tdf2) hf x _ _ he hN e hz (zi_rank_tdf2 hb ha hK hM hs e) (key _) (key _)]
  rfl

theorem filtfilt_df2 {B N K P : Nat} {b a : Tensor α} {bv av : Nat → Nat → α} (hb : Rows B K b bv)
    (ha : Rows B P a av) (hK : 0 < K) (hP : 0 < P) (hKP : K ≤ P + 1) (hs : ∀ i, 1 + ∑ k ∈ Finset.range P, av i k ≠ 0)
    {pm : Option PadMode} {padlen : Option Int} (he : edgeLength b a pm padlen < N) (hN : 0 < N) :
    ∃ z : Nat → Nat → α, (∀ i m, m < P →
      z i m = ∑ j ∈ Finset.range P, comp (av i) m j * z i j + if m = 0 then 1 else 0) ∧
      ∀ {f : Bool} {x : Nat → Nat → α} {u : Option Int}, (f = true → B = 1) → (∀ i, u = some i → 1 ≤ i) →
        filtfilt b a (packed f B N x) pm padlen .df2 u = .ok (packed (f && decide (b.rank = 1 ∧ a.rank = 1)) B N fun i =>
          twice (fun x t => taps K (bv i) (dfSignal P (zext P (av i)) (fun m => z i m * x 0) x) t)
            pm N (edgeLength b a pm padlen).toNat (x i)) := by
  obtain ⟨zi, z, e, hz, h⟩ := lfilterZi_df2 (b := some b) ha hP hs
  refine ⟨z, h, fun {f x u} hf hu => ?_⟩
  have hM : max P (K - 1) = P := by omega
  have key : ∀ x, Pass (fun b a x zi => lfilter b a x zi .df2 u) b a B P (N + 2 * (edgeLength b a pm padlen).toNat) z x fun i t =>
      taps K (bv i) (dfSignal P (zext P (av i)) (fun m => z i m * x i 0) (x i)) t := by
    intro x f z' v hf hv hv'
    obtain ⟨x', hx, hx'⟩ := sig_packed (N := N + 2 * (edgeLength b a pm padlen).toNat) hf x
    refine ⟨_, (lfilter_df2 hb ha hx (by rw [hM]; exact rows_init hv) hK (by omega) (by omega) hu).trans (ok_pair (packed_congr ?_ fun i t hi _ => ?_) rfl)⟩
    · intro hfl
      cases f with
      | true => exact hf rfl
      | false => simp [allFlat, packed] at hfl
    · rw [hM, hx' i hi, funext (hv' i hi)]
  rw [filtfilt, filtfilt_eq (form := .df2) hf x _ _ he hN e hz (fun _ => zi_rank_df2 ha hP hs e) (key _) (key _)]
  rfl

end Phil.Lti
