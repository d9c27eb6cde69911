import Verif.Proof.Transfer
import Verif.Proof.FilterStream
import Verif.Props.C19

/-!
# C56: the transfer function determines the filter

Started at rest, `lfilter` multiplies the signal by `b/a`: filters with the same transfer function return the same output
(`C56_transfer`) and only these do (`C56_transfer_iff`); filters in series are the filter with the product of the transfer
functions (`C56_cascade`), their order does not matter (`C56_commute`), the inverse filter gives the signal back
(`C56_inverse`), and the output is the convolution of the signal with the response to an impulse (`C56_impulse`).

Polynomials are sequences of coefficients and products are convolutions (Verif/Spec/Transfer.lean).  For complex numbers only
`df2` filters with the given coefficients (C12), hence `Faithful`.
-/

namespace Props
open Torch Torch.Tensor Spec Phil
open Phil.Lti (Form ok_pair conjA conjB conjIf lfilter)
variable {α : Type} [CommRing α] [StarRing α]

/-- Forms that do not conjugate the coefficients: `df2`, and every form if the numbers are real. -/
def Faithful (α : Type) [Star α] (form : Form) : Prop :=
  form = .df2 ∨ (form = .df1 ∨ form = .tdf1 ∨ form = .tdf2) ∧ ∀ c : α, star c = c

/-- On integers every form keeps the coefficients as they are. -/
theorem faithful_int (form : Form) (h : form ≠ .other) : Faithful Int form := by
  cases form with
  | df2 => exact Or.inl rfl
  | other => exact absurd rfl h
  | _ => exact Or.inr ⟨by simp, fun c => rfl⟩

/-- The product of `1/(1 - 1/z)` and `1/(1 - 2/z)` is `1/(1 - 3/z + 2/z²)`. -/
theorem product_case : ProductTransfer 1 2 1 1 1 1 (fun _ => (1 : Int)) (fun k => if k = 0 then -3 else 2) (fun _ => 1) (fun _ => -1)
    (fun _ => 1) (fun _ => -2) := by
  refine mk_inj ?_
  simp only [mk_conv]
  have e : PowerSeries.mk (zext 1 fun _ => (1 : Int)) = 1 := by
    rw [← mk_impulse]; congr 1; funext n; simp [zext, impulse]
  rw [e, one_mul, mul_one, mul_one, ← mk_conv]
  congr 1
  funext n
  rcases n with _ | _ | _ | n
  · decide
  · decide
  · decide
  · rw [conv, Finset.sum_eq_zero]
    · simp [denom]
    · intro k _
      rcases k with _ | _ | k
      · simp [denom]
      · simp [denom]
      · simp [denom]

/-- The output, as the solution of `a y = b x`. -/
theorem lfilter_series {B N K P : Nat} {b a X : Tensor α} {bv av x : Nat → Nat → α} {form : Form} {u : Option Int}
    (hb : Rows B K b bv) (ha : Rows B P a av) (hx : Sig N B X x) (hf : Faithful α form) (hB : 0 < B) (hK : 0 < K)
    (hM : 0 < max P (K - 1)) (hN : 0 < N) (hu : ∀ i, u = some i → 1 ≤ i) :
    ∃ y : Nat → Nat → α, (∀ i, PowerSeries.mk (denom P (av i)) * PowerSeries.mk (y i) =
        PowerSeries.mk (zext K (bv i)) * PowerSeries.mk (x i)) ∧
      lfilter b a X none form u = .ok (packed (allFlat X b a none) B N y, none) := by
  have hf' : form ≠ .other := by rintro rfl; simp [Faithful] at hf
  obtain ⟨y, h1, h2, h3⟩ := Lti.lfilter_diff hb ha hx hf' (Or.inl rfl) hB hK hM hN hu
  have e : ∀ g : Nat → α, conjIf (conjA form) g = g ∧ conjIf (conjB form) g = g := by
    intro g
    rcases hf with rfl | ⟨-, h⟩
    · exact ⟨rfl, rfl⟩
    · have : (fun k => star (g k)) = g := funext fun k => h _
      unfold conjIf
      rw [this]; simp
  exact ⟨fun i t => y i t, fun i => diffEq_conv (h1 i) fun n => by rw [h2 i n, (e _).1, (e _).2], h3⟩

theorem lfilter_series2 {B N K P : Nat} {b a : Tensor α} {bv av : Nat → Nat → α} {form : Form} {u : Option Int}
    (hb : Rows B K b bv) (ha : Rows B P a av) (x : Nat → Nat → α) (hf : Faithful α form) (hB : 0 < B) (hK : 0 < K)
    (hM : 0 < max P (K - 1)) (hN : 0 < N) (hu : ∀ i, u = some i → 1 ≤ i) :
    ∃ y : Nat → Nat → α, (∀ i, PowerSeries.mk (denom P (av i)) * PowerSeries.mk (y i) =
        PowerSeries.mk (zext K (bv i)) * PowerSeries.mk (x i)) ∧
      lfilter b a (t2 B N x) none form u = .ok (t2 B N y, none) := by
  obtain ⟨y, h, e⟩ := lfilter_series hb ha (.batched B x) hf hB hK hM hN hu
  refine ⟨y, h, e.trans ?_⟩
  rw [show allFlat (t2 B N x) b a none = false by unfold allFlat; rw [rank_t2]; simp]
  rfl

omit [StarRing α] in
theorem series_unique {P : Nat} {a y y' : Nat → α}
    (h : PowerSeries.mk (denom P a) * PowerSeries.mk y = PowerSeries.mk (denom P a) * PowerSeries.mk y') : y = y' :=
  mk_inj ((denom_isUnit P a).mul_left_cancel h)

/-- **C56.** Equal transfer functions, equal outputs: whatever the orders, layouts, forms and unroll factors. -/
theorem C56_transfer {B N K P K' P' : Nat} {b a b' a' X : Tensor α} {bv av bv' av' x : Nat → Nat → α} {form form' : Form}
    {u u' : Option Int} (hb : Rows B K b bv) (ha : Rows B P a av) (hb' : Rows B K' b' bv') (ha' : Rows B P' a' av')
    (hx : Sig N B X x) (hf : Faithful α form) (hf' : Faithful α form') (hB : 0 < B) (hK : 0 < K) (hK' : 0 < K')
    (hM : 0 < max P (K - 1)) (hM' : 0 < max P' (K' - 1)) (hN : 0 < N) (hu : ∀ i, u = some i → 1 ≤ i)
    (hu' : ∀ i, u' = some i → 1 ≤ i) (h : ∀ i, i < B → SameTransfer K P K' P' (bv i) (av i) (bv' i) (av' i)) :
    ∃ y, lfilter b a X none form u = .ok (packed (allFlat X b a none) B N y, none) ∧
      lfilter b' a' X none form' u' = .ok (packed (allFlat X b' a' none) B N y, none) := by
  obtain ⟨y, h1, e⟩ := lfilter_series hb ha hx hf hB hK hM hN hu
  obtain ⟨y', h1', e'⟩ := lfilter_series hb' ha' hx hf' hB hK' hM' hN hu'
  refine ⟨y, e, e'.trans (ok_pair ?_ rfl)⟩
  refine Spec.packed_congr (fun hc => ?_) fun i t hi _ => congrFun (?_ : y' i = y i) t
  · cases hx with
    | flat x => rfl
    | batched B x => unfold allFlat at hc; rw [rank_t2] at hc; simp at hc
  · have hs := congrArg PowerSeries.mk (h i hi)
    rw [mk_conv, mk_conv] at hs
    refine mk_inj (((denom_isUnit P (av i)).mul (denom_isUnit P' (av' i))).mul_left_cancel ?_)
    linear_combination (PowerSeries.mk (denom P (av i))) * h1' i - (PowerSeries.mk (denom P' (av' i))) * h1 i -
      PowerSeries.mk (x i) * hs

/-- **C56.** Only filters with the same transfer function agree on all signals (it is enough that they agree on impulses). -/
theorem C56_transfer_iff {B K P K' P' : Nat} {b a b' a' : Tensor α} {bv av bv' av' : Nat → Nat → α} {form form' : Form}
    {u u' : Option Int} (hb : Rows B K b bv) (ha : Rows B P a av) (hb' : Rows B K' b' bv') (ha' : Rows B P' a' av')
    (hf : Faithful α form) (hf' : Faithful α form') (hB : 0 < B) (hK : 0 < K) (hK' : 0 < K')
    (hM : 0 < max P (K - 1)) (hM' : 0 < max P' (K' - 1)) (hu : ∀ i, u = some i → 1 ≤ i) (hu' : ∀ i, u' = some i → 1 ≤ i) :
    (∀ N x, 0 < N → lfilter b a (t2 B N x) none form u = lfilter b' a' (t2 B N x) none form' u') ↔
      ∀ i, i < B → SameTransfer K P K' P' (bv i) (av i) (bv' i) (av' i) := by
  constructor
  · intro h i hi
    have hv : ∃ y y' : Nat → α, PowerSeries.mk (denom P (av i)) * PowerSeries.mk y = PowerSeries.mk (zext K (bv i)) ∧
        PowerSeries.mk (denom P' (av' i)) * PowerSeries.mk y' = PowerSeries.mk (zext K' (bv' i)) ∧ ∀ n, y n = y' n := by
      have hy : ∀ n, ∃ y y' : Nat → α, PowerSeries.mk (denom P (av i)) * PowerSeries.mk y = PowerSeries.mk (zext K (bv i)) ∧
          PowerSeries.mk (denom P' (av' i)) * PowerSeries.mk y' = PowerSeries.mk (zext K' (bv' i)) ∧ y n = y' n := by
        intro n
        obtain ⟨y, h1, e⟩ := lfilter_series2 hb ha (fun _ => impulse) hf hB hK hM n.succ_pos hu
        obtain ⟨y', h1', e'⟩ := lfilter_series2 hb' ha' (fun _ => impulse) hf' hB hK' hM' n.succ_pos hu'
        have h1 := h1 i
        have h1' := h1' i
        rw [mk_impulse, mul_one] at h1 h1'
        have k := (e.symm.trans (h (n + 1) _ n.succ_pos)).trans e'
        have k := congrArg (fun t => t.get [i, n]) (Prod.mk.inj (Except.ok.inj k)).1
        beta_reduce at k
        rw [get_t2 hi n.lt_succ_self, get_t2 hi n.lt_succ_self] at k
        exact ⟨_, _, h1, h1', k⟩
      obtain ⟨y, y', h1, h1', -⟩ := hy 0
      refine ⟨y, y', h1, h1', fun n => ?_⟩
      obtain ⟨w, w', k1, k1', k⟩ := hy n
      rw [series_unique (h1.trans k1.symm), series_unique (h1'.trans k1'.symm), k]
    obtain ⟨y, y', h1, h1', hy⟩ := hv
    rw [show y = y' from funext hy] at h1
    refine mk_inj ?_
    rw [mk_conv, mk_conv, ← h1, ← h1']
    ring
  · intro h N x hN
    obtain ⟨y, e, e'⟩ := C56_transfer hb ha hb' ha' (.batched B x) hf hf' hB hK hK' hM hM' hN hu hu' h
    rw [e, e', show allFlat (t2 B N x) b a none = false by unfold allFlat; rw [rank_t2]; simp,
      show allFlat (t2 B N x) b' a' none = false by unfold allFlat; rw [rank_t2]; simp]

/-- **C56.** Two filters in series are the filter whose transfer function is the product. -/
theorem C56_cascade {B N K P K₁ P₁ K₂ P₂ : Nat} {b a b₁ a₁ b₂ a₂ : Tensor α} {bv av bv₁ av₁ bv₂ av₂ : Nat → Nat → α}
    {form form₁ form₂ : Form} {u u₁ u₂ : Option Int} (hb : Rows B K b bv) (ha : Rows B P a av) (hb₁ : Rows B K₁ b₁ bv₁)
    (ha₁ : Rows B P₁ a₁ av₁) (hb₂ : Rows B K₂ b₂ bv₂) (ha₂ : Rows B P₂ a₂ av₂) (x : Nat → Nat → α) (hf : Faithful α form)
    (hf₁ : Faithful α form₁) (hf₂ : Faithful α form₂) (hB : 0 < B) (hK : 0 < K) (hK₁ : 0 < K₁) (hK₂ : 0 < K₂)
    (hM : 0 < max P (K - 1)) (hM₁ : 0 < max P₁ (K₁ - 1)) (hM₂ : 0 < max P₂ (K₂ - 1)) (hN : 0 < N)
    (hu : ∀ i, u = some i → 1 ≤ i) (hu₁ : ∀ i, u₁ = some i → 1 ≤ i) (hu₂ : ∀ i, u₂ = some i → 1 ≤ i)
    (h : ∀ i, i < B → ProductTransfer K P K₁ P₁ K₂ P₂ (bv i) (av i) (bv₁ i) (av₁ i) (bv₂ i) (av₂ i)) :
    ∃ w y, lfilter b₂ a₂ (t2 B N x) none form₂ u₂ = .ok (w, none) ∧ lfilter b₁ a₁ w none form₁ u₁ = .ok (y, none) ∧
      lfilter b a (t2 B N x) none form u = .ok (y, none) := by
  obtain ⟨w, hw, ew⟩ := lfilter_series2 hb₂ ha₂ x hf₂ hB hK₂ hM₂ hN hu₂
  obtain ⟨y, hy, ey⟩ := lfilter_series2 hb₁ ha₁ w hf₁ hB hK₁ hM₁ hN hu₁
  obtain ⟨v, hv, ev⟩ := lfilter_series2 hb ha x hf hB hK hM hN hu
  refine ⟨_, _, ew, ey, ev.trans (ok_pair (t2_congr rfl rfl fun i t hi _ => congrFun (?_ : v i = y i) t) rfl)⟩
  have hs := congrArg PowerSeries.mk (h i hi)
  simp only [mk_conv] at hs
  refine mk_inj ((((denom_isUnit P (av i)).mul (denom_isUnit P₁ (av₁ i))).mul (denom_isUnit P₂ (av₂ i))).mul_left_cancel ?_)
  linear_combination (PowerSeries.mk (denom P₁ (av₁ i))) * (PowerSeries.mk (denom P₂ (av₂ i))) * hv i +
    PowerSeries.mk (x i) * hs - (PowerSeries.mk (denom P (av i))) * (PowerSeries.mk (denom P₂ (av₂ i))) * hy i -
    (PowerSeries.mk (denom P (av i))) * (PowerSeries.mk (zext K₁ (bv₁ i))) * hw i

example := C56_cascade (B := 3) (N := 7) (K := 1) (P := 2) (K₁ := 1) (P₁ := 1) (K₂ := 1) (P₂ := 1) (form := .df1) (form₁ := .tdf2)
  (form₂ := .df2) (u := none) (u₁ := some 2) (u₂ := some 3) (.shared fun _ => (1 : ℤ)) (.shared fun k => if k = 0 then -3 else 2)
  (.shared fun _ => 1) (.shared fun _ => -1) (.shared fun _ => 1) (.shared fun _ => -2) (fun i t => (i : ℤ) + t) (faithful_int _ (by simp))
  (faithful_int _ (by simp)) (faithful_int _ (by simp)) (by decide) (by decide) (by decide) (by decide) (by decide) (by decide) (by decide)
  (by decide) (by simp) (by simp) (by simp) (fun _ _ => product_case)

/-- **C56.** The order of two filters in series does not matter. -/
theorem C56_commute {B N K₁ P₁ K₂ P₂ : Nat} {b₁ a₁ b₂ a₂ : Tensor α} {bv₁ av₁ bv₂ av₂ : Nat → Nat → α}
    {form₁ form₂ : Form} {u₁ u₂ : Option Int} (hb₁ : Rows B K₁ b₁ bv₁)
    (ha₁ : Rows B P₁ a₁ av₁) (hb₂ : Rows B K₂ b₂ bv₂) (ha₂ : Rows B P₂ a₂ av₂) (x : Nat → Nat → α)
    (hf₁ : Faithful α form₁) (hf₂ : Faithful α form₂) (hB : 0 < B) (hK₁ : 0 < K₁) (hK₂ : 0 < K₂)
    (hM₁ : 0 < max P₁ (K₁ - 1)) (hM₂ : 0 < max P₂ (K₂ - 1)) (hN : 0 < N)
    (hu₁ : ∀ i, u₁ = some i → 1 ≤ i) (hu₂ : ∀ i, u₂ = some i → 1 ≤ i) :
    ∃ w w' y, lfilter b₂ a₂ (t2 B N x) none form₂ u₂ = .ok (w, none) ∧ lfilter b₁ a₁ w none form₁ u₁ = .ok (y, none) ∧
      lfilter b₁ a₁ (t2 B N x) none form₁ u₁ = .ok (w', none) ∧ lfilter b₂ a₂ w' none form₂ u₂ = .ok (y, none) := by
  obtain ⟨w, hw, ew⟩ := lfilter_series2 hb₂ ha₂ x hf₂ hB hK₂ hM₂ hN hu₂
  obtain ⟨y, hy, ey⟩ := lfilter_series2 hb₁ ha₁ w hf₁ hB hK₁ hM₁ hN hu₁
  obtain ⟨w', hw', ew'⟩ := lfilter_series2 hb₁ ha₁ x hf₁ hB hK₁ hM₁ hN hu₁
  obtain ⟨v, hv, ev⟩ := lfilter_series2 hb₂ ha₂ w' hf₂ hB hK₂ hM₂ hN hu₂
  refine ⟨_, _, _, ew, ey, ew', ev.trans (ok_pair (t2_congr rfl rfl fun i t hi _ => congrFun (?_ : v i = y i) t) rfl)⟩
  refine mk_inj (((denom_isUnit P₁ (av₁ i)).mul (denom_isUnit P₂ (av₂ i))).mul_left_cancel ?_)
  linear_combination (PowerSeries.mk (denom P₁ (av₁ i))) * hv i + (PowerSeries.mk (zext K₂ (bv₂ i))) * hw' i -
    (PowerSeries.mk (denom P₂ (av₂ i))) * hy i - (PowerSeries.mk (zext K₁ (bv₁ i))) * hw i

example := C56_commute (B := 3) (N := 7) (K₁ := 3) (P₁ := 2) (K₂ := 1) (P₂ := 1) (form₁ := .tdf2) (form₂ := .df1) (u₁ := some 2) (u₂ := none)
  (.batched fun i t => (i : ℤ) + t) (.batched fun i t => (i : ℤ) - t) (.shared fun _ => 2) (.batched fun i _ => (i : ℤ)) (fun i t => (i : ℤ) * t)
  (faithful_int _ (by simp)) (faithful_int _ (by simp)) (by decide) (by decide) (by decide) (by decide) (by decide) (by decide) (by simp) (by simp)

/-- **C56.** Filtering with `b₂/a₂` and then with its inverse (numerator the first denominator, denominator the first
numerator, which begins with one) gives the signal back. -/
theorem C56_inverse {B N K₁ P₁ K₂ P₂ : Nat} {b₁ a₁ b₂ a₂ : Tensor α} {bv₁ av₁ bv₂ av₂ : Nat → Nat → α}
    {form₁ form₂ : Form} {u₁ u₂ : Option Int} (hb₁ : Rows B K₁ b₁ bv₁)
    (ha₁ : Rows B P₁ a₁ av₁) (hb₂ : Rows B K₂ b₂ bv₂) (ha₂ : Rows B P₂ a₂ av₂) (x : Nat → Nat → α)
    (hf₁ : Faithful α form₁) (hf₂ : Faithful α form₂) (hB : 0 < B) (hK₁ : 0 < K₁) (hK₂ : 0 < K₂)
    (hM₁ : 0 < max P₁ (K₁ - 1)) (hM₂ : 0 < max P₂ (K₂ - 1)) (hN : 0 < N)
    (hu₁ : ∀ i, u₁ = some i → 1 ≤ i) (hu₂ : ∀ i, u₂ = some i → 1 ≤ i)
    (h₁ : ∀ i, i < B → zext K₁ (bv₁ i) = denom P₂ (av₂ i)) (h₂ : ∀ i, i < B → denom P₁ (av₁ i) = zext K₂ (bv₂ i)) :
    ∃ w, lfilter b₂ a₂ (t2 B N x) none form₂ u₂ = .ok (w, none) ∧ lfilter b₁ a₁ w none form₁ u₁ = .ok (t2 B N x, none) := by
  obtain ⟨w, hw, ew⟩ := lfilter_series2 hb₂ ha₂ x hf₂ hB hK₂ hM₂ hN hu₂
  obtain ⟨y, hy, ey⟩ := lfilter_series2 hb₁ ha₁ w hf₁ hB hK₁ hM₁ hN hu₁
  refine ⟨_, ew, ey.trans (ok_pair (t2_congr rfl rfl fun i t hi _ => congrFun (?_ : y i = x i) t) rfl)⟩
  have hy := hy i
  rw [h₁ i hi, hw i, ← h₂ i hi] at hy
  exact series_unique hy

/-- **C56.** The output is the convolution of the signal with the response to the impulse `1, 0, 0, …`. -/
theorem C56_impulse {B N K P : Nat} {b a : Tensor α} {bv av : Nat → Nat → α} {form : Form} {u : Option Int}
    (hb : Rows B K b bv) (ha : Rows B P a av) (hf : Faithful α form) (hB : 0 < B) (hK : 0 < K)
    (hM : 0 < max P (K - 1)) (hN : 0 < N) (hu : ∀ i, u = some i → 1 ≤ i) :
    ∃ h : Nat → Nat → α, lfilter b a (t2 B N fun _ => impulse) none form u = .ok (t2 B N h, none) ∧
      ∀ x : Nat → Nat → α, lfilter b a (t2 B N x) none form u = .ok (t2 B N fun i => conv (h i) (x i), none) := by
  obtain ⟨h, hh, eh⟩ := lfilter_series2 hb ha (fun _ => impulse) hf hB hK hM hN hu
  refine ⟨h, eh, fun x => ?_⟩
  obtain ⟨y, hy, ey⟩ := lfilter_series2 hb ha x hf hB hK hM hN hu
  refine ey.trans (ok_pair (t2_congr rfl rfl fun i t _ _ => congrFun (?_ : y i = conv (h i) (x i)) t) rfl)
  have hh := hh i
  rw [mk_impulse, mul_one] at hh
  refine series_unique (P := P) (a := av i) ?_
  rw [hy i, mk_conv, ← mul_assoc, hh]

example := C56_impulse (B := 3) (N := 7) (K := 3) (P := 2) (form := .tdf2) (u := some 2) (.batched fun i t => (i : ℤ) + t)
  (.batched fun i t => (i : ℤ) - t) (faithful_int _ (by simp)) (by decide) (by decide) (by decide) (by decide) (by simp)

/-- **C56.** Two FIR filters in series are the FIR filter with the convolved taps, direct form. -/
theorem C56_fir_cascade {B M₁ M₂ N : Nat} (b₁ b₂ x : Nat → Nat → α) (hB : 0 < B) (hN : 0 < N) :
    ∃ w y, Lti.fir (t2 B (M₂ + 1) b₂) (t2 B N x) none false = .ok (w, none) ∧
      Lti.fir (t2 B (M₁ + 1) b₁) w none false = .ok (y, none) ∧
      Lti.fir (t2 B (M₁ + M₂ + 1) fun i => conv (zext (M₁ + 1) (b₁ i)) (zext (M₂ + 1) (b₂ i))) (t2 B N x) none false =
        .ok (y, none) := by
  refine ⟨_, _, Lti.fir_direct_none b₂ x hB hN, Lti.fir_direct_none b₁ _ hB hN, (Lti.fir_direct_none _ x hB hN).trans
    (ok_pair (t2_congr rfl rfl fun i t _ _ => ?_) rfl)⟩
  rw [taps_causal, taps_causal]
  simp only [taps_causal]
  refine congrFun (mk_inj ?_) t
  rw [mk_conv, mk_conv, mk_conv, ← mul_assoc]
  congr 1
  rw [← mk_conv]
  congr 1
  funext n
  rw [zext]
  split
  · rfl
  · refine (Finset.sum_eq_zero fun k _ => ?_).symm
    by_cases h1 : k < M₁ + 1
    · rw [zext, zext, if_neg (show ¬ n - k < M₂ + 1 by omega), mul_zero]
    · rw [zext, if_neg h1, zero_mul]

example := C56_fir_cascade (B := 3) (M₁ := 3) (M₂ := 3) (N := 7) (fun i t => (i : ℤ) + t) (fun i t => (i : ℤ) - t) (fun i t => (i : ℤ) * t)
  (by decide) (by decide)

/-! ## The special filters -/

omit [StarRing α] in
/-- A solution of `y_n = x_n - Σ a_k y_{n-1-k}`, as a power series. -/
theorem allpole_series {P : Nat} {a x : Nat → α} {y : Int → α} (h0 : ∀ n, n < 0 → y n = 0)
    (h : ∀ n : Nat, y n = x n - taps P a y ((n : Int) - 1)) :
    PowerSeries.mk (denom P a) * PowerSeries.mk (fun t => y t) = PowerSeries.mk (zext 1 fun _ => 1) * PowerSeries.mk x := by
  have e : (zext 1 fun _ => (1 : α)) = impulse := by
    funext n
    unfold zext impulse
    simp
  rw [e, mk_impulse, one_mul, ← mk_conv]
  congr 1
  funext n
  rw [denom_conv P a h0]
  exact eq_sub_iff_add_eq.1 (h n)

/-- **C56, `lti.linear_recurrence`** from zero is the filter `1/(1 - a/z)`. -/
theorem C56_linear_recurrence {B N : Nat} {init : Tensor α} (av : Nat → α) {u : Int} {u' : Option Int} {form : Form}
    (hi : BatchVals B init fun _ => 0) (x : Nat → Nat → α) (hf : Faithful α form) (hB : 0 < B) (hN : 0 < N) (hu : 1 ≤ u)
    (hu' : ∀ i, u' = some i → 1 ≤ i) :
    ∃ y, Lti.linearRecurrence (t1 B av) init (t2 B N x) u = .ok y ∧
      lfilter (t1 1 fun _ => 1) (t2 B 1 fun i _ => -av i) (t2 B N x) none form u' = .ok (y, none) := by
  obtain ⟨y, hy, e⟩ := lfilter_series2 (K := 1) (P := 1) (.shared fun _ => (1 : α)) (.batched fun i (_ : Nat) => -av i) x hf hB Nat.one_pos
    (by simp) hN hu'
  refine ⟨_, C01_linear_recurrence x u (.full av) hi hN hu, e.trans (ok_pair (t2_congr rfl rfl fun i t _ _ => ?_) rfl)⟩
  have k := allpole_series (P := 1) (a := fun _ => -av i) (x := x i)
    (y := causal fun t => scalarRec (fun _ => av i) 0 (x i) (t + 1)) (fun n hn => if_pos hn) fun n => ?_
  · have h := congrFun (series_unique ((hy i).trans k.symm)) t
    rw [h, causal, if_neg (by omega), Int.toNat_natCast]
  · simp only [taps, Finset.sum_range_one, causal]
    rw [if_neg (by omega), Int.toNat_natCast, scalarRec]
    cases n with
    | zero => simp [scalarRec]
    | succ n =>
      rw [if_neg (by omega), show (((n + 1 : Nat) : Int) - 1 - ((0 : Nat) : Int)).toNat = n by omega]
      ring

example := C56_linear_recurrence (B := 3) (N := 7) (fun i => (i : ℤ) + 2) (u := 2) (u' := some 3) (form := .tdf1) (.full fun _ => 0)
  (fun i t => (i : ℤ) * t) (faithful_int _ (by simp)) (by decide) (by decide) (by decide) (by simp)

/-- **C56, `lti.comb_filter`** without state is the filter `1/(1 + a/z^D)`. -/
theorem C56_comb_filter {B N D : Nat} (av : Nat → α) {u : Int} {u' : Option Int} {form : Form}
    (x : Nat → Nat → α) (hf : Faithful α form) (hB : 0 < B) (hD : 1 ≤ D) (hN : 0 < N) (hu : 1 ≤ u)
    (hu' : ∀ i, u' = some i → 1 ≤ i) :
    ∃ y, Lti.combFilter true (t1 B av) D (t2 B N x) none u = .ok (y, none) ∧
      lfilter (t1 1 fun _ => 1) (t2 B D fun i k => if k + 1 = D then av i else 0) (t2 B N x) none form u' = .ok (y, none) := by
  obtain ⟨y, h1, h2, e⟩ := C19_without_state_partial x (.full av) hD hN hu
  obtain ⟨v, hv, e'⟩ := lfilter_series2 (K := 1) (P := D) (.shared fun _ => (1 : α)) (.batched fun i k => if k + 1 = D then av i else 0) x hf hB
    Nat.one_pos (by omega) hN hu'
  refine ⟨_, e, e'.trans (ok_pair (t2_congr rfl rfl fun i t _ _ => ?_) rfl)⟩
  have p : ∀ n : Int, n < 0 → y i n = 0 := fun n hn => by
    rw [show n = -1 - ((-1 - n).toNat : Nat) by omega]; exact h1 i _
  refine congrFun (series_unique ((hv i).trans (allpole_series p fun n => ?_).symm)) t
  rw [h2 i n, taps, Finset.sum_eq_single (D - 1)]
  · rw [if_pos (by omega)]
    exact congrArg (x i n - av i * y i ·) (by omega)
  · intro k _ hk
    rw [if_neg (by omega), zero_mul]
  · intro h
    exact absurd (Finset.mem_range.2 (by omega)) h

example := C56_comb_filter (B := 3) (N := 7) (D := 3) (fun i => (i : ℤ) + 2) (u := 2) (u' := some 3) (form := .tdf1)
  (fun i t => (i : ℤ) * t) (faithful_int _ (by simp)) (by decide) (by decide) (by decide) (by decide) (by simp)

/-! ## Instances -/

/-- `(1 + 2/z)/(1 + 5/z + 6/z²) = 1/(1 + 3/z)`: a filter of second order and one of first order agree on every signal of nine
samples, in different forms. -/
example (x : Nat → Int) :
    ∃ y, lfilter (t1 2 fun k => if k = 0 then 1 else 2) (t1 2 fun k => if k = 0 then 5 else 6) (t1 9 x) none .tdf2 none =
        .ok (t1 9 y, none) ∧
      lfilter (t1 1 fun _ => 1) (t1 1 fun _ => 3) (t1 9 x) none .df1 (some 2) = .ok (t1 9 y, none) := by
  obtain ⟨y, h, h'⟩ := C56_transfer (b := t1 2 fun k => if k = 0 then 1 else 2) (a := t1 2 fun k => if k = 0 then 5 else 6)
    (b' := t1 1 fun _ => 1) (a' := t1 1 fun _ => 3) (N := 9) (K := 2) (P := 2) (K' := 1) (P' := 1)
    (form := .tdf2) (form' := .df1) (u := none) (u' := some 2)
    (.shared _) (.shared _) (.shared _) (.shared _) (.flat x) (faithful_int _ (by simp)) (faithful_int _ (by simp))
    (by decide) (by decide) (by decide) (by decide) (by decide) (by decide) (by simp) (by simp) (fun i _ => by
      funext n
      rcases n with _ | _ | _ | n
      · decide
      · decide
      · decide
      · rw [conv, conv, Finset.sum_eq_zero, Finset.sum_eq_zero]
        · intro k _
          simp only [zext, denom]
          rcases k with _ | k
          · simp
          · simp
        · intro k _
          simp only [zext, denom]
          rcases k with _ | _ | k
          · simp
          · simp
          · simp)
  exact ⟨y 0, h, h'⟩

/-- The inverse of `(1 + 2/z)/(1 + 5/z)` is `(1 + 5/z)/(1 + 2/z)`. -/
example (x : Nat → Nat → Int) :
    ∃ w, lfilter (t1 2 fun k => if k = 0 then 1 else 2) (t1 1 fun _ => 5) (t2 3 9 x) none .df2 none = .ok (w, none) ∧
      lfilter (t1 2 fun k => if k = 0 then 1 else 5) (t1 1 fun _ => 2) w none .tdf2 none = .ok (t2 3 9 x, none) :=
  C56_inverse (K₁ := 2) (P₁ := 1) (K₂ := 2) (P₂ := 1) (.shared _) (.shared _) (.shared _) (.shared _) x (faithful_int _ (by simp)) (faithful_int _ (by simp))
    (by decide) (by decide) (by decide) (by decide) (by decide) (by decide) (by simp) (by simp)
    (fun i _ => by funext n; rcases n with _ | _ | n <;> simp [zext, denom])
    (fun i _ => by funext n; rcases n with _ | _ | n <;> simp [zext, denom])

/-- Filters that differ are told apart: `1/(1 - 1/z)` and `1/(1 - 2/z)`. -/
example : ¬ ∀ N x, 0 < N → lfilter (t1 1 fun _ => (1 : Int)) (t1 1 fun _ => -1) (t2 1 N x) none .df1 none =
    lfilter (t1 1 fun _ => 1) (t1 1 fun _ => -2) (t2 1 N x) none .df2 none := by
  intro h
  have := (C56_transfer_iff (K := 1) (P := 1) (K' := 1) (P' := 1) (B := 1) (form := .df1) (form' := .df2) (.shared _) (.shared _) (.shared _) (.shared _)
    (faithful_int _ (by simp)) (faithful_int _ (by simp)) (by decide) (by decide) (by decide) (by decide) (by decide) (by simp)
    (by simp)).1 h 0 (by decide)
  exact absurd (congrFun this 1) (by decide)

end Props
