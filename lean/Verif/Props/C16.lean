import Verif.Proof.ZiFails
import Mathlib.Data.Complex.Basic

/-!
# C16: `lfilter_zi` is a steady state

The DC gain is `Σ b / (1 + Σ a)`.
-/

namespace Props
open Torch Torch.Tensor Spec Phil Phil.Lti
variable {α : Type} [Field α] [StarRing α]

/-- **C16 (partial), transposed direct form II**, real numbers.  `zi = lfilter_zi(a, b)` exists, and for every constant
`c` (one per batch item), every length and every tensor `zi'` holding `c * zi`, `lfilter` answers the constant input `c` with
the constant `c * (DC gain)` and returns `c * zi` again.  Missing: complex coefficients (see below). -/
theorem C16_tdf2_partial [TrivialStar α] {B K P : Nat} {b a : Tensor α} {bv av : Nat → Nat → α} (hb : Rows B K b bv)
    (ha : Rows B P a av) (hK : 0 < K) (hM : 0 < max P (K - 1)) (hs : ∀ i, 1 + ∑ k ∈ Finset.range P, av i k ≠ 0) :
    ∃ zi z, lfilterZi a (some b) true = .ok zi ∧ Rows B (max P (K - 1)) zi z ∧
      ∀ (N : Nat) (c : Nat → α) (X zi' : Tensor α) (u : Option Int), 0 < N → (∀ i, u = some i → 1 ≤ i) →
        Sig N B X (fun i _ => c i) → Rows B (max P (K - 1)) zi' (fun i m => c i * z i m) →
        lfilter b a X (some zi') .tdf2 u =
          .ok (packed (allFlat X b a (some zi')) B N fun i _ =>
              c i * ((∑ j ∈ Finset.range K, bv i j) / (1 + ∑ k ∈ Finset.range P, av i k)),
            some (packed (allFlat X b a (some zi')) B (max P (K - 1)) fun i m => c i * z i m)) := by
  obtain ⟨zi, z, e, hz, h⟩ := lfilterZi_tdf2 hb ha hK hM (fun i => by simpa only [star_trivial] using hs i)
  refine ⟨zi, z, e, hz, fun N c X zi' u hN hu hX hzi' => ?_⟩
  simp only [star_trivial] at h
  have hc : ∀ i m, m < max P (K - 1) → c i * z i m = ∑ j ∈ Finset.range (max P (K - 1)), comp (zext P (av i)) j m * (c i * z i j) +
      (zext K (bv i) (m + 1) - zext K (bv i) 0 * zext P (av i) m) * c i := by
    intro i m hm
    rw [h i m hm, mul_add, Finset.mul_sum]
    exact congrArg₂ (· + ·) (Finset.sum_congr rfl fun j _ => by ring) (by ring)
  rw [lfilter_tdf2 hb ha hX (rows_init hzi') hK hM hN hu]
  simp only [star_trivial]
  refine ok_pair (congrArg (packed _ B N) (funext fun i => funext fun t => ?_)) (congrArg some ?_)
  · rw [tdf2Out, tdf2_steady (hc i) t hM, zext_lt _ hK]
    have h1 := steady_sum hM (h i)
    rw [sum_zext_one (by omega), Finset.sum_sub_distrib, ← Finset.mul_sum, sum_zext_one (by omega), zext_lt _ hK] at h1
    have h2 : ∑ j ∈ Finset.range (max P (K - 1) + 1), zext K (bv i) j = ∑ j ∈ Finset.range K, bv i j := sum_zext_one (by omega) _
    rw [Finset.sum_range_succ', zext_lt _ hK] at h2
    have h3 := hs i
    field_simp
    rw [← h2]
    linear_combination c i * h1
  · unfold packed
    split
    · exact t1_congr rfl fun m hm => tdf2_steady (hc 0) N hm
    · exact t2_congr rfl rfl fun i m _ hm => tdf2_steady (hc i) N hm

/-- **C16 (partial), direct form II** (`transpose=False`; real or complex).  Missing: more than `P + 1` taps (see below). -/
theorem C16_df2_partial {B K P : Nat} {b a : Tensor α} {b' : Option (Tensor α)} {bv av : Nat → Nat → α} (hb : Rows B K b bv)
    (ha : Rows B P a av) (hK : 0 < K) (hP : 0 < P) (hKP : K ≤ P + 1) (hs : ∀ i, 1 + ∑ k ∈ Finset.range P, av i k ≠ 0) :
    ∃ zi z, lfilterZi a b' false = .ok zi ∧ Rows B P zi z ∧
      ∀ (N : Nat) (c : Nat → α) (X zi' : Tensor α) (u : Option Int), 0 < N → (∀ i, u = some i → 1 ≤ i) →
        Sig N B X (fun i _ => c i) → Rows B P zi' (fun i m => c i * z i m) →
        lfilter b a X (some zi') .df2 u =
          .ok (packed (allFlat X b a (some zi')) B N fun i _ =>
              c i * ((∑ j ∈ Finset.range K, bv i j) / (1 + ∑ k ∈ Finset.range P, av i k)),
            some (packed (allFlat X b a (some zi')) B P fun i m => c i * z i m)) := by
  obtain ⟨zi, z, e, hz, h⟩ := lfilterZi_df2 (b := b') ha hP hs
  refine ⟨zi, z, e, hz, fun N c X zi' u hN hu hX hzi' => ?_⟩
  have hM : max P (K - 1) = P := by omega
  have hza : ∀ i k, k < P → zext P (av i) k = av i k := fun i k hk => zext_lt _ hk
  have hcomp : ∀ i m j, j < P → comp (zext P (av i)) m j = comp (av i) m j := by
    intro i m j hj; unfold comp; rw [hza i j hj]
  have hc : ∀ i m, m < P → c i * z i m = ∑ j ∈ Finset.range P, comp (zext P (av i)) m j * (c i * z i j) +
      if m = 0 then c i else 0 := by
    intro i m hm
    rw [h i m hm, mul_add, Finset.mul_sum]
    refine congrArg₂ (· + ·) (Finset.sum_congr rfl fun j hj => ?_) (by split <;> simp)
    rw [hcomp i m j (Finset.mem_range.1 hj)]; ring
  have hst := fun i t m (hm : m < P) => df2_steady (hc i) t hm
  have key := lfilter_df2 hb ha hX (by rw [hM]; exact rows_init hzi') hK (by omega) hN hu
  rw [hM] at key
  rw [key]
  -- all states are equal to the first one
  have hz0 : ∀ i m, m < P → z i m = 1 / (1 + ∑ k ∈ Finset.range P, av i k) := by
    intro i
    have hstep : ∀ m, m < P → z i m = z i 0 := by
      intro m hm
      induction m with
      | zero => rfl
      | succ m ih =>
        rw [h i (m + 1) hm, comp_mv _ _ hm, if_neg (by omega), if_neg (by omega), Nat.add_sub_cancel, add_zero]
        exact ih (by omega)
    have h0 : z i 0 = 1 / (1 + ∑ k ∈ Finset.range P, av i k) := by
      have := h i 0 hP
      rw [comp_mv _ _ hP, if_pos rfl, if_pos rfl, Finset.sum_congr rfl fun k hk => by
        rw [hstep k (Finset.mem_range.1 hk)], ← Finset.sum_mul] at this
      rw [eq_div_iff (hs i)]
      linear_combination this
    intro m hm
    rw [hstep m hm, h0]
  refine ok_pair (congrArg (packed _ B N) (funext fun i => funext fun t => ?_)) (congrArg some ?_)
  · rw [← taps_zext (M := P + 1) hKP, ← df_output hP, Finset.sum_congr rfl fun m hm => by
      rw [hst i t m (Finset.mem_range.1 hm), hz0 i m (Finset.mem_range.1 hm), hza i m (Finset.mem_range.1 hm)]]
    have h2 : ∑ j ∈ Finset.range (P + 1), zext K (bv i) j = ∑ j ∈ Finset.range K, bv i j := sum_zext_one (by omega) _
    rw [Finset.sum_range_succ'] at h2
    rw [← Finset.sum_mul, Finset.sum_sub_distrib, ← Finset.mul_sum, ← h2]
    have h3 := hs i
    field_simp
    ring
  · have hlast : ∀ i m, m < P → dfSignal P (zext P (av i)) (fun m => c i * z i m) (fun _ => c i) ((N : Int) - 1 - m) = c i * z i m :=
      fun i m hm => by rw [← df_state _ _ _ _ hm]; exact hst i N m hm
    unfold packed
    split
    · exact t1_congr rfl fun m hm => hlast 0 m hm
    · exact t2_congr rfl rfl fun i m _ hm => hlast i m hm

example := C16_df2_partial (B := 2) (K := 3) (P := 2) (b' := none) (.batched fun i j => (i : ℚ) + j) (.shared fun k => (k : ℚ) + 1) (by decide)
  (by decide) (by decide) (fun _ => by norm_num [Finset.sum_range_succ])

/-- Direct form II with more than `P + 1` taps: `lfilter_zi` returns a state that `lfilter` rejects. -/
theorem C16_df2_long_numerator : ∃ zi, lfilterZi (t1 1 fun _ => (0 : ℚ)) (some (t1 3 fun _ => 1)) false = .ok zi ∧
    Fails (lfilter (t1 3 fun _ => (1 : ℚ)) (t1 1 fun _ => 0) (t1 2 fun _ => 1) (some zi) .df2 none) := by
  obtain ⟨zi, z, e, hz, h⟩ := lfilterZi_df2 (B := 1) (P := 1) (b := some (t1 3 fun _ => (1 : ℚ))) (.shared fun _ => (0 : ℚ))
    (by decide) (by simp)
  refine ⟨zi, e, ?_⟩
  have h0 : z 0 0 = 1 := by
    have := h 0 0 (by decide)
    simpa [comp] using this
  cases hz with
  | shared f =>
    rw [show t1 1 f = t1 1 fun _ => (1 : ℚ) from t1_congr rfl fun i hi => by rw [show i = 0 by omega]; exact h0]
    refine fails_of_isOk ?_
    decide +kernel
  | batched f =>
    rw [show t2 1 1 z = t2 1 1 fun _ _ => (1 : ℚ) from t2_congr rfl rfl fun i j hi hj => by
      rw [show i = 0 by omega, show j = 0 by omega]; exact h0]
    refine fails_of_isOk ?_
    decide +kernel

/-- Complex coefficients, transposed form: with `b = (0, i)`, `a = 0` the state returned by `lfilter_zi` is not steady for
`c = 1`, because `lfilter` conjugates `b` and `lfilter_zi` does not. -/
theorem C16_tdf2_complex : ∃ zi zf y, lfilterZi (t1 1 fun _ => (0 : ℂ)) (some (t1 2 fun j => if j = 0 then 0 else Complex.I)) true = .ok zi ∧
    lfilter (t1 2 fun j => if j = 0 then 0 else Complex.I) (t1 1 fun _ => (0 : ℂ)) (t1 1 fun _ => 1) (some zi) .tdf2 none =
      .ok (y, some zf) ∧ zf ≠ zi := by
  obtain ⟨zi, z, e, hz, h⟩ := lfilterZi_tdf2 (B := 1) (K := 2) (P := 1) (.shared fun j => if j = 0 then 0 else Complex.I)
    (.shared fun _ => (0 : ℂ)) (by decide) (by decide) (by simp)
  have key := lfilter_tdf2 (N := 1) (u := none) (.shared fun j => if j = 0 then 0 else Complex.I) (.shared fun _ => (0 : ℂ))
    (.flat fun _ => 1) (rows_init hz) (by decide) (by decide) (by decide) (by simp)
  refine ⟨zi, _, _, e, key, fun hne => ?_⟩
  have hv : z 0 0 = Complex.I := by
    have := h 0 0 (by decide)
    simpa [comp, zext] using this
  have hget : ∀ (w : Nat → Nat → ℂ) (f : Bool), packed f 1 1 w = zi → w 0 0 = z 0 0 := by
    intro w f hw
    cases hz with
    | shared g =>
      cases f with
      | true => have := congrArg (fun t => t.get [0]) hw; simpa [packed, get_t1] using this
      | false => have := congrArg (fun t => t.rank) hw; simp [packed] at this
    | batched g =>
      cases f with
      | true => have := congrArg (fun t => t.rank) hw; simp [packed] at this
      | false => have := congrArg (fun t => t.get [0, 0]) hw; simpa [packed, get_t2] using this
  have h1 := hget _ _ hne
  rw [tdf2_step _ _ _ _ _ (by decide), hv] at h1
  simp [zext] at h1
  have := congrArg Complex.im h1
  simp at this
  norm_num at this

/-- The rows that occur are those of the batch. -/
theorem rows_trim {α : Type} [Zero α] {B K : Nat} {X : Tensor α} {f : Nat → Nat → α} (h : Rows B K X f) (hB : 0 < B) :
    ∃ f', Rows B K X f' ∧ ∀ i, ∃ j, j < B ∧ f' i = f j := by
  cases h with
  | shared g => exact ⟨_, .shared g, fun i => ⟨0, hB, rfl⟩⟩
  | batched f =>
    refine ⟨fun i => f (min i (B - 1)), ?_, fun i => ⟨min i (B - 1), by omega, rfl⟩⟩
    rw [show t2 B K f = t2 B K fun i => f (min i (B - 1)) from t2_congr rfl rfl fun i j hi _ => by
      rw [show min i (B - 1) = i by omega]]
    exact .batched _

/-- **C16, when there is a steady state**: `lfilter_zi(a, transpose=False)` returns a value if and only if no filter of the
batch has a pole at one, that is, if the denominators `1 + Σ a` of all DC gains are non-zero. -/
theorem C16_df2_returns_iff {B P : Nat} {a : Tensor α} {b : Option (Tensor α)} {av : Nat → Nat → α} (ha : Rows B P a av)
    (hP : 0 < P) (hB : 0 < B) :
    (∃ zi, lfilterZi a b false = .ok zi) ↔ ∀ i, i < B → 1 + ∑ k ∈ Finset.range P, av i k ≠ 0 := by
  constructor
  · rintro ⟨zi, e⟩ i hi h0
    obtain ⟨m, e'⟩ := lfilterZi_df2_fails (b := b) ha hP hi h0
    rw [e] at e'
    cases e'
  · intro h
    obtain ⟨f, ha', hf⟩ := rows_trim ha hB
    obtain ⟨zi, z, e, _⟩ := lfilterZi_df2 (b := b) ha' hP fun i => by
      obtain ⟨j, hj, e⟩ := hf i
      rw [e]; exact h j hj
    exact ⟨zi, e⟩

/-- The same for `lfilter_zi(a, b, transpose=True)`, whatever the numerator. -/
theorem C16_tdf2_returns_iff {B K P : Nat} {b a : Tensor α} {bv av : Nat → Nat → α} (hb : Rows B K b bv)
    (ha : Rows B P a av) (hK : 0 < K) (hM : 0 < max P (K - 1)) (hB : 0 < B) :
    (∃ zi, lfilterZi a (some b) true = .ok zi) ↔ ∀ i, i < B → 1 + ∑ k ∈ Finset.range P, av i k ≠ 0 := by
  constructor
  · rintro ⟨zi, e⟩ i hi h0
    obtain ⟨m, e'⟩ := lfilterZi_tdf2_fails hb ha hK hM hi h0
    rw [e] at e'
    cases e'
  · intro h
    obtain ⟨f, ha', hf⟩ := rows_trim ha hB
    obtain ⟨zi, z, e, _⟩ := lfilterZi_tdf2 hb ha' hK hM fun i => by
      obtain ⟨j, hj, e⟩ := hf i
      rw [e, ← star_sum, ← star_one (R := α), ← star_add, ne_eq, star_eq_zero]
      exact h j hj
    exact ⟨zi, e⟩

/-- An integrator has no steady state; the batch of two one-pole filters `a = 1` and `a = 2` has. -/
example : (¬ ∃ zi, lfilterZi (t1 1 fun _ => (-1 : ℚ)) none false = .ok zi) ∧
    (∃ zi, lfilterZi (t2 2 1 fun i _ => (i : ℚ) + 1) (some (t1 3 fun j => (j : ℚ))) true = .ok zi) :=
  ⟨fun h => (C16_df2_returns_iff (B := 1) (.shared fun _ => (-1 : ℚ)) (by decide) (by decide)).1 h 0 (by decide) (by norm_num),
    (C16_tdf2_returns_iff (.shared fun j => (j : ℚ)) (.batched fun i _ => (i : ℚ) + 1) (by decide) (by decide) (by decide)).2
      fun i _ => by rw [Finset.sum_range_one]; positivity⟩

/-- Non-vacuity: `b = (1, 2, 3)`, `a = (1/2)`, constant inputs 4 and 5 of length 5; the DC gain is `6 / (3/2) = 4`. -/
example : ∃ zi z, lfilterZi (t1 1 fun _ => (1 / 2 : ℚ)) (some (t1 3 fun j => (j : ℚ) + 1)) true = .ok zi ∧ Rows 2 2 zi z ∧
    lfilter (t1 3 fun j => (j : ℚ) + 1) (t1 1 fun _ => (1 / 2 : ℚ)) (t2 2 5 fun i _ => (i : ℚ) + 4)
        (some (t2 2 2 fun i m => ((i : ℚ) + 4) * z i m)) .tdf2 none =
      .ok (t2 2 5 fun i _ => ((i : ℚ) + 4) * 4, some (t2 2 2 fun i m => ((i : ℚ) + 4) * z i m)) := by
  obtain ⟨zi, z, e, hz, h⟩ := C16_tdf2_partial (B := 2) (K := 3) (P := 1) (.shared fun j => (j : ℚ) + 1)
    (.shared fun _ => (1 / 2 : ℚ)) (by decide) (by decide) (by intro i; norm_num)
  refine ⟨zi, z, e, hz, ?_⟩
  refine (h 5 (fun i => (i : ℚ) + 4) _ _ none (by decide) (by simp) (.batched 2 fun i _ => (i : ℚ) + 4)
    (.batched fun i m => ((i : ℚ) + 4) * z i m)).trans ?_
  have e1 : (∑ j ∈ Finset.range 3, ((j : ℚ) + 1)) / (1 + ∑ k ∈ Finset.range 1, (1 / 2 : ℚ)) = 4 := by
    norm_num [Finset.sum_range_succ]
  rw [e1]
  rfl

end Props
