import Verif.Proof.Periodic
import Verif.Props.C11

/-!
# C82: periodic signals

`lti.lfilter` with a signal of period `L`.  Real numbers where stability matters.
-/

namespace Props
open Torch Torch.Tensor Spec Phil
open Phil.Lti (Form ok_pair lfilter)

/-- **C82, periodic output** (any ring with conjugation, form tdf2): if the signal has period `L` and filtering one period returns the
initial state, then the output for any number of samples has period `L`. -/
theorem C82_periodic {α : Type} [CommRing α] [StarRing α] {B K P L : Nat} {b a : Tensor α} {bv av : Nat → Nat → α} {x z : Nat → Nat → α}
    {y0 : Tensor α} {u0 : Option Int} (hb : Rows B K b bv) (ha : Rows B P a av) (hK : 0 < K) (hM : 0 < max P (K - 1)) (hL : 0 < L)
    (hx : ∀ i t, x i (t + L) = x i t) (hu0 : ∀ i, u0 = some i → 1 ≤ i)
    (h : lfilter b a (t2 B L x) (some (t2 B (max P (K - 1)) z)) .tdf2 u0 = .ok (y0, some (t2 B (max P (K - 1)) z))) :
    ∃ y : Nat → Nat → α, (∀ i t, i < B → y i (t + L) = y i t) ∧
      ∀ (N : Nat) (u : Option Int), 0 < N → (∀ i, u = some i → 1 ≤ i) →
        ∃ zf, lfilter b a (t2 B N x) (some (t2 B (max P (K - 1)) z)) .tdf2 u = .ok (t2 B N y, some zf) := by
  rw [Lti.lfilter_tdf2 hb ha (.batched B x) (.full z) hK hM hL hu0, packed_batch, packed_batch] at h
  have h := Option.some.inj (congrArg Prod.snd (Except.ok.inj h))
  refine ⟨fun i t => tdf2Out (max P (K - 1)) (fun k => star (zext K (bv i) k)) (fun k => star (zext P (av i) k)) (z i) (x i) t,
    fun i t hi => tdf2_periodic hM (hx i) (fun m hm => ?_) t, fun N u hN hu => ⟨_, (Lti.lfilter_tdf2 hb ha (.batched B x) (.full z) hK hM hN hu).trans (by rw [packed_batch])⟩⟩
  · have := congrArg (fun T : Tensor α => T.get [i, m]) h
    rwa [get_t2 hi hm, get_t2 hi hm] at this

/-- The filter `y[n] = x[n] - y[n-1]` with the signal 1, 1, 1, …: the state goes from 0 to -1 and back to 0. -/
example := C82_periodic (α := ℤ) (B := 1) (K := 1) (P := 1) (L := 2) (x := fun _ _ => 1) (z := fun _ _ => 0) (u0 := some 1)
  (.shared fun _ => 1) (.shared fun _ => 1) (by decide) (by decide) (by decide) (fun _ _ => rfl)
  (by rintro i ⟨⟩; decide)
  ((Lti.lfilter_tdf2 (u := some 1) (.shared fun _ => 1) (.shared fun _ => 1) (.batched 1 fun _ _ => 1) (.full fun _ _ => 0) (by decide)
    (by decide) (by decide) (by rintro i ⟨⟩; decide)).trans (ok_pair rfl (congrArg some (by
      rw [packed_batch]
      refine t2_congr (α := ℤ) rfl rfl fun i m hi hm => ?_
      obtain rfl : m = 0 := by change m < 1 at hm; omega
      decide))))

/-- **C82, steady state**: for a stable filter and a signal of period `L` exactly one state returns after one period. -/
theorem C82_steady_state {B K P L : Nat} {b a : Tensor ℝ} {bv av : Nat → Nat → ℝ} (hb : Rows B K b bv) (ha : Rows B P a av)
    (hK : 0 < K) (hM : 0 < max P (K - 1)) (hL : 0 < L) (hp : ∀ i, i < B → ∀ p ∈ poles P (fun k => (av i k : ℂ)), ‖p‖ < 1)
    (x : Nat → Nat → ℝ) :
    ∃ z : Nat → Nat → ℝ, ∀ (z' : Nat → Nat → ℝ) (u : Option Int), (∀ i, u = some i → 1 ≤ i) →
      ((∃ y, lfilter b a (t2 B L x) (some (t2 B (max P (K - 1)) z')) .tdf2 u = .ok (y, some (t2 B (max P (K - 1)) z'))) ↔
        ∀ i m, i < B → m < max P (K - 1) → z' i m = z i m) := by
  have hz : ∀ i, ∃ z : Nat → ℝ, i < B →
      (∀ m, m < max P (K - 1) → tdf2State (max P (K - 1)) (zext K (bv i)) (zext P (av i)) z (x i) L m = z m) ∧
      ∀ z' : Nat → ℝ, (∀ m, m < max P (K - 1) → tdf2State (max P (K - 1)) (zext K (bv i)) (zext P (av i)) z' (x i) L m = z' m) →
        ∀ m, m < max P (K - 1) → z' m = z m := by
    intro i
    by_cases hi : i < B
    · obtain ⟨z, h⟩ := tdf2_returning (b := bv i) hK hM hL (hp i hi) (x i)
      exact ⟨z, fun _ => h⟩
    · exact ⟨fun _ => 0, fun h => absurd h hi⟩
  choose z hz using hz
  refine ⟨z, fun z' u hu => ?_⟩
  have e := Lti.lfilter_tdf2 hb ha (.batched B x) (.full z') hK hM hL hu
  simp only [star_trivial, packed_batch] at e
  constructor
  · rintro ⟨y, h⟩ i m hi hm
    have h := Option.some.inj (congrArg Prod.snd (Except.ok.inj (e.symm.trans h)))
    refine (hz i hi).2 (z' i) (fun m hm => ?_) m hm
    have := congrArg (fun T : Tensor ℝ => T.get [i, m]) h
    rwa [get_t2 hi hm, get_t2 hi hm] at this
  · intro h
    refine ⟨_, e.trans (ok_pair rfl (congrArg some (t2_congr (α := ℝ) rfl rfl fun i m hi hm => ?_)))⟩
    rw [tdf2State_congr (fun m hm => h i m hi hm) (fun _ _ => rfl) hm, (hz i hi).1 m hm, h i m hi hm]

theorem half_stable_real : ∀ p ∈ poles 1 (fun _ => ((-(1 / 2) : ℝ) : ℂ)), ‖p‖ < 1 := by
  have := half_stable
  simpa using this

example := C82_steady_state (B := 2) (K := 2) (P := 1) (L := 3) (.batched fun i k => (i : ℝ) + k) (.shared fun _ => (-(1 / 2) : ℝ)) (by decide)
  (by decide) (by decide) (fun _ _ => half_stable_real) (fun i t => (i : ℝ) + (t % 3 : Nat))

/-- **C82, settling**: for a stable filter and a signal of period `L` there is one output `w` of period `L` which the output approaches like
`r^t` from every initial state (form tdf2) and, from rest, in every form; `r` is any number above the largest pole. -/
theorem C82_settles {B K P L : Nat} {b a : Tensor ℝ} {bv av : Nat → Nat → ℝ} {x : Nat → Nat → ℝ} {r : ℝ} (hb : Rows B K b bv)
    (ha : Rows B P a av) (hB : 0 < B) (hK : 0 < K) (hM : 0 < max P (K - 1)) (hL : 0 < L) (hx : ∀ i t, x i (t + L) = x i t) (hr : 0 < r)
    (hr1 : r ≤ 1) (hp : ∀ i, i < B → ∀ p ∈ poles P (fun k => (av i k : ℂ)), ‖p‖ < r) :
    ∃ w : Nat → Nat → ℝ, (∀ i t, i < B → w i (t + L) = w i t) ∧
      (∀ (zi : Tensor ℝ) (z : Nat → Nat → ℝ), InitState B (max P (K - 1)) (some zi) z →
        ∃ G : Nat → ℝ, ∀ (N : Nat) (u : Option Int), 0 < N → (∀ i, u = some i → 1 ≤ i) →
          ∃ (y : Nat → Nat → ℝ) (zf : Tensor ℝ), lfilter b a (t2 B N x) (some zi) .tdf2 u = .ok (t2 B N y, some zf) ∧
            ∀ i t, i < B → |y i t - w i t| ≤ G i * r ^ t) ∧
      ∃ G : Nat → ℝ, ∀ (N : Nat) (u : Option Int) (form : Form), 0 < N → (∀ i, u = some i → 1 ≤ i) → form ≠ .other →
          ∃ y : Nat → Nat → ℝ, lfilter b a (t2 B N x) none form u = .ok (t2 B N y, none) ∧
            ∀ i t, i < B → |y i t - w i t| ≤ G i * r ^ t := by
  have hz : ∀ i, ∃ z : Nat → ℝ, i < B →
      ∀ m, m < max P (K - 1) → tdf2State (max P (K - 1)) (zext K (bv i)) (zext P (av i)) z (x i) L m = z m := by
    intro i
    by_cases hi : i < B
    · obtain ⟨z, h, _⟩ := tdf2_returning (b := bv i) hK hM hL (fun p h => (hp i hi p h).trans_le hr1) (x i)
      exact ⟨z, fun _ => h⟩
    · exact ⟨fun _ => 0, fun h => absurd h hi⟩
  choose z hz using hz
  have hG : ∀ z' : Nat → Nat → ℝ, ∃ G : Nat → ℝ, ∀ i t, i < B →
      |tdf2Out (max P (K - 1)) (zext K (bv i)) (zext P (av i)) (z' i) (x i) t -
        tdf2Out (max P (K - 1)) (zext K (bv i)) (zext P (av i)) (z i) (x i) t| ≤ G i * r ^ t := by
    intro z'
    have : ∀ i, ∃ G : ℝ, ∀ t, i < B → |tdf2Out (max P (K - 1)) (zext K (bv i)) (zext P (av i)) (z' i) (x i) t -
        tdf2Out (max P (K - 1)) (zext K (bv i)) (zext P (av i)) (z i) (x i) t| ≤ G * r ^ t := by
      intro i
      by_cases hi : i < B
      · obtain ⟨G, h⟩ := tdf2_forget (b := bv i) hK hM hr (hp i hi) (z' i) (z i) (x i)
        exact ⟨G, fun t _ => h t⟩
      · exact ⟨0, fun _ h => absurd h hi⟩
    choose G hG using this
    exact ⟨G, fun i t hi => hG i t hi⟩
  refine ⟨fun i => tdf2Out (max P (K - 1)) (zext K (bv i)) (zext P (av i)) (z i) (x i),
    fun i t hi => tdf2_periodic hM (hx i) (hz i hi) t, fun zi z' hz' => ?_, ?_⟩
  · obtain ⟨G, h⟩ := hG z'
    refine ⟨G, fun N u hN hu => ?_⟩
    have e := Lti.lfilter_tdf2 hb ha (.batched B x) hz' hK hM hN hu
    simp only [star_trivial, packed_batch] at e
    exact ⟨_, _, e, h⟩
  · obtain ⟨G, h⟩ := hG fun _ _ => 0
    refine ⟨G, fun N u form hN hu hf => ⟨fun i => tdf2Out (max P (K - 1)) (zext K (bv i)) (zext P (av i)) (fun _ => 0) (x i), ?_, h⟩⟩
    obtain ⟨y, h1, h2, h3⟩ := C11_lfilter hb ha (.batched B x) (form := form) (u := u) (N := N)
      (by cases form <;> simp at hf ⊢) hB hK hM hN hu
    rw [h3, packed_batch]
    refine ok_pair (t2_congr (α := ℝ) rfl rfl fun i t _ _ => ?_) rfl
    have : y i = causal (tdf2Out (max P (K - 1)) (zext K (bv i)) (zext P (av i)) (fun _ => 0) (x i)) := by
      refine diffEq_unique (v := taps K (bv i) (causal (x i))) (P := P) (a := av i) (fun n hn => (h1 i n hn).trans (if_pos hn).symm)
        (fun n _ => ?_) (fun n hn => ?_)
      · rw [h2, taps, taps]
        refine congrArg₂ (· - ·) rfl (Finset.sum_congr rfl fun k _ => ?_)
        rw [show n - 1 - (k : Int) = n - (k + 1) by ring]
      · obtain ⟨n, rfl⟩ := Int.eq_ofNat_of_zero_le hn
        have := tdf2_diff hM (zext K (bv i)) (zext P (av i)) (x i) n
        rw [causal_nat]
        rw [taps_zext (by omega), taps_zext (by omega)] at this
        exact this
    rw [this, causal_nat]

/-- A signal of period 3, two filters. -/
example := C82_settles (B := 2) (K := 2) (P := 1) (L := 3) (r := 1) (x := fun i t => (i : ℝ) + (t % 3 : Nat)) (.batched fun i k => (i : ℝ) + k)
  (.shared fun _ => (-(1 / 2) : ℝ)) (by decide) (by decide) (by decide) (by decide) (fun i t => by simp) (by norm_num) le_rfl
  (fun _ _ => half_stable_real)

/-- **C82, a pole on the unit circle**: the running sum of the constant signal 1 has no state that returns. -/
theorem C82_marginal (L : Nat) (hL : 0 < L) (z : ℝ) (u : Option Int) (hu : ∀ i, u = some i → 1 ≤ i) (y : Tensor ℝ) :
    lfilter (t1 1 fun _ => 1) (t1 1 fun _ => -1) (t2 1 L fun _ _ => 1) (some (t2 1 1 fun _ _ => z)) .tdf2 u ≠
      .ok (y, some (t2 1 1 fun _ _ => z)) := by
  intro h
  have e := Lti.lfilter_tdf2 (B := 1) (K := 1) (P := 1) (.shared fun _ => (1 : ℝ)) (.shared fun _ => -1) (.batched 1 fun _ (_ : Nat) => (1 : ℝ))
    (.full fun _ _ => z) (by decide) (by decide) hL hu
  simp only [star_trivial, packed_batch] at e
  have h := congrArg (fun T : Tensor ℝ => T.get [0, 0]) (Option.some.inj (congrArg Prod.snd (Except.ok.inj (e.symm.trans h))))
  rw [get_t2 (by decide) (by decide), get_t2 (by decide) (by decide)] at h
  have key : ∀ t, tdf2State 1 (zext 1 fun _ => (1 : ℝ)) (zext 1 fun _ => -1) (fun _ => z) (fun _ => 1) t 0 = z + t := by
    intro t
    induction t with
    | zero => simp [tdf2State, vecRec]
    | succ t ih =>
      rw [tdf2_step _ _ _ _ _ (by decide), tdf2Out, ih]
      simp [zext]
      ring
  have h' : z + (L : ℝ) = z := (key L).symm.trans h
  have : (L : ℝ) = 0 := by linarith
  exact hL.ne' (by exact_mod_cast this)

example := C82_marginal 3 (by decide) 5 none (by simp)

end Props
