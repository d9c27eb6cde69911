import Verif.Proof.LtiInit
import Mathlib.Data.Nat.Fib.Basic

/-!
# C15: `lfiltic` resumes a filter from its past

Signals are functions on the integers; the past is negative time.
-/

namespace Props
open Torch Torch.Tensor Spec Phil Phil.Lti
variable {α : Type} [CommRing α] [StarRing α]

/-- **C15 (partial).** Let `y` be a response of the filter to `x`: for all times `n ≥ 0`,
`y_n = Σ_{j<K} b_j x_{n-j} - Σ_{k=1}^{P} a_k y_{n-k}` (real numbers; nothing is assumed about the past values).  Then
`zi = lfiltic(b, a, [y_{-1}, …, y_{-P}], [x_{-1}, …, x_{-K+1}])` succeeds, and `lfilter(b, a, [x_0, …], zi, form="tdf2")`
returns `y_0, y_1, …`.  Past inputs that are not given count as zero.
Missing: one tap (`K = 1`) and no poles (`P = 0`), where `lfiltic` raises (see below). -/
theorem C15_lfiltic_partial [TrivialStar α] {B N K P : Nat} {b a X yp : Tensor α} {xp : Option (Tensor α)}
    {bv av : Nat → Nat → α} {x y : Nat → Int → α} {u : Option Int}
    (hb : Rows B K b bv) (ha : Rows B P a av) (hX : Sig N B X fun i t => x i t)
    (hyp : Rows B P yp fun i k => y i (-1 - k)) (hxp : PastRows B (K - 1) xp fun i j => x i (-1 - j))
    (hy : ∀ i (n : Nat), y i n = ∑ j ∈ Finset.range K, bv i j * x i ((n : Int) - j) -
      ∑ k ∈ Finset.range P, av i k * y i ((n : Int) - (k + 1)))
    (hK : 1 < K) (hP : 0 < P) (hN : 0 < N) (hu : ∀ i, u = some i → 1 ≤ i) :
    ∃ zi, lfiltic b a yp xp = .ok zi ∧ ∃ zf, lfilter b a X (some zi) .tdf2 u =
      .ok (packed (allFlat X b a (some zi)) B N fun i t => y i t, some zf) := by
  obtain ⟨zi, z, e, hz, hzv⟩ := lfiltic_eq hb ha hyp hxp hK hP
  refine ⟨zi, e, _, (lfilter_tdf2 hb ha hX (rows_init hz) (by omega) (by omega) hN hu).trans
    (ok_pair (congrArg (packed _ B N) (funext fun i => funext fun t => ?_)) rfl)⟩
  simp only [star_trivial]
  refine (tdf2_past (by omega) (fun j hj => ?_) (fun j hj => ?_) (fun n => ?_) (fun m hm => ?_) t).1
  · rw [zext, if_neg (by omega)]
  · rw [zext, if_neg (by omega)]
  · rw [hy i n, taps_zext (by omega), taps_zext (by omega)]
    unfold taps
    refine congrArg₂ (· - ·) rfl (Finset.sum_congr rfl fun k _ => ?_)
    congr 2; ring
  · rw [hzv i m hm, pastState]
    refine Finset.sum_congr rfl fun j _ => ?_
    rw [show (0 : Int) - 1 - j = -1 - j by ring]

omit [StarRing α] in
/-- One tap: `lfiltic` raises for every denominator, past output and past input. -/
theorem C15_one_tap (b : Nat → α) (a y : Tensor α) (x : Option (Tensor α)) :
    Fails (lfiltic (t1 1 b) a y x) := by
  unfold lfiltic
  refine fails_check fun _ => fails_check fun _ => ?_
  refine fails_bind fun v hv => fails_left ?_
  rw [slice_t1_n1, show pyStop 1 none - pyStart 1 (some 1) = 0 by decide] at hv
  cases hv
  exact hankel_empty _ _

omit [StarRing α] in
/-- No poles: `lfiltic` raises as well. -/
theorem C15_no_poles {K : Nat} (b : Nat → α) (a y : Nat → α) (x : Option (Tensor α)) :
    Fails (lfiltic (t1 K b) (t1 0 a) (t1 0 y) x) := by
  unfold lfiltic
  refine fails_check fun _ => fails_check fun _ => ?_
  exact fails_bind fun _ _ => fails_bind fun _ _ => fails_left (hankel_empty _ _)

/-- Non-vacuity: the Fibonacci numbers as free response of `1 / (1 - q - q²)` with an unused second tap, from the past
`y_{-1} = 1, y_{-2} = 0`. -/
example : ∃ zi, lfiltic (t1 2 fun _ => (1 : ℤ)) (t1 2 fun _ => -1) (t1 2 fun k => ((Nat.fib (-1 - (k : Int) + 2).toNat : Nat) : ℤ)) none = .ok zi ∧
      ∃ zf, lfilter (t1 2 fun _ => (1 : ℤ)) (t1 2 fun _ => -1) (t1 5 fun _ => 0) (some zi) .tdf2 none =
        .ok (packed (allFlat (t1 5 fun _ => (0 : ℤ)) (t1 2 fun _ => (1 : ℤ)) (t1 2 fun _ => -1) (some zi)) 1 5
          fun _ t => ((Nat.fib ((t : Int) + 2).toNat : Nat) : ℤ), some zf) := by
  refine C15_lfiltic_partial (B := 1) (N := 5) (K := 2) (P := 2) (u := none) (x := fun _ _ => 0)
    (y := fun _ n => ((Nat.fib (n + 2).toNat : Nat) : ℤ)) (xp := none)
    (.shared fun _ => 1) (.shared fun _ => -1) (.flat fun _ => 0)
    (.shared _) (.zero fun _ _ _ => rfl) (fun _ n => ?_) (by decide) (by decide) (by decide) (by simp)
  · have e : ((n : Int) + 2).toNat = n + 2 := by omega
    have e1 : ((n : Int) - (((0 : Nat) : Int) + 1) + 2).toNat = n + 1 := by omega
    have e2 : ((n : Int) - (((1 : Nat) : Int) + 1) + 2).toNat = n := by omega
    simp only [Finset.sum_range_succ, Finset.sum_range_zero, e, e1, e2, Nat.fib_add_two]
    push_cast
    ring

end Props
