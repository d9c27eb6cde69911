import Verif.Spec.Shift
import Verif.Proof.LinearTorchlpc

/-! # Delays: tools -/

namespace Spec
open Torch Torch.Tensor Finset
variable {α : Type} [CommRing α]

theorem delayed_of_lt {d : Nat} (x : Nat → α) {t : Nat} (h : t < d) : delayed d x t = 0 := if_pos h

theorem delayed_add (d : Nat) (x : Nat → α) (t : Nat) : delayed d x (d + t) = x t := by
  rw [delayed, if_neg (by omega), Nat.add_sub_cancel_left]

theorem delayBy_shape (d : Nat) (X : Tensor α) : (delayBy d X).shape = X.shape := shape_ofFn _ _

theorem delayBy_t1 (d n : Nat) (f : Nat → α) : delayBy d (t1 n f) = t1 n (delayed d f) := by
  refine ext1 rfl rfl fun i hi => ?_
  rw [get_t1 hi, delayBy, get_ofFn, if_pos (by simp [inB, hi])]
  show (if i < d then 0 else (t1 n f).get [i - d]) = _
  unfold delayed
  split
  · rfl
  · rw [get_t1 (by omega)]

theorem delayBy_t2 (d n m : Nat) (f : Nat → Nat → α) : delayBy d (t2 n m f) = t2 n m fun i => delayed d (f i) := by
  refine ext2 rfl rfl fun i j hi hj => ?_
  rw [get_t2 hi hj, delayBy, get_ofFn, if_pos (by simp [inB, hi, hj])]
  show (if j < d then 0 else (t2 n m f).get [i, j - d]) = _
  unfold delayed
  split
  · rfl
  · rw [get_t2 hi (by omega)]

theorem delayBy_t3 (d n m p : Nat) (f : Nat → Nat → Nat → α) :
    delayBy d (t3 n m p f) = t3 n m p fun i t k => delayed d (fun t => f i t k) t := by
  refine ext3 rfl rfl fun i j k hi hj hk => ?_
  rw [get_t3 hi hj hk, delayBy, get_ofFn, if_pos (by simp [inB, hi, hj, hk])]
  show (if j < d then 0 else (t3 n m p f).get [i, j - d, k]) = _
  unfold delayed
  split
  · rfl
  · rw [get_t3 hi (by omega) hk]

theorem delayBy_signal (d : Nat) (k : Option Nat) (B N : Nat) (f : Nat → Nat → Nat → α) :
    delayBy d (signal k B N f) = signal k B N fun i t p => delayed d (fun t => f i t p) t := by
  cases k with
  | none => exact delayBy_t2 d B N fun i j => f i j 0
  | some P => exact delayBy_t3 d _ _ _ _

theorem delayBy_packed (d : Nat) (fl : Bool) (B N : Nat) (f : Nat → Nat → α) :
    delayBy d (packed fl B N f) = packed fl B N fun i => delayed d (f i) := by
  unfold packed
  cases fl with
  | false => exact delayBy_t2 _ _ _ _
  | true => exact delayBy_t1 _ _ _

theorem delayBy_sig {N B : Nat} {X : Tensor α} {x : Nat → Nat → α} (h : Sig N B X x) (d : Nat) :
    Sig N B (delayBy d X) fun i => delayed d (x i) := by
  cases h with
  | flat x => rw [delayBy_t1]; exact .flat _
  | batched B x => rw [delayBy_t2]; exact .batched _ _

theorem delaysBy_of {d : Nat} {r r' : Res (Tensor α × Option (Tensor α))} {y y' : Tensor α} {f f' : Option (Tensor α)}
    (h : r = .ok (y, f)) (h' : r' = .ok (y', f')) (e : y' = delayBy d y) : DelaysBy d r r' :=
  ⟨y, f, f', h, by rw [h', e]⟩

/-- A signal whose first `d` samples are zero, and `x` after them. -/
structure Late (d : Nat) (x x' : Nat → α) : Prop where
  before : ∀ t, t < d → x' t = 0
  after : ∀ t, x' (d + t) = x t

theorem late_delayed (d : Nat) (x : Nat → α) : Late d x (delayed d x) := ⟨fun _ h => delayed_of_lt x h, delayed_add d x⟩

theorem eq_delayed {d : Nat} {x x' : Nat → α} (h : Late d x x') (t : Nat) : x' t = delayed d x t := by
  unfold delayed
  split
  · next h' => exact h.before t h'
  · next h' => rw [← h.after (t - d)]; congr 1; omega

/-! ## Recursions started from zero -/

theorem vecRec_zero {M d : Nat} (A : Nat → Nat → Nat → α) {v : Nat → Nat → α} (h : ∀ t m, t < d → v t m = 0) {t : Nat}
    (ht : t ≤ d) : vecRec M A (fun _ => 0) v t = fun _ => 0 := by
  induction t with
  | zero => rfl
  | succ t ih => funext m; simp only [vecRec]; rw [ih (by omega), h t m (by omega)]; simp

theorem scalarRec_zero {d : Nat} (a : Nat → α) {v : Nat → α} (h : ∀ t, t < d → v t = 0) {t : Nat}
    (ht : t ≤ d) : scalarRec a 0 v t = 0 := by
  induction t with
  | zero => rfl
  | succ t ih => simp only [scalarRec]; rw [ih (by omega), h t (by omega)]; simp

theorem vecRec_late {M d : Nat} {A A' : Nat → Nat → Nat → α} {v v' : Nat → Nat → α} (hA : ∀ t, A' (d + t) = A t)
    (h : ∀ t m, t < d → v' t m = 0) (h' : ∀ t, v' (d + t) = v t) (t : Nat) :
    vecRec M A' (fun _ => 0) v' (d + t) = vecRec M A (fun _ => 0) v t := by
  rw [vecRec_add, vecRec_zero A' h le_rfl, show (fun t => A' (d + t)) = A from funext hA,
    show (fun t => v' (d + t)) = v from funext h']

theorem scalarRec_late {d : Nat} {a a' : Nat → α} {v v' : Nat → α} (hA : ∀ t, a' (d + t) = a t)
    (h : Late d v v') (t : Nat) :
    scalarRec a' 0 v' (d + t) = scalarRec a 0 v t := by
  rw [scalarRec_add, scalarRec_zero a' h.before le_rfl, show (fun t => a' (d + t)) = a from funext hA,
    show (fun t => v' (d + t)) = v from funext h.after]

theorem causal_late {d : Nat} {x x' : Nat → α} (h : Late d x x') (n : Int) : causal x' n = causal x (n - d) := by
  unfold causal
  by_cases h0 : n < 0
  · rw [if_pos h0, if_pos (by omega)]
  · rw [if_neg h0]
    by_cases h1 : n - d < 0
    · rw [if_pos h1, h.before _ (by omega)]
    · rw [if_neg h1, ← h.after]; congr 1; omega

theorem taps_shift (K : Nat) (b : Nat → α) {x x' : Int → α} (d : Int) (h : ∀ n, x' n = x (n - d)) (n : Int) :
    taps K b x' n = taps K b x (n - d) := by
  refine sum_congr rfl fun j _ => ?_
  rw [h]; congr 2; ring

/-- Solutions of the difference equation move with the input. -/
theorem diffEq_late {K P d : Nat} {b a x x' : Nat → α} {y y' : Int → α} (hx : Late d x x') (h0 : ∀ n, n < 0 → y n = 0)
    (h0' : ∀ n, n < 0 → y' n = 0) (h : ∀ n, y n = taps K b (causal x) n - taps P a y (n - 1))
    (h' : ∀ n, y' n = taps K b (causal x') n - taps P a y' (n - 1)) : Late d (fun t => y t) fun t => y' t := by
  have e : y' = fun n => y (n - d) := by
    refine diffEq_unique (v := taps K b (causal x')) (fun n hn => ?_) (fun n _ => h' n) fun n _ => ?_
    · rw [h0' n hn, h0 _ (by omega)]
    · rw [h, taps_shift K b (d : Int) (causal_late hx), taps_shift P a (x := y) (d : Int) (fun _ => rfl)]
      congr 2; ring
  constructor
  · intro t ht; rw [e]; exact h0 _ (by omega)
  · intro t; rw [e]; beta_reduce; congr 1; omega

theorem tvSignal_zero {M d : Nat} (a : Nat → Nat → α) {x : Nat → α} (h : ∀ t, t < d → x t = 0) {n : Int}
    (hn : n < d) : tvSignal M a (fun _ => 0) x n = 0 := by
  by_cases h0 : n < 0
  · rw [tvSignal, withPast, if_pos h0]
  · rw [tvSignal_agree (T := n.toNat) (a' := a) (y := fun _ => 0) (fun _ _ _ => rfl) (fun t ht => h t (by omega)) (by omega)]
    have := tvSignal_lin (M := M) a 0 0 (z := fun _ => 0) (z₁ := fun _ => 0) (z₂ := fun _ => 0) (x := fun _ => 0)
      (x₁ := fun _ => 0) (x₂ := fun _ => 0) (fun _ => by ring) (fun _ => by ring) n
    rw [this]; ring

theorem tvSignal_late {M d : Nat} (hM : 0 < M) {a a' : Nat → Nat → α} {x x' : Nat → α} (ha : ∀ t, a' (d + t) = a t)
    (hx : Late d x x') (n : Int) :
    tvSignal M a' (fun _ => 0) x' (d + n) = tvSignal M a (fun _ => 0) x n := by
  rw [← tvSignal_shift hM a' (fun _ => 0) x' d n]
  rw [show (fun m : Nat => tvSignal M a' (fun _ => 0) x' ((d : Int) - 1 - m)) = fun _ => 0 from
      funext fun m => tvSignal_zero a' hx.before (by omega),
    show (fun t => a' (d + t)) = a from funext ha, show (fun t => x' (d + t)) = x from funext hx.after]

theorem tvTdf2State_zero {M d : Nat} (b a : Nat → Nat → α) {x : Nat → α} (h : ∀ t, t < d → x t = 0) {t : Nat} (ht : t ≤ d) :
    tvTdf2State M b a (fun _ => 0) x t = fun _ => 0 :=
  vecRec_zero _ (fun t m h' => by rw [h t h', mul_zero]) ht

theorem tvTdf2Out_late {M d : Nat} {b b' a a' : Nat → Nat → α} {x x' : Nat → α} (hb : ∀ t, b' (d + t) = b t)
    (ha : ∀ t, a' (d + t) = a t) (hx : Late d x x') :
    Late d (fun t => tvTdf2Out M b a (fun _ => 0) x t) fun t => tvTdf2Out M b' a' (fun _ => 0) x' t := by
  constructor
  · intro t ht
    rw [tvTdf2Out, tvTdf2State_zero b' a' hx.before ht.le, hx.before t ht]; simp
  · intro t
    rw [← tvTdf2Out_shift, tvTdf2State_zero b' a' hx.before le_rfl, show (fun t => a' (d + t)) = a from funext ha,
      show (fun t => b' (d + t)) = b from funext hb, show (fun t => x' (d + t)) = x from funext hx.after]

theorem tvConv_late {N M d : Nat} {b b' : Nat → Nat → α} {x x' : Nat → α} (hb : ∀ t, b' (d + t) = b t) (hx : Late d x x')
    {t : Nat} (ht : t < N) : tvConv N M b' x' t = delayed d (fun t => tvConv N M b x t) t := by
  unfold delayed tvConv
  split
  · next h =>
    refine sum_eq_zero fun j _ => ?_
    rw [hx.before _ (by omega), mul_zero, ite_self]
  · next h =>
    refine sum_congr rfl fun j _ => ?_
    by_cases h1 : j ≤ t - d
    · rw [if_pos ⟨by omega, by omega⟩, if_pos ⟨h1, by omega⟩, show t - j = d + (t - d - j) by omega, hb, hx.after]
    · rw [if_neg (show ¬(j ≤ t - d ∧ _) from fun h => h1 h.1)]
      by_cases h2 : j ≤ t
      · rw [hx.before _ (by omega), mul_zero, ite_self]
      · rw [if_neg fun h => h2 h.1]

theorem tvSignal_lateNat {M d : Nat} (hM : 0 < M) {a a' : Nat → Nat → α} {x x' : Nat → α} (ha : ∀ t, a' (d + t) = a t)
    (hx : Late d x x') :
    Late d (fun t : Nat => tvSignal M a (fun _ => 0) x t) fun t : Nat => tvSignal M a' (fun _ => 0) x' t :=
  ⟨fun t ht => tvSignal_zero a' hx.before (by omega), fun t => by
    rw [← tvSignal_late hM ha hx t]; exact congrArg _ (by omega)⟩

theorem tapsCausal_late {K d : Nat} {b b' : Nat → Nat → α} {x x' : Nat → α} (hb : ∀ t, b' (d + t) = b t) (hx : Late d x x') :
    Late d (fun t : Nat => taps K (b t) (causal x) t) fun t : Nat => taps K (b' t) (causal x') t := by
  constructor
  · intro t ht
    refine sum_eq_zero fun j _ => ?_
    rw [causal_late hx, causal, if_pos (by omega), mul_zero]
  · intro t
    rw [hb, taps_shift _ _ (d : Int) (causal_late hx)]
    exact congrArg _ (by omega)

theorem tapsSignal_late {K M d : Nat} (hM : 0 < M) {b b' a a' : Nat → Nat → α} {x x' : Nat → α} (hb : ∀ t, b' (d + t) = b t)
    (ha : ∀ t, a' (d + t) = a t) (hx : Late d x x') :
    Late d (fun t : Nat => taps K (b t) (tvSignal M a (fun _ => 0) x) t)
      fun t : Nat => taps K (b' t) (tvSignal M a' (fun _ => 0) x') t := by
  constructor
  · intro t ht
    refine sum_eq_zero fun j _ => ?_
    rw [tvSignal_zero a' hx.before (by omega), mul_zero]
  · intro t
    rw [hb]
    refine sum_congr rfl fun j _ => ?_
    rw [← tvSignal_late hM ha hx]
    exact congrArg _ (congrArg _ (by omega))

theorem vecRec_first_late {M d : Nat} {A A' : Nat → Nat → Nat → α} {x x' : Nat → α} (hA : ∀ t, A' (d + t) = A t)
    (hx : Late d x x') :
    Late d (fun t => vecRec M A (fun _ => 0) (first x) (t + 1) 0) fun t => vecRec M A' (fun _ => 0) (first x') (t + 1) 0 := by
  have h0 : ∀ t m, t < d → first x' t m = 0 := fun t m ht => by rw [first, hx.before t ht, ite_self]
  constructor
  · intro t ht
    rw [vecRec_zero A' h0 (show t + 1 ≤ d from ht)]
  · intro t
    exact congrFun (vecRec_late (t := t + 1) hA h0 fun t => funext fun m => by rw [first, first, hx.after]) 0

/-! ## Input and feedthrough -/

theorem sval_late {B N d : Nat} {x : Tensor α} (hx : x.shape = [B, N] ∨ ∃ F, x.shape = [B, N, F]) (i f : Nat) {t : Nat}
    (ht : t < N) : sval (delayBy d x) i t f = delayed d (fun t => sval x i t f) t := by
  rcases hx with hx | ⟨F, hx⟩
  · obtain ⟨g, rfl, hg⟩ := of_shape2 hx
    rw [delayBy_t2]
    simp only [sval, rank_t2, if_true]
    by_cases hi : i < B
    · rw [get_t2 hi ht]
      unfold delayed
      split
      · rfl
      · exact (hg _ _).symm
    · rw [(t2 B N _).canon _ (by simp [inB, hi]), delayed]
      split
      · rfl
      · rw [(t2 B N _).canon _ (by simp [inB, hi])]
  · obtain ⟨g, rfl, hg⟩ := of_shape3 hx
    rw [delayBy_t3]
    simp only [sval, rank_t3, Nat.succ_ne_self, if_false]
    by_cases hi : i < B ∧ f < F
    · rw [get_t3 hi.1 ht hi.2]
      unfold delayed
      split
      · rfl
      · exact (hg _ _ _).symm
    · have : ∀ t, inB [i, t, f] [B, N, F] = false := by
        intro t
        simp only [inB, Bool.and_eq_false_iff, decide_eq_false_iff_not]
        by_contra h
        simp at h
        exact hi ⟨h.1, h.2.2⟩
      rw [(t3 B N F _).canon _ (this t), delayed]
      split
      · rfl
      · rw [(t3 B N F _).canon _ (this _)]

theorem memoryless_late {B N d F : Nat} {g : Nat → Nat → Nat → Nat → α} {x : Tensor α}
    (hx : x.shape = [B, N] ∨ ∃ F, x.shape = [B, N, F]) (hg : ∀ i t, g i t = g i 0) (i p : Nat) {t : Nat} (ht : t < N) :
    memoryless F g (delayBy d x) i t p = delayed d (fun t => memoryless F g x i t p) t := by
  unfold memoryless
  rw [hg i t]
  simp only [sval_late hx i _ ht]
  unfold delayed
  split
  · simp
  · beta_reduce; rw [hg i (t - d)]

theorem drive_shape {B N M : Nat} {x : Tensor α} {v : Nat → Nat → Nat → α} (h : Drive B N M x v) :
    x.shape = [B, N] ∨ ∃ F, x.shape = [B, N, F] := by
  cases h with
  | full x => exact Or.inr ⟨M, rfl⟩
  | scalar x => exact Or.inl rfl

theorem ltiInput_shape {B N M : Nat} {Bm : Option (Tensor α)} {x : Tensor α} {v : Nat → Nat → Nat → α}
    (h : LtiInput B N M Bm x v) : x.shape = [B, N] ∨ ∃ F, x.shape = [B, N, F] := by
  cases h with
  | none h => exact drive_shape h
  | _ => first | exact Or.inl rfl | exact Or.inr ⟨_, rfl⟩

/-- The state of a time-invariant recursion from zero moves with the input. -/
theorem vecRec_delay {M N d : Nat} {A : Nat → Nat → α} {v v' : Nat → Nat → α}
    (h : ∀ t m, t < N → v' t m = delayed d (fun t => v t m) t) {t : Nat} (ht : t ≤ N) :
    vecRec M (fun _ => A) (fun _ => 0) v' t = if t ≤ d then fun _ => 0 else vecRec M (fun _ => A) (fun _ => 0) v (t - d) := by
  have e : vecRec M (fun _ => A) (fun _ => 0) v' t = vecRec M (fun _ => A) (fun _ => 0) (fun t m => delayed d (fun t => v t m) t) t :=
    funext fun m => vecRec_agree (T := t) (fun _ _ _ _ => rfl) (fun s m hs => h s m (by omega)) le_rfl m
  rw [e]
  split
  · next h' => exact vecRec_zero _ (fun t m ht => delayed_of_lt _ ht) h'
  · next h' =>
    obtain ⟨s, rfl⟩ : ∃ s, t = d + s := ⟨t - d, by omega⟩
    rw [Nat.add_sub_cancel_left]
    exact vecRec_late (fun _ => rfl) (fun t m ht => delayed_of_lt _ ht) (fun t => funext fun m => delayed_add d _ t) s

end Spec
