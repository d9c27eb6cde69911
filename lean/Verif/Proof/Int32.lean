import Verif.Model.Int32
import Verif.Proof.HostBounds
import Verif.Proof.ScanOps

/-! # The 32-bit indices of the CPU kernels: when they are exact and when they overflow -/

namespace Phil.Int32
open Torch Torch.Tensor Omp Phil.Host

/-- The message of an overflow. -/
abbrev ovf : String := "signed integer overflow"

theorem toInt_of_le {n : Nat} (h : n ≤ intMax) : toInt n = (n : Int) := by
  unfold toInt intMax at *
  rw [Int.bmod_def]
  split <;> omega

theorem inRange_nat {n : Nat} : inRange (n : Int) ↔ n ≤ intMax := by
  unfold inRange intMax; omega

theorem mul_ok {a b : Nat} (h : a * b ≤ intMax) : mul (a : Int) (b : Int) = .ok ((a * b : Nat) : Int) := by
  unfold mul int
  rw [← Nat.cast_mul, if_pos (inRange_nat.2 h)]

theorem mul_over {a b : Nat} (h : intMax < a * b) : mul (a : Int) (b : Int) = .error ovf := by
  unfold mul int
  rw [← Nat.cast_mul, if_neg (fun hh => absurd (inRange_nat.1 hh) (by omega))]

theorem add_ok {a b : Nat} (h : a + b ≤ intMax) : add (a : Int) (b : Int) = .ok ((a + b : Nat) : Int) := by
  unfold add int
  rw [← Nat.cast_add, if_pos (inRange_nat.2 h)]

theorem mul3_ok {a b c : Nat} (h : a * b ≤ intMax) (h' : a * b * c ≤ intMax) :
    mul3 (a : Int) b c = .ok ((a * b * c : Nat) : Int) := by
  unfold mul3
  rw [mul_ok h, ok_bind, mul_ok h']

theorem mul4_ok {a b c d : Nat} (h : a * b ≤ intMax) (h' : a * b * c ≤ intMax) (h'' : a * b * c * d ≤ intMax) :
    mul4 (a : Int) b c d = .ok ((a * b * c * d : Nat) : Int) := by
  unfold mul4
  rw [mul3_ok h h', ok_bind, mul_ok h'']

variable {ρ α : Type}

theorem forLoopM_ok {lo hi : Nat} {body : Nat → Res (List (Act ρ α))} {g : Nat → List (Act ρ α)}
    (h : ∀ t, lo ≤ t → t < hi → body t = .ok (g t)) : forLoopM lo (hi : Int) body = .ok (forLoop lo hi g) := by
  unfold forLoopM forLoop
  rw [Int.toNat_natCast, Scan.mapM_ok (g := g) _ fun t ht => ?_, ok_bind, List.flatMap_def]
  · rfl
  · rw [List.mem_range'_1] at ht
    exact h t ht.1 (by omega)

/-- The scheduler that looks only at the iterations of the loop. -/
def restrict (sch : Scheduler ρ α) : Scheduler ρ α := fun n p => sch n (iters n p)

theorem iters_iters (n : Nat) (p : Nat → List (Act ρ α)) : iters n (iters n p) = iters n p := by
  funext b
  unfold iters
  split
  · rfl
  · rfl

theorem restrict_isScheduler {sch : Scheduler ρ α} (h : IsScheduler sch) : IsScheduler (restrict sch) := by
  intro n p
  have := h n (iters n p)
  rwa [iters_iters] at this

theorem parallelForM_ok {sch : Scheduler ρ α} {B : Bufs α} {r0 : ρ} {n : Nat} {p : Nat → Res (List (Act ρ α))}
    {g : Nat → List (Act ρ α)} {out : Nat → α} (h : ∀ b, b < n → p b = .ok (g b)) :
    parallelForM sch B r0 (n : Int) p out = parallelFor (restrict sch) B r0 n g out := by
  unfold parallelForM
  rw [Int.toNat_natCast, Scan.mapM_ok (g := g) _ fun b hb => h b (List.mem_range.1 hb), ok_bind]
  unfold parallelFor restrict
  rw [show (fun b => ((List.range n).map g).getD b []) = iters n g from ?_]
  funext b
  unfold iters
  rw [List.getD_eq_getElem?_getD, List.getElem?_map]
  split
  · rename_i hb
    rw [List.getElem?_range hb]; rfl
  · rename_i hb
    rw [List.getElem?_eq_none (by simpa using hb)]; rfl

/-! ## Overflow -/

/-- Nothing but an overflow can go wrong. -/
def Clean {β : Type} (r : Res β) : Prop := (∃ v, r = .ok v) ∨ r = .error ovf

theorem clean_ok {β : Type} (v : β) : Clean (.ok v : Res β) := .inl ⟨v, rfl⟩

theorem clean_bind {β γ : Type} {x : Res β} {f : β → Res γ} (h : Clean x) (h' : ∀ v, Clean (f v)) : Clean (x >>= f) := by
  rcases h with ⟨v, rfl⟩ | rfl
  · exact h' v
  · exact .inr rfl

theorem clean_mul (a b : Int) : Clean (mul a b) := by
  unfold mul int
  split
  · exact clean_ok _
  · exact .inr rfl

theorem clean_mapM {β γ : Type} {f : β → Res γ} (l : List β) (h : ∀ v ∈ l, Clean (f v)) : Clean (l.mapM f) := by
  induction l with
  | nil => exact clean_ok _
  | cons a l ih =>
    rw [List.mapM_cons]
    refine clean_bind (h a (by simp)) fun v => clean_bind (ih fun w hw => h w (by simp [hw])) fun w => clean_ok _

theorem over_mapM {β γ : Type} {f : β → Res γ} {l : List β} (h : ∀ v ∈ l, Clean (f v)) {v : β} (hv : v ∈ l)
    (he : f v = .error ovf) : l.mapM f = .error ovf := by
  induction l with
  | nil => cases hv
  | cons a l ih =>
    rw [List.mapM_cons]
    rcases h a (by simp) with ⟨w, hw⟩ | hw
    · rw [hw, ok_bind]
      rcases List.mem_cons.1 hv with rfl | hv'
      · rw [he] at hw; cases hw
      · rw [ih (fun w hw => h w (by simp [hw])) hv']; rfl
    · rw [hw]; rfl

theorem over_bind {β γ : Type} {x : Res β} {f : β → Res γ} (h : x = .error ovf) : (x >>= f) = .error ovf := by
  rw [h]; rfl

theorem clean_forLoopM {lo : Nat} {hi : Int} {body : Nat → Res (List (Act ρ α))} (h : ∀ t, Clean (body t)) :
    Clean (forLoopM lo hi body) :=
  clean_bind (clean_mapM _ fun t _ => h t) fun _ => clean_ok _

theorem over_forLoopM {lo hi t : Nat} {body : Nat → Res (List (Act ρ α))} (h : ∀ t, Clean (body t)) (h1 : lo ≤ t)
    (h2 : t < hi) (he : body t = .error ovf) : forLoopM lo (hi : Int) body = .error ovf := by
  unfold forLoopM
  refine over_bind (over_mapM (fun t _ => h t) (v := t) ?_ he)
  rw [List.mem_range'_1, Int.toNat_natCast]; omega

theorem over_parallelForM {sch : Scheduler ρ α} {B : Bufs α} {r0 : ρ} {n b : Nat} {p : Nat → Res (List (Act ρ α))}
    {out : Nat → α} (h : ∀ t, Clean (p t)) (hb : b < n) (he : p b = .error ovf) :
    parallelForM sch B r0 (n : Int) p out = .error ovf := by
  unfold parallelForM
  refine over_bind (over_mapM (fun t _ => h t) (v := b) ?_ he)
  rw [List.mem_range, Int.toNat_natCast]; exact hb

variable [CommRing α]

/-! ## The bodies -/

theorem ltiBatchBody_ok {T b : Nat} (h : b * T ≤ intMax) :
    ltiBatchBody (α := α) (T : Int) b = .ok (Host.ltiBatchBody T b) := by
  unfold ltiBatchBody
  rw [mul_ok h, ok_bind]
  simp only [Int.toNat_natCast, ← Nat.cast_add]
  rfl

theorem ltiSharedBody_ok {T b : Nat} (a : α) (h : b * T ≤ intMax) :
    ltiSharedBody (T : Int) a b = .ok (Host.ltiSharedBody T a b) := by
  unfold ltiSharedBody
  rw [mul_ok h, ok_bind]
  simp only [Int.toNat_natCast, ← Nat.cast_add]
  rfl

theorem matBody_ok {T N b : Nat} {aPtr : Res Int} {aOff : Int → Nat → Res Int} {p : Int} {off : Nat → Nat}
    (hp : aPtr = .ok p) (hoff : ∀ t, 1 ≤ t → t < T → aOff p t = .ok (off t : Int)) (h1 : b * T ≤ intMax)
    (h2 : b * T * N ≤ intMax) (h3 : (T - 1) * N ≤ intMax) (h4 : 1 < T → (N - 1) * N ≤ intMax) :
    matBody (α := α) (T : Int) N aPtr aOff b = .ok (Host.matBody T N off b) := by
  unfold matBody Host.matBody
  rw [hp, ok_bind, mul_ok h1, ok_bind, mul_ok h2, ok_bind]
  refine forLoopM_ok fun t ht ht' => ?_
  have e1 : t * N ≤ intMax := le_trans (Nat.mul_le_mul_right _ (by omega)) h3
  have e2 : (t - 1) * N ≤ intMax := le_trans (Nat.mul_le_mul_right _ (by omega)) h3
  rw [hoff t ht ht', ok_bind, mul_ok e2, ok_bind, mul_ok e1, ok_bind]
  refine forLoopM_ok fun i _ hi => ?_
  have e3 : i * N ≤ intMax := le_trans (Nat.mul_le_mul_right _ (by omega)) (h4 (by omega))
  rw [mul_ok e3, ok_bind]
  simp only [Int.toNat_natCast, ← Nat.cast_add]
  rfl

/-! ## Clean bodies -/

theorem clean_ltiBatchBody (T : Int) (b : Nat) : Clean (ltiBatchBody (α := α) T b) :=
  clean_bind (clean_mul _ _) fun _ => clean_ok _

theorem clean_ltiSharedBody (T : Int) (a : α) (b : Nat) : Clean (ltiSharedBody T a b) :=
  clean_bind (clean_mul _ _) fun _ => clean_ok _

theorem clean_matBody {T N : Int} {aPtr : Res Int} {aOff : Int → Nat → Res Int} (b : Nat) (hp : Clean aPtr)
    (hoff : ∀ p t, Clean (aOff p t)) : Clean (matBody (α := α) T N aPtr aOff b) :=
  clean_bind hp fun _ => clean_bind (clean_mul _ _) fun _ => clean_bind (clean_mul _ _) fun _ =>
    clean_forLoopM fun _ => clean_bind (hoff _ _) fun _ => clean_bind (clean_mul _ _) fun _ =>
      clean_bind (clean_mul _ _) fun _ => clean_forLoopM fun _ => clean_bind (clean_mul _ _) fun _ => clean_ok _

theorem clean_mul3 (a b c : Int) : Clean (mul3 a b c) := clean_bind (clean_mul _ _) fun _ => clean_mul _ _

theorem clean_mul4 (a b c d : Int) : Clean (mul4 a b c d) := clean_bind (clean_mul3 _ _ _) fun _ => clean_mul _ _

/-! ## The ops: exact where nothing overflows -/

theorem prod_le {b B T : Nat} (hb : b < B) (h : (B - 1) * T ≤ intMax) : b * T ≤ intMax :=
  le_trans (Nat.mul_le_mul_right _ (by omega)) h

theorem ltiRecurCpu_exact (sch : Scheduler (Regs α) α) (a zi x : Tensor α) (hB : x.size 0 ≤ intMax)
    (hT : x.size 1 + 1 ≤ intMax) (h : (x.size 0 - 1) * (x.size 1 + 1) ≤ intMax) :
    ltiRecurCpu sch a zi x = Host.ltiRecurCpu (restrict sch) a zi x := by
  have e1 : ∀ (Bf : Bufs α) r0 out, parallelForM sch Bf r0 ((x.size 0 : Nat) : Int)
      (ltiBatchBody (((x.size 1 + 1 : Nat)) : Int)) out =
      parallelFor (restrict sch) Bf r0 (x.size 0) (Host.ltiBatchBody (x.size 1 + 1)) out := fun Bf r0 out =>
    parallelForM_ok fun b hb => ltiBatchBody_ok (prod_le hb h)
  have e2 : ∀ (Bf : Bufs α) r0 a out, parallelForM sch Bf r0 ((x.size 0 : Nat) : Int)
      (ltiSharedBody (((x.size 1 + 1 : Nat)) : Int) a) out =
      parallelFor (restrict sch) Bf r0 (x.size 0) (Host.ltiSharedBody (x.size 1 + 1) a) out := fun Bf r0 a out =>
    parallelForM_ok fun b hb => ltiSharedBody_ok a (prod_le hb h)
  unfold ltiRecurCpu Host.ltiRecurCpu
  simp only [toInt_of_le hB, toInt_of_le hT, e1, e2]

/-- The products computed by the matrix kernels with constant coefficients, for `B` items, `T` steps and dimension `N`. -/
def LtiFits (B T N : Nat) : Prop :=
  (B - 1) * T ≤ intMax ∧ (B - 1) * T * N ≤ intMax ∧ (0 < B → (T - 1) * N ≤ intMax ∧ (1 < T → (N - 1) * N ≤ intMax))

theorem ltiRecurNCpu_exact (sch : Scheduler (Regs α) α) (A zi x : Tensor α) (hB : x.size 0 ≤ intMax)
    (hT : x.size 1 + 1 ≤ intMax) (hN : A.size (-1) ≤ intMax) (h : LtiFits (x.size 0) (x.size 1 + 1) (A.size (-1)))
    (hA : A.rank = 3 → (x.size 0 - 1) * A.size (-1) ≤ intMax ∧ (x.size 0 - 1) * A.size (-1) * A.size (-1) ≤ intMax) :
    ltiRecurNCpu sch A zi x = Host.ltiRecurNCpu (restrict sch) A zi x := by
  have e1 : A.rank = 3 → ∀ (Bf : Bufs α) r0 out, parallelForM sch Bf r0 ((x.size 0 : Nat) : Int)
      (ltiBatchMatBody (((x.size 1 + 1 : Nat)) : Int) ((A.size (-1) : Nat) : Int)) out =
      parallelFor (restrict sch) Bf r0 (x.size 0) (Host.ltiBatchMatBody (x.size 1 + 1) (A.size (-1))) out := fun hr Bf r0 out =>
    parallelForM_ok fun b hb => by
      have hb' : b ≤ x.size 0 - 1 := by omega
      refine matBody_ok (mul3_ok ?_ ?_) (fun t _ _ => rfl) (prod_le hb h.1) ?_ (h.2.2 (by omega)).1 (h.2.2 (by omega)).2
      · exact prod_le hb (hA hr).1
      · exact le_trans (Nat.mul_le_mul_right _ (Nat.mul_le_mul_right _ hb')) (hA hr).2
      · exact le_trans (Nat.mul_le_mul_right _ (Nat.mul_le_mul_right _ hb')) h.2.1
  have e2 : ∀ (Bf : Bufs α) r0 out, parallelForM sch Bf r0 ((x.size 0 : Nat) : Int)
      (ltiShareMatBody (((x.size 1 + 1 : Nat)) : Int) ((A.size (-1) : Nat) : Int)) out =
      parallelFor (restrict sch) Bf r0 (x.size 0) (Host.ltiShareMatBody (x.size 1 + 1) (A.size (-1))) out := fun Bf r0 out =>
    parallelForM_ok fun b hb => by
      have hb' : b ≤ x.size 0 - 1 := by omega
      refine matBody_ok (p := 0) rfl (fun t _ _ => rfl) (prod_le hb h.1) ?_ (h.2.2 (by omega)).1 (h.2.2 (by omega)).2
      exact le_trans (Nat.mul_le_mul_right _ (Nat.mul_le_mul_right _ hb')) h.2.1
  unfold ltiRecurNCpu Host.ltiRecurNCpu
  simp only [toInt_of_le hB, toInt_of_le hT, toInt_of_le hN, e2]
  by_cases hr : A.rank = 3
  · simp only [e1 hr]
  · simp only [if_neg hr]

theorem recurNCpu_exact (sch : Scheduler (Regs α) α) (A zi x : Tensor α) (hB : x.size 0 ≤ intMax)
    (hT : x.size 1 + 1 ≤ intMax) (hN : A.size (-1) ≤ intMax) (h : LtiFits (x.size 0) (x.size 1 + 1) (A.size (-1)))
    (hA : 0 < x.size 0 → x.size 1 * A.size (-1) * A.size (-1) ≤ intMax)
    (hA4 : A.rank = 4 → (x.size 0 - 1) * (x.size 1 + 1) * A.size (-1) * A.size (-1) ≤ intMax) :
    recurNCpu sch A zi x = Host.recurNCpu (restrict sch) A zi x := by
  have hoff : 0 < x.size 0 → ∀ t, 1 ≤ t → t < x.size 1 + 1 →
      mul3 (t : Int) ((A.size (-1) : Nat) : Int) ((A.size (-1) : Nat) : Int) =
        .ok ((t * A.size (-1) * A.size (-1) : Nat) : Int) := by
    intro h0 t _ ht
    have h3 := (h.2.2 h0).1
    refine mul3_ok (le_trans (Nat.mul_le_mul_right _ (by omega)) h3)
      (le_trans (Nat.mul_le_mul_right _ (Nat.mul_le_mul_right _ (by omega))) (hA h0))
  have e1 : A.rank = 4 → ∀ (Bf : Bufs α) r0 out, parallelForM sch Bf r0 ((x.size 0 : Nat) : Int)
      (batchMatBody (((x.size 1 + 1 : Nat)) : Int) ((A.size (-1) : Nat) : Int)) out =
      parallelFor (restrict sch) Bf r0 (x.size 0) (Host.batchMatBody (x.size 1 + 1) (A.size (-1))) out := fun hr Bf r0 out =>
    parallelForM_ok fun b hb => by
      have hb' : b ≤ x.size 0 - 1 := by omega
      have h2 : b * (x.size 1 + 1) * A.size (-1) ≤ intMax :=
        le_trans (Nat.mul_le_mul_right _ (Nat.mul_le_mul_right _ hb')) h.2.1
      refine matBody_ok (mul4_ok (prod_le hb h.1) h2 ?_) (fun t ht ht' => ?_) (prod_le hb h.1) h2
        (h.2.2 (by omega)).1 (h.2.2 (by omega)).2
      · exact le_trans (Nat.mul_le_mul_right _ (Nat.mul_le_mul_right _ (Nat.mul_le_mul_right _ hb'))) (hA4 hr)
      · rw [hoff (by omega) t ht ht', ok_bind, ← Nat.cast_add]; rfl
  have e2 : ∀ (Bf : Bufs α) r0 out, parallelForM sch Bf r0 ((x.size 0 : Nat) : Int)
      (shareMatBody (((x.size 1 + 1 : Nat)) : Int) ((A.size (-1) : Nat) : Int)) out =
      parallelFor (restrict sch) Bf r0 (x.size 0) (Host.shareMatBody (x.size 1 + 1) (A.size (-1))) out := fun Bf r0 out =>
    parallelForM_ok fun b hb => by
      have hb' : b ≤ x.size 0 - 1 := by omega
      refine matBody_ok (p := 0) rfl (fun t ht ht' => ?_) (prod_le hb h.1) ?_ (h.2.2 (by omega)).1 (h.2.2 (by omega)).2
      · rw [hoff (by omega) t ht ht', ok_bind, zero_add]; rfl
      · exact le_trans (Nat.mul_le_mul_right _ (Nat.mul_le_mul_right _ hb')) h.2.1
  unfold recurNCpu Host.recurNCpu
  simp only [toInt_of_le hB, toInt_of_le hT, toInt_of_le hN, e2]
  by_cases hr : A.rank = 4
  · simp only [e1 hr]
  · simp only [if_neg hr]

/-! ## The ops: overflow -/

theorem over_step {β γ : Type} {x : Res β} {f : β → Res γ} (h : Clean x) (h' : ∀ v, x = .ok v → f v = .error ovf) :
    (x >>= f) = .error ovf := by
  rcases h with ⟨v, hv⟩ | hv
  · rw [hv]; exact h' v hv
  · rw [hv]; rfl

theorem mul_val {a b : Nat} {v : Int} (h : mul (a : Int) (b : Int) = .ok v) : v = ((a * b : Nat) : Int) := by
  unfold mul int at h
  split at h
  · injection h with h; rw [← h, Nat.cast_mul]
  · cases h

theorem mul3_over {a b c : Nat} (h : intMax < a * b ∨ intMax < a * b * c) : mul3 (a : Int) b c = .error ovf := by
  unfold mul3
  refine over_step (clean_mul _ _) fun v hv => ?_
  rcases h with h | h
  · rw [mul_over h] at hv; cases hv
  · rw [mul_val hv, mul_over h]

theorem mul3_val {a b c : Nat} {v : Int} (h : mul3 (a : Int) b c = .ok v) : v = ((a * b * c : Nat) : Int) := by
  unfold mul3 at h
  rcases clean_mul (a : Int) (b : Int) with ⟨w, hw⟩ | hw
  · rw [hw, ok_bind, mul_val hw] at h
    exact mul_val h
  · rw [hw] at h; cases h

theorem mul4_over {a b c d : Nat} (h : intMax < a * b * c * d) : mul4 (a : Int) b c d = .error ovf := by
  unfold mul4
  refine over_step (clean_mul3 _ _ _) fun v hv => ?_
  rw [mul3_val hv, mul_over h]

theorem matBody_over {T N b : Nat} {aPtr : Res Int} {aOff : Int → Nat → Res Int} (hp : Clean aPtr)
    (hoff : ∀ p t, Clean (aOff p t))
    (h : aPtr = .error ovf ∨ intMax < b * T ∨ intMax < b * T * N ∨
      ∃ t, 1 ≤ t ∧ t < T ∧ ((∀ p, aOff p t = .error ovf) ∨ intMax < t * N ∨ ∃ i, i < N ∧ intMax < i * N)) :
    matBody (α := α) (T : Int) N aPtr aOff b = .error ovf := by
  unfold matBody
  refine over_step hp fun p hpv => ?_
  rcases h with h | h | h | ⟨t, h1, h2, h⟩
  · rw [h] at hpv; cases hpv
  · rw [mul_over h]; rfl
  · refine over_step (clean_mul _ _) fun v hv => ?_
    rw [mul_val hv, mul_over h]; rfl
  · refine over_step (clean_mul _ _) fun v _ => over_step (clean_mul _ _) fun w _ => ?_
    refine over_forLoopM (t := t) (fun _ => clean_bind (hoff _ _) fun _ => clean_bind (clean_mul _ _) fun _ =>
      clean_bind (clean_mul _ _) fun _ => clean_forLoopM fun _ => clean_bind (clean_mul _ _) fun _ => clean_ok _) h1 h2 ?_
    refine over_step (hoff _ _) fun o ho => over_step (clean_mul _ _) fun v' _ => ?_
    rcases h with h | h | ⟨i, hi, h⟩
    · rw [h] at ho; cases ho
    · rw [mul_over h]; rfl
    · refine over_step (clean_mul _ _) fun v'' _ => ?_
      refine over_forLoopM (t := i) (fun _ => clean_bind (clean_mul _ _) fun _ => clean_ok _) (by omega) hi ?_
      rw [mul_over h]; rfl

theorem over_check {γ : Type} {c : Prop} [Decidable c] {e : String} {f : Unit → Res γ} (h : c)
    (h' : f () = .error ovf) : (check c e >>= f) = .error ovf := by
  unfold check
  rw [if_pos h]; exact h'

theorem over_after {β γ : Type} {x : Res β} {f : β → Res γ} {v : β} (h : x = .ok v) (h' : f v = .error ovf) :
    (x >>= f) = .error ovf := by
  rw [h]; exact h'

theorem ltiRecurCpu_over (sch : Scheduler (Regs α) α) {B N : Nat} {A : Tensor α} {a : Nat → α} (zi : Nat → α)
    (x : Nat → Nat → α) (hA : BatchVals B A a) (hB : B ≤ intMax) (hT : N + 1 ≤ intMax)
    (h : intMax < (B - 1) * (N + 1)) : ltiRecurCpu sch A (t1 B zi) (t2 B N x) = .error ovf := by
  have hB0 : B - 1 < B := by
    rcases Nat.eq_zero_or_pos B with rfl | hB
    · simp at h
    · omega
  have e1 : ∀ (Bf : Bufs α) r0 out, parallelForM sch Bf r0 (B : Int) (ltiBatchBody ((N + 1 : Nat) : Int)) out =
      .error ovf := fun Bf r0 out =>
    over_parallelForM (clean_ltiBatchBody _) hB0 (by unfold ltiBatchBody; rw [mul_over h]; rfl)
  have e2 : ∀ (Bf : Bufs α) r0 a out, parallelForM sch Bf r0 (B : Int) (ltiSharedBody ((N + 1 : Nat) : Int) a) out =
      .error ovf := fun Bf r0 a out =>
    over_parallelForM (clean_ltiSharedBody _ _) hB0 (by unfold ltiSharedBody; rw [mul_over h]; rfl)
  unfold ltiRecurCpu
  refine over_check (by cases hA <;> simp) ?_
  refine over_check (by rw [rank_t1]) ?_
  refine over_check (by rw [rank_t2]) ?_
  simp only [size_t2_0, size_t2_1, toInt_of_le hB, toInt_of_le hT]
  refine over_after (unsqueeze_t1_1 _ _) ?_
  refine over_after (cat2_t2_1 _ _ _ _ _) ?_
  refine over_bind ?_
  split
  · exact e1 _ _ _
  · rename_i hn
    refine over_check ?_ (e2 _ _ _ _)
    cases hA with
    | scalar v => rfl
    | single v => rfl
    | full v => exact absurd ⟨by simp, by simp [numel]⟩ hn

/-- Some iteration of the loop over `b` overflows, in all matrix kernels. -/
def LtiOver (B T N : Nat) : Prop :=
  intMax < (B - 1) * T ∨ intMax < (B - 1) * T * N ∨ (0 < B ∧ 1 < T ∧ 0 < N ∧ (intMax < (T - 1) * N ∨ intMax < (N - 1) * N))

theorem not_fits {B T N : Nat} (h : ¬ LtiFits B T N) : LtiOver B T N := by
  unfold LtiFits at h
  unfold LtiOver
  by_contra hc
  push Not at hc
  refine h ⟨hc.1, hc.2.1, fun hB => ⟨?_, fun hT => ?_⟩⟩
  · by_cases h1 : 1 < T
    · rcases Nat.eq_zero_or_pos N with rfl | hN
      · simp
      · exact (hc.2.2 hB h1 hN).1
    · rw [show T - 1 = 0 by omega, Nat.zero_mul]; exact Nat.zero_le _
  · rcases Nat.eq_zero_or_pos N with rfl | hN
    · simp
    · exact (hc.2.2 hB hT hN).2

theorem matBody_over_of {B T N : Nat} {aPtr : Nat → Res Int} {aOff : Int → Nat → Res Int} (hp : ∀ b, Clean (aPtr b))
    (hoff : ∀ p t, Clean (aOff p t)) (h : LtiOver B T N) :
    ∃ b, b < B ∧ matBody (α := α) (T : Int) N (aPtr b) aOff b = .error ovf := by
  rcases h with h | h | ⟨h0, h1, h2, h⟩
  · refine ⟨B - 1, ?_, matBody_over (hp _) hoff (.inr (.inl h))⟩
    rcases Nat.eq_zero_or_pos B with rfl | hB
    · simp at h
    · omega
  · refine ⟨B - 1, ?_, matBody_over (hp _) hoff (.inr (.inr (.inl h)))⟩
    rcases Nat.eq_zero_or_pos B with rfl | hB
    · simp at h
    · omega
  · rcases h with h | h
    · exact ⟨0, h0, matBody_over (hp _) hoff (.inr (.inr (.inr ⟨T - 1, by omega, by omega, .inr (.inl h)⟩)))⟩
    · exact ⟨0, h0, matBody_over (hp _) hoff (.inr (.inr (.inr ⟨1, by omega, by omega, .inr (.inr ⟨N - 1, by omega, h⟩)⟩)))⟩

theorem ltiRecurNCpu_over (sch : Scheduler (Regs α) α) {B N M : Nat} {A : Tensor α} {a : Nat → Nat → Nat → α}
    (zi : Nat → Nat → α) (x : Nat → Nat → Nat → α) (hA : Spec.MatVals B M M A a) (hB : B ≤ intMax) (hT : N + 1 ≤ intMax)
    (hM : M ≤ intMax)
    (h : LtiOver B (N + 1) M ∨ (A.rank = 3 ∧ (intMax < (B - 1) * M ∨ intMax < (B - 1) * M * M))) :
    ltiRecurNCpu sch A (t2 B M zi) (t3 B N M x) = .error ovf := by
  cases hA with
  | shared f =>
    have h' : LtiOver B (N + 1) M := by
      rcases h with h | ⟨h, -⟩
      · exact h
      · rw [rank_t2] at h; cases h
    obtain ⟨b, hb, e⟩ := matBody_over_of (α := α) (aPtr := fun _ => .ok 0) (aOff := fun aB _ => .ok aB)
      (fun _ => clean_ok _) (fun _ _ => clean_ok _) h'
    unfold ltiRecurNCpu
    refine over_check (Or.inl (by rw [rank_t2])) ?_
    refine over_check (by rw [rank_t3]) ?_
    refine over_check (by rw [size_t3_2, size_t2_n1]) ?_
    refine over_check (by rw [size_t2_n1, size_t2_n2]) ?_
    simp only [size_t3_0, size_t3_1, size_t2_n1, toInt_of_le hB, toInt_of_le hT, toInt_of_le hM]
    refine over_after (unsqueeze_t2_1 _ _ _) ?_
    refine over_after (cat2_t3_1 _ _ _ _ _ _) ?_
    rw [if_neg (by rw [rank_t2]; decide)]
    exact over_bind (over_parallelForM (fun t => clean_matBody t (clean_ok _) fun _ _ => clean_ok _) hb e)
  | batched a =>
    have hex : ∃ b, b < B ∧ ltiBatchMatBody (α := α) ((N + 1 : Nat) : Int) M b = .error ovf := by
      rcases h with h | ⟨-, h⟩
      · exact matBody_over_of (α := α) (aPtr := fun b => mul3 (b : Int) M M) (aOff := fun aB _ => .ok aB)
          (fun _ => clean_mul3 _ _ _) (fun _ _ => clean_ok _) h
      · refine ⟨B - 1, ?_, matBody_over (clean_mul3 _ _ _) (fun _ _ => clean_ok _) (.inl (mul3_over h))⟩
        rcases Nat.eq_zero_or_pos B with rfl | hB
        · simp at h
        · omega
    obtain ⟨b, hb, e⟩ := hex
    unfold ltiRecurNCpu
    refine over_check (Or.inr (by rw [rank_t3])) ?_
    refine over_check (by rw [rank_t3]) ?_
    refine over_check (by rw [size_t3_2, size_t3_n1]) ?_
    refine over_check (by rw [size_t3_n1, size_t3_n2]) ?_
    simp only [size_t3_0, size_t3_1, size_t3_n1, toInt_of_le hB, toInt_of_le hT, toInt_of_le hM]
    refine over_after (unsqueeze_t2_1 _ _ _) ?_
    refine over_after (cat2_t3_1 _ _ _ _ _ _) ?_
    rw [if_pos (by rw [rank_t3])]
    exact over_bind (over_parallelForM (fun t => clean_matBody t (clean_mul3 _ _ _) fun _ _ => clean_ok _) hb e)

theorem clean_aOff (N : Int) (p : Int) (t : Nat) :
    Clean (do return p + (← mul3 (t : Int) N N)) := clean_bind (clean_mul3 _ _ _) fun _ => clean_ok _

theorem recurNCpu_over (sch : Scheduler (Regs α) α) {B N M : Nat} {A : Tensor α} {a : Nat → Nat → Nat → Nat → α}
    (zi : Nat → Nat → α) (x : Nat → Nat → Nat → α) (hA : Spec.MatSeq B N M M A a) (hB : B ≤ intMax) (hT : N + 1 ≤ intMax)
    (hM : M ≤ intMax)
    (h : LtiOver B (N + 1) M ∨ (0 < B ∧ intMax < N * M * M) ∨ (A.rank = 4 ∧ intMax < (B - 1) * (N + 1) * M * M)) :
    recurNCpu sch A (t2 B M zi) (t3 B N M x) = .error ovf := by
  have htime : ∀ (aPtr : Nat → Res Int), (∀ b, Clean (aPtr b)) → 0 < B → intMax < N * M * M →
      matBody (α := α) ((N + 1 : Nat) : Int) M (aPtr 0) (fun aB t => do return aB + (← mul3 (t : Int) M M)) 0 =
        .error ovf := by
    intro aPtr hp h0 h1
    have hN : 0 < N := by
      rcases Nat.eq_zero_or_pos N with rfl | hN
      · simp at h1
      · exact hN
    refine matBody_over (hp _) (clean_aOff _) (.inr (.inr (.inr ⟨N, hN, by omega, .inl fun p => ?_⟩)))
    rw [mul3_over (.inr h1)]; rfl
  cases hA with
  | shared f =>
    have hex : ∃ b, b < B ∧ shareMatBody (α := α) ((N + 1 : Nat) : Int) M b = .error ovf := by
      rcases h with h | ⟨h0, h⟩ | ⟨h, -⟩
      · exact matBody_over_of (aPtr := fun _ => .ok 0) (fun _ => clean_ok _) (clean_aOff _) h
      · exact ⟨0, h0, htime (fun _ => .ok 0) (fun _ => clean_ok _) h0 h⟩
      · rw [rank_t3] at h; cases h
    obtain ⟨b, hb, e⟩ := hex
    unfold recurNCpu
    refine over_check (Or.inl (by rw [rank_t3])) ?_
    refine over_check (by rw [rank_t3]) ?_
    refine over_check (by rw [size_t3_2, size_t3_n1]) ?_
    refine over_check (by rw [size_t3_n1, size_t3_n2]) ?_
    simp only [size_t3_0, size_t3_1, size_t3_n1, toInt_of_le hB, toInt_of_le hT, toInt_of_le hM]
    refine over_after (padDim_t3_n3_left _ _ _ _ _ _) ?_
    refine over_after (unsqueeze_t2_1 _ _ _) ?_
    refine over_after (cat2_t3_1 _ _ _ _ _ _) ?_
    rw [if_neg (by rw [rank_t3]; decide)]
    exact over_bind (over_parallelForM (fun t => clean_matBody t (clean_ok _) (clean_aOff _)) hb e)
  | batched a =>
    have hex : ∃ b, b < B ∧ batchMatBody (α := α) ((N + 1 : Nat) : Int) M b = .error ovf := by
      rcases h with h | ⟨h0, h⟩ | ⟨-, h⟩
      · exact matBody_over_of (aPtr := fun b => mul4 (b : Int) ((N + 1 : Nat) : Int) M M) (fun _ => clean_mul4 _ _ _ _)
          (clean_aOff _) h
      · exact ⟨0, h0, htime (fun b => mul4 (b : Int) ((N + 1 : Nat) : Int) M M) (fun _ => clean_mul4 _ _ _ _) h0 h⟩
      · refine ⟨B - 1, ?_, matBody_over (clean_mul4 _ _ _ _) (clean_aOff _) (.inl (mul4_over h))⟩
        rcases Nat.eq_zero_or_pos B with rfl | hB
        · simp at h
        · omega
    obtain ⟨b, hb, e⟩ := hex
    unfold recurNCpu
    refine over_check (Or.inr (by rw [rank_t4])) ?_
    refine over_check (by rw [rank_t3]) ?_
    refine over_check (by rw [size_t3_2, size_t4_n1]) ?_
    refine over_check (by rw [size_t4_n1, size_t4_n2]) ?_
    simp only [size_t3_0, size_t3_1, size_t4_n1, toInt_of_le hB, toInt_of_le hT, toInt_of_le hM]
    refine over_after (padDim_t4_n3_left _ _ _ _ _ _ _) ?_
    refine over_after (unsqueeze_t2_1 _ _ _) ?_
    refine over_after (cat2_t3_1 _ _ _ _ _ _) ?_
    rw [if_pos (by rw [rank_t4])]
    exact over_bind (over_parallelForM (fun t => clean_matBody t (clean_mul4 _ _ _ _) (clean_aOff _)) hb e)

/-! ## Sizes that do not fit into an `int` -/

theorem toInt_nonpos {n : Nat} (h : intMax < n) (h' : n ≤ 4294967296) : (toInt n).toNat = 0 := by
  unfold toInt intMax at *
  rw [Int.bmod_def]
  split <;> omega

theorem toInt_neg {n : Nat} (h : intMax < n) (h' : n ≤ 4294967296) : toInt n ≤ 0 := by
  have := toInt_nonpos h h'
  omega

omit [CommRing α] in
theorem interleaves_nil {β : Type} {p : Nat → List β} {s : List (Nat × β)} (h : ∀ b, p b = []) (hs : Interleaves p s) :
    s = [] := by
  cases hs with
  | done => rfl
  | step b a rest s h1 h2 h3 => rw [h] at h2; cases h2

omit [CommRing α] in
theorem parallelForM_idle {sch : Scheduler ρ α} (hsch : IsScheduler sch) {B : Bufs α} {r0 : ρ} {n : Int}
    {p : Nat → Res (List (Act ρ α))} {out : Nat → α} (h : ∀ b, b < n.toNat → p b = .ok []) :
    parallelForM sch B r0 n p out = .ok out := by
  unfold parallelForM
  rw [Scan.mapM_ok (g := fun _ => []) _ fun b hb => h b (List.mem_range.1 hb), ok_bind]
  unfold parallelFor
  have : sch n.toNat (fun b => ((List.range n.toNat).map fun _ => ([] : List (Act ρ α))).getD b []) = [] := by
    refine interleaves_nil (fun b => ?_) (hsch _ _)
    unfold iters
    split
    · rename_i hb
      show List.getD _ _ _ = _
      rw [List.getD_eq_getElem?_getD, List.getElem?_map, List.getElem?_range hb]; rfl
    · rfl
  rw [this]; rfl

/-- What is left of the signal when no step is executed. -/
theorem untouched_t2 (B N : Nat) (zi : Nat → α) (x : Nat → Nat → α) :
    slice (ofData (t2 B (1 + N) fun i j => if j < 1 then zi i else x i (j - 1)).shape
      (data (t2 B (1 + N) fun i j => if j < 1 then zi i else x i (j - 1)))) 1 (some 1) (some ((N + 1 : Nat) : Int)) =
      .ok (t2 B N x) := by
  rw [Nat.add_comm 1 N, shape_t2, ofData_t2, Cuda.drop_first_t2]
  refine congrArg Except.ok (t2_congr rfl rfl fun b n hb hn => ?_)
  rw [data_t2 _ hb (by omega)]
  simp

theorem untouched_t3 (B N M : Nat) (zi : Nat → Nat → α) (x : Nat → Nat → Nat → α) :
    slice (ofData (t3 B (1 + N) M fun i j k => if j < 1 then zi i k else x i (j - 1) k).shape
      (data (t3 B (1 + N) M fun i j k => if j < 1 then zi i k else x i (j - 1) k))) 1 (some 1) (some ((N + 1 : Nat) : Int)) =
      .ok (t3 B N M x) := by
  rw [Nat.add_comm 1 N, shape_t3, ofData_t3, Cuda.drop_first_t3]
  refine congrArg Except.ok (t3_congr rfl rfl rfl fun b n i hb hn hi => ?_)
  rw [data_t3 _ hb (by omega) hi]
  simp

theorem ltiRecurCpu_many {sch : Scheduler (Regs α) α} (hsch : IsScheduler sch) {B N : Nat} {A : Tensor α} {a : Nat → α}
    (zi : Nat → α) (x : Nat → Nat → α) (hA : BatchVals B A a) (hB : intMax < B) (hB' : B ≤ 4294967296) :
    ltiRecurCpu sch A (t1 B zi) (t2 B N x) = .ok (t2 B N x) := by
  have e : ∀ (Bf : Bufs α) r0 p out, parallelForM sch Bf r0 (toInt B) p out = .ok out := fun Bf r0 p out =>
    parallelForM_idle hsch fun b hb => by rw [toInt_nonpos hB hB'] at hb; omega
  unfold ltiRecurCpu
  refine check_step (by cases hA <;> simp) ?_
  refine check_step (by rw [rank_t1]) ?_
  refine check_step (by rw [rank_t2]) ?_
  simp only [size_t2_0, size_t2_1]
  refine bind_step (unsqueeze_t1_1 _ _) ?_
  refine bind_step (cat2_t2_1 _ _ _ _ _) ?_
  simp only [e]
  refine bind_step (v := data (t2 B (1 + N) fun i j => if j < 1 then zi i else x i (j - 1))) ?_ (untouched_t2 B N zi x)
  split
  · rfl
  · rename_i hn
    refine check_step ?_ rfl
    cases hA with
    | scalar v => rfl
    | single v => rfl
    | full v => exact absurd ⟨by simp, by simp [numel]⟩ hn

theorem mul_zero_left (b : Int) : mul 0 b = .ok 0 := by
  unfold mul int
  rw [zero_mul, if_pos (by unfold inRange intMax; omega)]

theorem ltiRecurCpu_long {sch : Scheduler (Regs α) α} (hsch : IsScheduler sch) {N : Nat} (a : α)
    (zi : Nat → α) (x : Nat → Nat → α) (hT : intMax < N + 1) (hT' : N + 1 ≤ 4294967296) :
    ltiRecurCpu sch (t0 a) (t1 1 zi) (t2 1 N x) = .ok (t2 1 N x) := by
  have e : ∀ (Bf : Bufs α) r0 c out, parallelForM sch Bf r0 (toInt 1) (ltiSharedBody (toInt (N + 1)) c) out = .ok out :=
    fun Bf r0 c out => parallelForM_idle hsch fun b hb => by
      have h0 : b = 0 := by rw [toInt_of_le (by decide)] at hb; simpa using hb
      subst h0
      unfold ltiSharedBody
      rw [Nat.cast_zero, mul_zero_left, ok_bind, toInt_nonpos hT hT']
      rfl
  unfold ltiRecurCpu
  refine check_step (by simp) ?_
  refine check_step (by rw [rank_t1]) ?_
  refine check_step (by rw [rank_t2]) ?_
  simp only [size_t2_0, size_t2_1]
  refine bind_step (unsqueeze_t1_1 _ _) ?_
  refine bind_step (cat2_t2_1 _ _ _ _ _) ?_
  rw [if_neg (by rw [rank_t0]; simp)]
  simp only [e]
  exact bind_step (v := data (t2 1 (1 + N) fun i j => if j < 1 then zi i else x i (j - 1))) rfl (untouched_t2 1 N zi x)

/-- No item or no step is left after the conversion of the sizes. -/
def Idle (B T : Nat) : Prop := (intMax < B ∧ B ≤ 4294967296) ∨ (B = 1 ∧ intMax < T ∧ T ≤ 4294967296)

theorem matBody_idle {T : Nat} {N : Int} {aPtr : Res Int} {aOff : Int → Nat → Res Int} {p : Int} (hp : aPtr = .ok p)
    (h : intMax < T) (h' : T ≤ 4294967296) : matBody (α := α) (toInt T) N aPtr aOff 0 = .ok [] := by
  unfold matBody
  rw [hp, ok_bind, Nat.cast_zero, mul_zero_left, ok_bind, mul_zero_left, ok_bind]
  unfold forLoopM
  rw [toInt_nonpos h h']
  rfl

theorem mat_idle {sch : Scheduler (Regs α) α} (hsch : IsScheduler sch) {B T : Nat} (h : Idle B T) {N : Int}
    {aPtr : Nat → Res Int} {aOff : Int → Nat → Res Int} (hp : ∃ p, aPtr 0 = .ok p) (Bf : Bufs α) (r0) (out) :
    parallelForM sch Bf r0 (toInt B) (fun b => matBody (α := α) (toInt T) N (aPtr b) aOff b) out = .ok out := by
  refine parallelForM_idle hsch fun b hb => ?_
  rcases h with ⟨h1, h2⟩ | ⟨rfl, h1, h2⟩
  · rw [toInt_nonpos h1 h2] at hb; omega
  · have h0 : b = 0 := by rw [toInt_of_le (by decide)] at hb; simpa using hb
    subst h0
    obtain ⟨p, hp⟩ := hp
    exact matBody_idle hp h1 h2

theorem mul3_zero (b c : Int) : mul3 ((0 : Nat) : Int) b c = .ok 0 := by
  unfold mul3
  rw [Nat.cast_zero, mul_zero_left, ok_bind, mul_zero_left]

theorem mul4_zero (b c d : Int) : mul4 ((0 : Nat) : Int) b c d = .ok 0 := by
  unfold mul4
  rw [mul3_zero, ok_bind, mul_zero_left]

theorem ltiRecurNCpu_idle {sch : Scheduler (Regs α) α} (hsch : IsScheduler sch) {B N M : Nat} {A : Tensor α}
    {a : Nat → Nat → Nat → α} (zi : Nat → Nat → α) (x : Nat → Nat → Nat → α) (hA : Spec.MatVals B M M A a)
    (h : Idle B (N + 1)) : ltiRecurNCpu sch A (t2 B M zi) (t3 B N M x) = .ok (t3 B N M x) := by
  have e1 := fun (Bf : Bufs α) (N' : Int) out => mat_idle hsch h (N := N') (aPtr := fun _ => .ok 0)
    (aOff := fun aB _ => .ok aB) ⟨_, rfl⟩ Bf regs0 out
  have e2 := fun (Bf : Bufs α) (N' : Int) out => mat_idle hsch h (N := N') (aPtr := fun b => mul3 (b : Int) N' N')
    (aOff := fun aB _ => .ok aB) ⟨_, mul3_zero _ _⟩ Bf regs0 out
  unfold ltiRecurNCpu
  cases hA with
  | shared f =>
    refine check_step (Or.inl (by rw [rank_t2])) ?_
    refine check_step (by rw [rank_t3]) ?_
    refine check_step (by rw [size_t3_2, size_t2_n1]) ?_
    refine check_step (by rw [size_t2_n1, size_t2_n2]) ?_
    simp only [size_t3_0, size_t3_1, size_t2_n1]
    refine bind_step (unsqueeze_t2_1 _ _ _) ?_
    refine bind_step (cat2_t3_1 _ _ _ _ _ _) ?_
    rw [if_neg (by rw [rank_t2]; decide)]
    exact bind_step (e1 _ _ _) (untouched_t3 B N M zi x)
  | batched a =>
    refine check_step (Or.inr (by rw [rank_t3])) ?_
    refine check_step (by rw [rank_t3]) ?_
    refine check_step (by rw [size_t3_2, size_t3_n1]) ?_
    refine check_step (by rw [size_t3_n1, size_t3_n2]) ?_
    simp only [size_t3_0, size_t3_1, size_t3_n1]
    refine bind_step (unsqueeze_t2_1 _ _ _) ?_
    refine bind_step (cat2_t3_1 _ _ _ _ _ _) ?_
    rw [if_pos (by rw [rank_t3])]
    exact bind_step (e2 _ _ _) (untouched_t3 B N M zi x)

theorem recurNCpu_idle {sch : Scheduler (Regs α) α} (hsch : IsScheduler sch) {B N M : Nat} {A : Tensor α}
    {a : Nat → Nat → Nat → Nat → α} (zi : Nat → Nat → α) (x : Nat → Nat → Nat → α) (hA : Spec.MatSeq B N M M A a)
    (h : Idle B (N + 1)) : recurNCpu sch A (t2 B M zi) (t3 B N M x) = .ok (t3 B N M x) := by
  have e1 := fun (Bf : Bufs α) (N' : Int) out => mat_idle hsch h (N := N') (aPtr := fun _ => .ok 0)
    (aOff := fun aB t => do return aB + (← mul3 (t : Int) N' N')) ⟨_, rfl⟩ Bf regs0 out
  have e2 := fun (Bf : Bufs α) (N' : Int) out => mat_idle hsch h (N := N')
    (aPtr := fun b => mul4 (b : Int) (toInt (N + 1)) N' N')
    (aOff := fun aB t => do return aB + (← mul3 (t : Int) N' N')) ⟨_, mul4_zero _ _ _⟩ Bf regs0 out
  unfold recurNCpu
  cases hA with
  | shared f =>
    refine check_step (Or.inl (by rw [rank_t3])) ?_
    refine check_step (by rw [rank_t3]) ?_
    refine check_step (by rw [size_t3_2, size_t3_n1]) ?_
    refine check_step (by rw [size_t3_n1, size_t3_n2]) ?_
    simp only [size_t3_0, size_t3_1, size_t3_n1]
    refine bind_step (padDim_t3_n3_left _ _ _ _ _ _) ?_
    refine bind_step (unsqueeze_t2_1 _ _ _) ?_
    refine bind_step (cat2_t3_1 _ _ _ _ _ _) ?_
    rw [if_neg (by rw [rank_t3]; decide)]
    exact bind_step (e1 _ _ _) (untouched_t3 B N M zi x)
  | batched a =>
    refine check_step (Or.inr (by rw [rank_t4])) ?_
    refine check_step (by rw [rank_t3]) ?_
    refine check_step (by rw [size_t3_2, size_t4_n1]) ?_
    refine check_step (by rw [size_t4_n1, size_t4_n2]) ?_
    simp only [size_t3_0, size_t3_1, size_t4_n1]
    refine bind_step (padDim_t4_n3_left _ _ _ _ _ _ _) ?_
    refine bind_step (unsqueeze_t2_1 _ _ _) ?_
    refine bind_step (cat2_t3_1 _ _ _ _ _ _) ?_
    rw [if_pos (by rw [rank_t4])]
    exact bind_step (e2 _ _ _) (untouched_t3 B N M zi x)

end Phil.Int32
