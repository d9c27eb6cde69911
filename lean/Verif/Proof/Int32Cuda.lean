import Verif.Proof.Int32

/-! # The 32-bit indices of the CUDA ops -/

namespace Phil.Int32
open Torch Torch.Tensor Scan Phil.Cuda Phil.Host

variable {α : Type} [CommRing α]

theorem div_ok {a b : Nat} (h : 0 < b) : div (a : Int) (b : Int) = .ok ((a / b : Nat) : Int) := by
  unfold div
  rw [if_neg (by omega), Int.ofNat_tdiv]

theorem rem_ok {a b : Nat} (h : 0 < b) : rem (a : Int) (b : Int) = .ok ((a % b : Nat) : Int) := by
  unfold rem
  rw [if_neg (by omega), Int.ofNat_tmod]

theorem key_eq (T : Nat) : key (T : Int) = index2key T := by
  funext i
  unfold key index2key
  rw [← Int.ofNat_tdiv, Int.toNat_natCast]

theorem collect_congr {β : Type} {d : β} {n : Nat} {f g : Nat → Res β} (h : ∀ i, i < n → f i = g i) :
    collect d n f = collect d n g := by
  unfold collect
  have : ∀ l : List Nat, (∀ i ∈ l, i < n) → l.mapM f = l.mapM g := by
    intro l
    induction l with
    | nil => intro _; rfl
    | cons a l ih =>
      intro hl
      rw [List.mapM_cons, List.mapM_cons, h a (hl a (by simp)), ih fun i hi => hl i (by simp [hi])]
  rw [this _ fun i hi => List.mem_range.1 hi]

/-- The scan, with other values at the positions behind the last element (which a scan leaves open). -/
def fill {β : Type} (scan : Scanner β) (junk : Nat → β) : Scanner β :=
  fun op key n f i => if i < n then scan op key n f i else junk i

theorem fill_isScan {β : Type} {scan : Scanner β} (h : IsScan scan) (junk : Nat → β) : IsScan (fill scan junk) := by
  intro op key n f i hi
  unfold fill
  rw [if_pos hi]
  exact h op key n f i hi

theorem batchRecurInput_eq (A : Nat → Res α) {T : Nat} (hT : 0 < T) (i : Nat) (x : α) :
    ltiBatchRecurInput A (T : Int) i x = Cuda.ltiBatchRecurInput A T i x := by
  unfold ltiBatchRecurInput Cuda.ltiBatchRecurInput
  rw [div_ok hT, rem_ok hT, ok_bind, ok_bind]
  simp only [Int.toNat_natCast, Nat.cast_pos]

theorem sharedRecurInput_eq (a : α) {T : Nat} (hT : 0 < T) (i : Nat) (x : α) :
    ltiSharedRecurInput a (T : Int) i x = Cuda.ltiSharedRecurInput a T i x := by
  unfold ltiSharedRecurInput Cuda.ltiSharedRecurInput
  rw [rem_ok hT, ok_bind]
  simp only [Nat.cast_pos]

theorem ltiRecurCuda_exact (scan : Scanner (α × α)) (junk : Nat → α × α) (a zi x : Tensor α)
    (hT : x.size 1 + 1 ≤ intMax) (h : x.size 0 * (x.size 1 + 1) ≤ intMax) :
    ltiRecurCuda scan junk a zi x = Cuda.ltiRecurCuda (fill scan junk) a zi x := by
  unfold ltiRecurCuda Cuda.ltiRecurCuda
  have e : ∀ out : Nat → α × α, written (((x.size 0 * (x.size 1 + 1) : Nat)) : Int) out junk =
      fun i => if i < x.size 0 * (x.size 1 + 1) then out i else junk i := by
    intro out
    funext i
    unfold written
    simp only [Nat.cast_lt]
  simp only [toInt_of_le hT, toInt_of_le h, Int.toNat_natCast, key_eq, batchRecurInput_eq _ (Nat.succ_pos _),
    sharedRecurInput_eq _ (Nat.succ_pos _), e]
  rfl

/-- What the scan over pairs of rows leaves open. -/
def openRow (total : Nat) (junk : Nat → α) (i : Nat) : Sq2 α := ⟨0, 0, 0, 0, 0, junk (i + total)⟩

theorem unpack2_exact (rows total nBatches nSteps : Nat) (scan : Scanner (Sq2 α)) (op key f) (junk : Nat → α) :
    unpack2 rows (total : Int) nBatches nSteps (scan op key total f) junk =
      Cuda.unpack2 rows total nBatches nSteps (fill scan (openRow total junk) op key total f) := by
  unfold unpack2 Cuda.unpack2
  have e : (fun j : Nat => if (j : Int) < (total : Int) then (scan op key total f j).e
      else if (j : Int) < 2 * (total : Int) then (scan op key total f ((j : Int) - (total : Int)).toNat).f else junk j) =
      fun j => if j < total then (fill scan (openRow total junk) op key total f j).e
        else (fill scan (openRow total junk) op key total f (j - total)).f := by
    funext j
    by_cases h1 : j < total
    · rw [if_pos (by omega), if_pos h1]
      unfold fill
      rw [if_pos h1]
    · rw [if_neg (by omega), if_neg h1]
      unfold fill
      by_cases h2 : j < 2 * total
      · rw [if_pos (by omega), if_pos (by omega), show ((j : Int) - (total : Int)).toNat = j - total by omega]
      · rw [if_neg (by omega), if_neg (by omega)]
        unfold openRow
        rw [show j - total + total = j by omega]
  rw [e]

theorem zip2_eq (xc : Tensor α) (total : Nat) (f : Nat → α → α → Res (Sq2 α)) :
    zip2 xc (total : Int) f = Cuda.zip2 xc total f := by
  funext i
  unfold zip2 Cuda.zip2
  rw [← Nat.cast_add, Int.toNat_natCast]

theorem zip2_congr (xc : Tensor α) (total : Nat) {f g : Nat → α → α → Res (Sq2 α)} {i : Nat}
    (h : ∀ x0 x1, f i x0 x1 = g i x0 x1) : Cuda.zip2 xc total f i = Cuda.zip2 xc total g i := by
  unfold Cuda.zip2
  simp only [h]

theorem batchAInput_lti_eq (A : Nat → Res α) {T i : Nat} (hT : 0 < T) (h : i / T * 4 + 3 ≤ intMax) (x0 x1 : α) :
    ltiBatchAInput A (T : Int) i x0 x1 = Cuda.ltiBatchAInput A T i x0 x1 := by
  unfold ltiBatchAInput Cuda.ltiBatchAInput
  rw [div_ok hT, ok_bind, show (4 : Int) = ((4 : Nat) : Int) from rfl, mul_ok (by omega), ok_bind, rem_ok hT, ok_bind]
  simp only [show (1 : Int) = ((1 : Nat) : Int) from rfl, show (2 : Int) = ((2 : Nat) : Int) from rfl,
    show (3 : Int) = ((3 : Nat) : Int) from rfl,
    add_ok (show i / T * 4 + 1 ≤ intMax by omega), add_ok (show i / T * 4 + 2 ≤ intMax by omega), add_ok h, ok_bind,
    Int.toNat_natCast, Nat.cast_pos]

theorem shareAInput_lti_eq (A : Nat → Res α) {T : Nat} (hT : 0 < T) (i : Nat) (x0 x1 : α) :
    ltiShareAInput A (T : Int) i x0 x1 = Cuda.ltiShareAInput A T i x0 x1 := by
  unfold ltiShareAInput Cuda.ltiShareAInput
  rw [rem_ok hT, ok_bind]
  simp only [Nat.cast_pos]

omit [CommRing α] in
theorem shareAInput_eq (A : Nat → Res α) {T : Nat} (hT : 0 < T) (h : 4 * T ≤ intMax + 1) (i : Nat) (x0 x1 : α) :
    shareAInput A (T : Int) i x0 x1 = Cuda.shareAInput A T i x0 x1 := by
  have hr : i % T < T := Nat.mod_lt _ hT
  unfold shareAInput Cuda.shareAInput
  rw [rem_ok hT, ok_bind]
  simp only [show (2 : Int) = ((2 : Nat) : Int) from rfl, show (3 : Int) = ((3 : Nat) : Int) from rfl,
    mul_ok (show T * 2 ≤ intMax by unfold intMax at *; omega), mul_ok (show T * 3 ≤ intMax by unfold intMax at *; omega),
    add_ok (show i % T + T ≤ intMax by omega), add_ok (show i % T + T * 2 ≤ intMax by omega),
    add_ok (show i % T + T * 3 ≤ intMax by omega), ok_bind, Int.toNat_natCast]

theorem ltiRecur2Cuda_exact (scan : Scanner (Sq2 α)) (junk : Nat → α) (A zi x : Tensor α)
    (hT : x.size 1 + 1 ≤ intMax) (h : x.size 0 * (x.size 1 + 1) ≤ intMax) (hA : A.rank = 3 → 4 * x.size 0 ≤ intMax + 1) :
    ltiRecur2Cuda scan junk A zi x =
      Cuda.ltiRecur2Cuda (fill scan (openRow (x.size 0 * (x.size 1 + 1)) junk)) A zi x := by
  have e : A.rank = 3 → ∀ xc, collect Sq2.zero (x.size 0 * (x.size 1 + 1)) (Cuda.zip2 xc (x.size 0 * (x.size 1 + 1))
      (ltiBatchAInput (load (data A) A.numel) ((x.size 1 + 1 : Nat) : Int))) =
      collect Sq2.zero (x.size 0 * (x.size 1 + 1)) (Cuda.zip2 xc (x.size 0 * (x.size 1 + 1))
        (Cuda.ltiBatchAInput (load (data A) A.numel) (x.size 1 + 1))) := by
    intro hr xc
    refine collect_congr fun i hi => zip2_congr _ _ fun x0 x1 => batchAInput_lti_eq _ (T := x.size 1 + 1) (by omega) ?_ x0 x1
    have h1 : i / (x.size 1 + 1) < x.size 0 := Nat.div_lt_of_lt_mul (by rw [Nat.mul_comm]; exact hi)
    have := hA hr
    omega
  have e' : ∀ xc, collect Sq2.zero (x.size 0 * (x.size 1 + 1)) (Cuda.zip2 xc (x.size 0 * (x.size 1 + 1))
      (ltiShareAInput (load (data A) A.numel) ((x.size 1 + 1 : Nat) : Int))) =
      collect Sq2.zero (x.size 0 * (x.size 1 + 1)) (Cuda.zip2 xc (x.size 0 * (x.size 1 + 1))
        (Cuda.ltiShareAInput (load (data A) A.numel) (x.size 1 + 1))) := fun xc =>
    collect_congr fun i _ => zip2_congr _ _ fun x0 x1 => shareAInput_lti_eq _ (Nat.succ_pos _) i x0 x1
  unfold ltiRecur2Cuda Cuda.ltiRecur2Cuda
  simp only [toInt_of_le hT, toInt_of_le h, Int.toNat_natCast, key_eq, zip2_eq, unpack2_exact, e']
  by_cases hr : A.rank = 3
  · simp only [e hr]
  · simp only [if_neg hr]

theorem recur2Cuda_exact (scan : Scanner (Sq2 α)) (junk : Nat → α) (A zi x : Tensor α)
    (hT : x.size 1 + 1 ≤ intMax) (h : x.size 0 * (x.size 1 + 1) ≤ intMax) (hA : A.rank ≠ 4 → 4 * (x.size 1 + 1) ≤ intMax + 1)
    (hA4 : A.rank = 4 → x.size 0 * (x.size 1 + 1) * 3 ≤ intMax) :
    recur2Cuda scan junk A zi x =
      Cuda.recur2Cuda (fill scan (openRow (x.size 0 * (x.size 1 + 1)) junk)) A zi x := by
  unfold recur2Cuda Cuda.recur2Cuda
  by_cases hr : A.rank = 4
  · have h3 := hA4 hr
    have h2 : x.size 0 * (x.size 1 + 1) * 2 ≤ intMax := by omega
    have e : ∀ B : Nat → Res α, batchAInput B ((x.size 0 * (x.size 1 + 1) : Nat) : Int)
        ((x.size 0 * (x.size 1 + 1) * 2 : Nat) : Int) ((x.size 0 * (x.size 1 + 1) * 3 : Nat) : Int) =
        Cuda.batchAInput B (x.size 0 * (x.size 1 + 1)) := by
      intro B
      funext i x0 x1
      unfold batchAInput Cuda.batchAInput
      simp only [← Nat.cast_add, Int.toNat_natCast]
    have m2 := mul_ok h2
    have m3 := mul_ok h3
    rw [show ((2 : Nat) : Int) = 2 from rfl] at m2
    rw [show ((3 : Nat) : Int) = 3 from rfl] at m3
    simp only [toInt_of_le hT, toInt_of_le h, Int.toNat_natCast, key_eq, zip2_eq, unpack2_exact, if_pos hr, m2, m3, ok_bind, e]
  · have e : ∀ B : Nat → Res α, shareAInput B ((x.size 1 + 1 : Nat) : Int) = Cuda.shareAInput B (x.size 1 + 1) := by
      intro B
      funext i x0 x1
      exact shareAInput_eq _ (Nat.succ_pos _) (hA hr) i x0 x1
    simp only [toInt_of_le hT, toInt_of_le h, Int.toNat_natCast, key_eq, zip2_eq, unpack2_exact, if_neg hr, e]

/-! ## Overflow -/

theorem over_collect {β : Type} {d : β} {n i : Nat} {f : Nat → Res β} (h : ∀ i, i < n → Clean (f i)) (hi : i < n)
    (he : f i = .error ovf) : collect d n f = .error ovf :=
  over_bind (over_mapM (fun v hv => h v (List.mem_range.1 hv)) (List.mem_range.2 hi) he)

theorem clean_add (a b : Int) : Clean (add a b) := by
  unfold add int
  split
  · exact clean_ok _
  · exact .inr rfl

theorem add_val {a b : Nat} {v : Int} (h : add (a : Int) (b : Int) = .ok v) : v = ((a + b : Nat) : Int) := by
  unfold add int at h
  split at h
  · injection h with h; rw [← h, Nat.cast_add]
  · cases h

theorem add_over {a b : Nat} (h : intMax < a + b) : add (a : Int) (b : Int) = .error ovf := by
  unfold add int
  rw [← Nat.cast_add, if_neg (fun hh => absurd (inRange_nat.1 hh) (by omega))]

theorem clean_step {β γ : Type} {x : Res β} {f : β → Res γ} (h : Clean x) (h' : ∀ v, x = .ok v → Clean (f v)) :
    Clean (x >>= f) := by
  rcases h with ⟨v, hv⟩ | hv
  · rw [hv]; exact h' v hv
  · rw [hv]; exact .inr rfl

theorem clean_of_some {β : Type} {r : Res β} (h : ∃ v, r = .ok v) : Clean r := .inl h

/-- All reads of `n` elements succeed. -/
def Loads (A : Nat → Res α) (n : Nat) : Prop := ∀ k, k < n → ∃ v, A k = .ok v

theorem loads_data (A : Tensor α) : Loads (load (data A) A.numel) A.numel := fun _ hk => ⟨_, load_ok hk⟩

theorem clean_batchAInput_lti {A : Nat → Res α} {T B i : Nat} (hT : 0 < T) (hA : Loads A (B * 4)) (hi : i / T < B) (x0 x1 : α) :
    Clean (ltiBatchAInput A (T : Int) i x0 x1) := by
  unfold ltiBatchAInput
  rw [div_ok hT, ok_bind, show (4 : Int) = ((4 : Nat) : Int) from rfl]
  refine clean_step (clean_mul _ _) fun v hv => ?_
  obtain rfl := mul_val hv
  rw [rem_ok hT, ok_bind]
  split
  · refine clean_bind (clean_of_some (hA _ (by simp only [Int.toNat_natCast]; omega))) fun _ => ?_
    refine clean_step (clean_add _ _) fun v hv => ?_
    rw [show (1 : Int) = ((1 : Nat) : Int) from rfl] at hv
    obtain rfl := add_val hv
    refine clean_bind (clean_of_some (hA _ (by simp only [Int.toNat_natCast]; omega))) fun _ => ?_
    refine clean_step (clean_add _ _) fun v hv => ?_
    rw [show (2 : Int) = ((2 : Nat) : Int) from rfl] at hv
    obtain rfl := add_val hv
    refine clean_bind (clean_of_some (hA _ (by simp only [Int.toNat_natCast]; omega))) fun _ => ?_
    refine clean_step (clean_add _ _) fun v hv => ?_
    rw [show (3 : Int) = ((3 : Nat) : Int) from rfl] at hv
    obtain rfl := add_val hv
    refine clean_bind (clean_of_some (hA _ (by simp only [Int.toNat_natCast]; omega))) fun _ => ?_
    exact clean_ok _
  · exact clean_ok _

theorem over_batchAInput_lti {A : Nat → Res α} {T B i : Nat} (hT : 0 < T) (hA : Loads A (B * 4)) (hi : i / T < B)
    (hr : 0 < i % T) (h : intMax < i / T * 4 + 3) (x0 x1 : α) : ltiBatchAInput A (T : Int) i x0 x1 = .error ovf := by
  unfold ltiBatchAInput
  rw [div_ok hT, ok_bind, show (4 : Int) = ((4 : Nat) : Int) from rfl]
  refine over_step (clean_mul _ _) fun v hv => ?_
  obtain rfl := mul_val hv
  rw [rem_ok hT, ok_bind, if_pos (by omega)]
  refine over_step (clean_of_some (hA _ (by simp only [Int.toNat_natCast]; omega))) fun _ _ => ?_
  refine over_step (clean_add _ _) fun v hv => ?_
  rw [show (1 : Int) = ((1 : Nat) : Int) from rfl] at hv
  obtain rfl := add_val hv
  refine over_step (clean_of_some (hA _ (by simp only [Int.toNat_natCast]; omega))) fun _ _ => ?_
  refine over_step (clean_add _ _) fun v hv => ?_
  rw [show (2 : Int) = ((2 : Nat) : Int) from rfl] at hv
  obtain rfl := add_val hv
  refine over_step (clean_of_some (hA _ (by simp only [Int.toNat_natCast]; omega))) fun _ _ => ?_
  rw [show (3 : Int) = ((3 : Nat) : Int) from rfl, add_over h]
  rfl

omit [CommRing α] in
theorem clean_shareAInput {A : Nat → Res α} {T : Nat} (hT : 0 < T) (hA : Loads A (4 * T)) (i : Nat) (x0 x1 : α) :
    Clean (shareAInput A (T : Int) i x0 x1) := by
  have hr : i % T < T := Nat.mod_lt _ hT
  unfold shareAInput
  rw [rem_ok hT, ok_bind]
  refine clean_bind (clean_of_some (hA _ (by simp only [Int.toNat_natCast]; omega))) fun _ => ?_
  refine clean_step (clean_add _ _) fun v hv => ?_
  obtain rfl := add_val hv
  refine clean_bind (clean_of_some (hA _ (by simp only [Int.toNat_natCast]; omega))) fun _ => ?_
  refine clean_step (clean_mul _ _) fun v hv => ?_
  rw [show (2 : Int) = ((2 : Nat) : Int) from rfl] at hv
  obtain rfl := mul_val hv
  refine clean_step (clean_add _ _) fun v hv => ?_
  obtain rfl := add_val hv
  refine clean_bind (clean_of_some (hA _ (by simp only [Int.toNat_natCast]; omega))) fun _ => ?_
  refine clean_step (clean_mul _ _) fun v hv => ?_
  rw [show (3 : Int) = ((3 : Nat) : Int) from rfl] at hv
  obtain rfl := mul_val hv
  refine clean_step (clean_add _ _) fun v hv => ?_
  obtain rfl := add_val hv
  refine clean_bind (clean_of_some (hA _ (by simp only [Int.toNat_natCast]; omega))) fun _ => ?_
  exact clean_ok _

omit [CommRing α] in
theorem over_shareAInput {A : Nat → Res α} {T : Nat} (hT : 0 < T) (hA : Loads A (4 * T)) {i : Nat}
    (h : intMax < i % T + T * 3) (x0 x1 : α) : shareAInput A (T : Int) i x0 x1 = .error ovf := by
  have hr : i % T < T := Nat.mod_lt _ hT
  unfold shareAInput
  rw [rem_ok hT, ok_bind]
  refine over_step (clean_of_some (hA _ (by simp only [Int.toNat_natCast]; omega))) fun _ _ => ?_
  refine over_step (clean_add _ _) fun v hv => ?_
  obtain rfl := add_val hv
  refine over_step (clean_of_some (hA _ (by simp only [Int.toNat_natCast]; omega))) fun _ _ => ?_
  refine over_step (clean_mul _ _) fun v hv => ?_
  rw [show (2 : Int) = ((2 : Nat) : Int) from rfl] at hv
  obtain rfl := mul_val hv
  refine over_step (clean_add _ _) fun v hv => ?_
  obtain rfl := add_val hv
  refine over_step (clean_of_some (hA _ (by simp only [Int.toNat_natCast]; omega))) fun _ _ => ?_
  refine over_step (clean_mul _ _) fun v hv => ?_
  rw [show (3 : Int) = ((3 : Nat) : Int) from rfl] at hv
  obtain rfl := mul_val hv
  rw [add_over h]
  rfl

theorem clean_zip2 {n : Nat} (g : Nat → Nat → α) {f : Nat → α → α → Res (Sq2 α)} {i : Nat} (hi : i < n)
    (h : ∀ x0 x1, Clean (f i x0 x1)) : Clean (zip2 (t2 2 n g) (n : Int) f i) := by
  rw [zip2_eq]
  unfold Cuda.zip2
  rw [load_ok (by rw [numel_t2]; omega), ok_bind, load_ok (by rw [numel_t2]; omega), ok_bind]
  exact h _ _

theorem over_zip2 {n : Nat} (g : Nat → Nat → α) {f : Nat → α → α → Res (Sq2 α)} {i : Nat} (hi : i < n)
    (h : ∀ x0 x1, f i x0 x1 = .error ovf) : zip2 (t2 2 n g) (n : Int) f i = .error ovf := by
  rw [zip2_eq]
  unfold Cuda.zip2
  rw [load_ok (by rw [numel_t2]; omega), ok_bind, load_ok (by rw [numel_t2]; omega), ok_bind]
  exact h _ _

theorem ltiRecur2Cuda_over (scan : Scanner (Sq2 α)) (junk : Nat → α) {B N : Nat} (a : Nat → Nat → Nat → α)
    (zi : Nat → Nat → α) (x : Nat → Nat → Nat → α) (hN : 0 < N) (hT : N + 1 ≤ intMax) (h : B * (N + 1) ≤ intMax)
    (hB : intMax + 1 < 4 * B) : ltiRecur2Cuda scan junk (t3 B 2 2 a) (t2 B 2 zi) (t3 B N 2 x) = .error ovf := by
  have hL : Loads (load (data (t3 B 2 2 a)) (t3 B 2 2 a).numel) (B * 4) := by
    have := loads_data (t3 B 2 2 a)
    rw [numel_t3, show B * 2 * 2 = B * 4 by omega] at this
    rwa [numel_t3, show B * 2 * 2 = B * 4 by omega]
  unfold ltiRecur2Cuda
  refine over_check (Or.inr (rank_t3 _ _ _ _)) ?_
  refine over_check (by rw [rank_t3]) ?_
  refine over_check (size_t3_2 _ _ _ _) ?_
  refine over_check ⟨size_t3_n1 _ _ _ _, size_t3_n2 _ _ _ _⟩ ?_
  simp only [size_t3_0, size_t3_1, toInt_of_le hT, toInt_of_le h, Int.toNat_natCast]
  refine over_after (unsqueeze_t2_1 _ _ _) ?_
  refine over_after (cat2_t3_1 _ _ _ _ _ _) ?_
  rw [Nat.add_comm 1 N]
  refine over_after (viewRows_3 B (N + 1) 2 (by omega) (withState zi x)) ?_
  refine over_after (transpose_t2_0_1 _ _ _) ?_
  rw [if_pos (rank_t3 _ _ _ _)]
  have hd : ∀ i, i < B * (N + 1) → i / (N + 1) < B := fun i hi => Nat.div_lt_of_lt_mul (by rw [Nat.mul_comm]; exact hi)
  have hi : (B - 1) * (N + 1) + 1 < B * (N + 1) := flat_lt (show B - 1 < B by omega) (by omega)
  refine over_bind (over_collect (i := (B - 1) * (N + 1) + 1) (fun i hi => ?_) hi ?_)
  · exact clean_zip2 _ hi fun x0 x1 => clean_batchAInput_lti (Nat.succ_pos _) hL (hd i hi) x0 x1
  · refine over_zip2 _ hi fun x0 x1 => over_batchAInput_lti (Nat.succ_pos _) hL (hd _ hi) ?_ ?_ x0 x1
    · rw [flat_mod (by omega)]; omega
    · rw [flat_div (by omega)]; omega

theorem recur2Cuda_over_shared (scan : Scanner (Sq2 α)) (junk : Nat → α) {B N : Nat} (a : Nat → Nat → Nat → α)
    (zi : Nat → Nat → α) (x : Nat → Nat → Nat → α) (hB : 0 < B) (hT : N + 1 ≤ intMax) (h : B * (N + 1) ≤ intMax)
    (hA : intMax + 1 < 4 * (N + 1)) : recur2Cuda scan junk (t3 N 2 2 a) (t2 B 2 zi) (t3 B N 2 x) = .error ovf := by
  unfold recur2Cuda
  refine over_check (Or.inl (rank_t3 _ _ _ _)) ?_
  refine over_check (by rw [rank_t3]) ?_
  refine over_check (size_t3_2 _ _ _ _) ?_
  refine over_check ⟨size_t3_n1 _ _ _ _, size_t3_n2 _ _ _ _⟩ ?_
  simp only [size_t3_0, size_t3_1, toInt_of_le hT, toInt_of_le h, Int.toNat_natCast]
  refine over_after (padDim_t3_n3_left _ _ _ _ _ _) ?_
  refine over_after (viewRows_22 (N + 1) (matAt (fun _ => a) 0)) ?_
  refine over_after (transpose_t2_0_1 _ _ _) ?_
  refine over_after (unsqueeze_t2_1 _ _ _) ?_
  refine over_after (cat2_t3_1 _ _ _ _ _ _) ?_
  rw [Nat.add_comm 1 N]
  refine over_after (viewRows_3 B (N + 1) 2 (by omega) (withState zi x)) ?_
  refine over_after (transpose_t2_0_1 _ _ _) ?_
  rw [if_neg (by rw [rank_t3]; decide)]
  have hL : ∀ F : Nat → Nat → α, Loads (load (data (t2 4 (N + 1) F)) (t2 4 (N + 1) F).numel) (4 * (N + 1)) := by
    intro F
    have := loads_data (t2 4 (N + 1) F)
    rw [numel_t2] at this
    rwa [numel_t2]
  have hi : 0 * (N + 1) + N < B * (N + 1) := flat_lt hB (by omega)
  rw [Nat.zero_mul, Nat.zero_add] at hi
  refine over_bind (over_collect (i := N) (fun i hi => ?_) hi ?_)
  · exact clean_zip2 _ hi fun x0 x1 => clean_shareAInput (Nat.succ_pos _) (hL _) i x0 x1
  · refine over_zip2 _ hi fun x0 x1 => over_shareAInput (Nat.succ_pos _) (hL _) ?_ x0 x1
    rw [Nat.mod_eq_of_lt (by omega)]; omega

theorem recur2Cuda_over_batched (scan : Scanner (Sq2 α)) (junk : Nat → α) {B N : Nat} (a : Nat → Nat → Nat → Nat → α)
    (zi : Nat → Nat → α) (x : Nat → Nat → Nat → α) (hT : N + 1 ≤ intMax) (h : B * (N + 1) ≤ intMax)
    (hA : intMax < B * (N + 1) * 3) : recur2Cuda scan junk (t4 B N 2 2 a) (t2 B 2 zi) (t3 B N 2 x) = .error ovf := by
  unfold recur2Cuda
  refine over_check (Or.inr (rank_t4 _ _ _ _ _)) ?_
  refine over_check (by rw [rank_t3]) ?_
  refine over_check (size_t3_2 _ _ _ _) ?_
  refine over_check ⟨size_t4_n1 _ _ _ _ _, size_t4_n2 _ _ _ _ _⟩ ?_
  simp only [size_t3_0, size_t3_1, toInt_of_le hT, toInt_of_le h, Int.toNat_natCast]
  refine over_after (padDim_t4_n3_left _ _ _ _ _ _ _) ?_
  refine over_after (viewRows_b22 B (N + 1) (matAt a)) ?_
  refine over_after (transpose_t2_0_1 _ _ _) ?_
  refine over_after (unsqueeze_t2_1 _ _ _) ?_
  refine over_after (cat2_t3_1 _ _ _ _ _ _) ?_
  rw [Nat.add_comm 1 N]
  refine over_after (viewRows_3 B (N + 1) 2 (by omega) (withState zi x)) ?_
  refine over_after (transpose_t2_0_1 _ _ _) ?_
  rw [if_pos (rank_t4 _ _ _ _ _)]
  refine over_bind (over_step (clean_mul _ _) fun _ _ => ?_)
  rw [show (3 : Int) = ((3 : Nat) : Int) from rfl, mul_over hA]
  rfl

/-! ## The number of steps does not fit into an `int` -/

theorem collect_zero {β : Type} (d : β) (f : Nat → Res β) : ∃ e, collect d 0 f = .ok e := ⟨_, rfl⟩

theorem ltiRecurCuda_open (scan : Scanner (α × α)) (junk : Nat → α × α) {B N : Nat} {A : Tensor α} {a : Nat → α}
    (zi : Nat → α) (x : Nat → Nat → α) (hA : BatchVals B A a) (h : intMax < B * (N + 1)) (h' : B * (N + 1) ≤ 4294967296) :
    ltiRecurCuda scan junk A (t1 B zi) (t2 B N x) = .ok (t2 B N fun b n => (junk (b * (N + 1) + (n + 1))).2) := by
  have hw : ∀ out : Nat → α × α, written (toInt (B * (N + 1))) out junk = junk := by
    intro out
    funext i
    unfold written
    have := toInt_neg h h'
    rw [if_neg (by omega)]
  unfold ltiRecurCuda
  refine check_step (by cases hA <;> simp) ?_
  refine check_step (rank_t1 _ _) ?_
  refine check_step (by rw [rank_t2]) ?_
  simp only [size_t2_0, size_t2_1, toInt_nonpos h h', hw]
  refine bind_step (unsqueeze_t1_1 _ _) ?_
  refine bind_step (cat2_t2_1 _ _ _ _ _) ?_
  have hfin : slice (ofData (t2 B (1 + N) fun i j => if j < 1 then zi i else x i (j - 1)).shape fun i => (junk i).2) 1
      (some 1) (some ((N + 1 : Nat) : Int)) = .ok (t2 B N fun b n => (junk (b * (N + 1) + (n + 1))).2) := by
    rw [Nat.add_comm 1 N, shape_t2, ofData_t2, drop_first_t2]
  refine bind_step (v := fun i => ([] : List (α × α)).getD i (0, 0)) ?_ hfin
  split
  · rfl
  · rename_i hn
    refine check_step ?_ rfl
    cases hA with
    | scalar v => rfl
    | single v => rfl
    | full v => exact absurd ⟨by simp, by simp [numel]⟩ hn

theorem unpack2_open {B N : Nat} (out : Nat → Sq2 α) (junk : Nat → α) (h : intMax < B * (N + 1))
    (h' : B * (N + 1) ≤ 4294967296) :
    unpack2 (B * (N + 1)) (toInt (B * (N + 1))) B (N + 1) out junk =
      .ok (t3 B N 2 fun b n i => junk (i * (B * (N + 1)) + (b * (N + 1) + (n + 1)))) := by
  have := toInt_neg h h'
  unfold unpack2
  rw [ofData_t2]
  refine bind_step (transpose_t2_0_1 _ _ _) ?_
  refine check_step (by rw [numel_t2]) ?_
  rw [ofData_t3, drop_first_t3]
  refine congrArg Except.ok (t3_congr rfl rfl rfl fun b n i hb hn hi => ?_)
  have hr : b * (N + 1) + (n + 1) < B * (N + 1) := flat_lt hb (by omega)
  rw [show b * (N + 1) * 2 + (n + 1) * 2 + i = (b * (N + 1) + (n + 1)) * 2 + i by ring, data_t2 _ hr hi]
  rw [if_neg (by omega), if_neg (by omega)]

theorem ltiRecur2Cuda_open (scan : Scanner (Sq2 α)) (junk : Nat → α) {B N : Nat} {A : Tensor α} {a : Nat → Nat → Nat → α}
    (zi : Nat → Nat → α) (x : Nat → Nat → Nat → α) (hA : Spec.MatVals B 2 2 A a) (h : intMax < B * (N + 1))
    (h' : B * (N + 1) ≤ 4294967296) :
    ltiRecur2Cuda scan junk A (t2 B 2 zi) (t3 B N 2 x) =
      .ok (t3 B N 2 fun b n i => junk (i * (B * (N + 1)) + (b * (N + 1) + (n + 1)))) := by
  have hr : A.rank = 2 ∨ A.rank = 3 := by cases hA <;> simp [rank_t2, rank_t3]
  have hs : A.size (-1) = 2 ∧ A.size (-2) = 2 := by
    cases hA
    · exact ⟨size_t2_n1 _ _ _, size_t2_n2 _ _ _⟩
    · exact ⟨size_t3_n1 _ _ _ _, size_t3_n2 _ _ _ _⟩
  unfold ltiRecur2Cuda
  refine check_step hr ?_
  refine check_step (by rw [rank_t3]) ?_
  refine check_step (size_t3_2 _ _ _ _) ?_
  refine check_step hs ?_
  simp only [size_t3_0, size_t3_1, toInt_nonpos h h']
  refine bind_step (unsqueeze_t2_1 _ _ _) ?_
  refine bind_step (cat2_t3_1 _ _ _ _ _ _) ?_
  rw [Nat.add_comm 1 N]
  refine bind_step (viewRows_3 B (N + 1) 2 (by omega) (withState zi x)) ?_
  refine bind_step (transpose_t2_0_1 _ _ _) ?_
  rw [size_t2_0]
  refine bind_step (v := fun i => ([] : List (Sq2 α)).getD i Sq2.zero) ?_ (unpack2_open _ junk h h')
  split <;> rfl

theorem recur2Cuda_open (scan : Scanner (Sq2 α)) (junk : Nat → α) {B N : Nat} (a : Nat → Nat → Nat → α)
    (zi : Nat → Nat → α) (x : Nat → Nat → Nat → α) (h : intMax < B * (N + 1)) (h' : B * (N + 1) ≤ 4294967296) :
    recur2Cuda scan junk (t3 N 2 2 a) (t2 B 2 zi) (t3 B N 2 x) =
      .ok (t3 B N 2 fun b n i => junk (i * (B * (N + 1)) + (b * (N + 1) + (n + 1)))) := by
  unfold recur2Cuda
  refine check_step (Or.inl (rank_t3 _ _ _ _)) ?_
  refine check_step (by rw [rank_t3]) ?_
  refine check_step (size_t3_2 _ _ _ _) ?_
  refine check_step ⟨size_t3_n1 _ _ _ _, size_t3_n2 _ _ _ _⟩ ?_
  simp only [size_t3_0, size_t3_1, toInt_nonpos h h']
  refine bind_step (padDim_t3_n3_left _ _ _ _ _ _) ?_
  refine bind_step (viewRows_22 (N + 1) (matAt (fun _ => a) 0)) ?_
  refine bind_step (transpose_t2_0_1 _ _ _) ?_
  refine bind_step (unsqueeze_t2_1 _ _ _) ?_
  refine bind_step (cat2_t3_1 _ _ _ _ _ _) ?_
  rw [Nat.add_comm 1 N]
  refine bind_step (viewRows_3 B (N + 1) 2 (by omega) (withState zi x)) ?_
  refine bind_step (transpose_t2_0_1 _ _ _) ?_
  rw [size_t2_0, if_neg (by rw [rank_t3]; decide)]
  exact bind_step (v := fun i => ([] : List (Sq2 α)).getD i Sq2.zero) rfl (unpack2_open _ junk h h')

end Phil.Int32
