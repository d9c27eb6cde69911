import Verif.Proof.Scan

/-!
# The scan ops compute the recurrences
-/

namespace Phil.Cuda
open Torch Torch.Tensor Scan Spec Phil.Host

variable {α : Type} [Zero α] [Add α] [Mul α]

omit [Add α] [Mul α] in
theorem viewRows_3 (B T p : Nat) (hp : 0 < p) (g : Nat → Nat → Nat → α) :
    viewRows (t3 B T p g) p = .ok (t2 (B * T) p fun r k => g (r / T) (r % T) k) := by
  unfold viewRows
  refine check_step (by rw [numel_t3, Nat.mul_mod_left]) ?_
  rw [numel_t3, Nat.mul_div_cancel _ hp, ofData_t2, pure_eq_ok]
  refine congrArg Except.ok (t2_congr rfl rfl fun r k hr hk => ?_)
  have hT : 0 < T := by
    rcases Nat.eq_zero_or_pos T with rfl | h
    · simp at hr
    · exact h
  have h1 : r / T < B := Nat.div_lt_of_lt_mul (by rw [Nat.mul_comm]; exact hr)
  have h2 : r % T < T := Nat.mod_lt _ hT
  have e : r * p + k = r / T * T * p + r % T * p + k := by
    rw [← Nat.add_mul, Nat.mul_comm (r / T) T, Nat.div_add_mod]
  rw [e]
  exact data_t3 g h1 h2 hk

omit [Add α] [Mul α] in
theorem viewRows_22 (T : Nat) (g : Nat → Nat → Nat → α) :
    viewRows (t3 T 2 2 g) 4 = .ok (t2 T 4 fun r k => g r (k / 2) (k % 2)) := by
  unfold viewRows
  refine check_step (by rw [numel_t3]; omega) ?_
  rw [numel_t3, show T * 2 * 2 / 4 = T by omega, ofData_t2, pure_eq_ok]
  refine congrArg Except.ok (t2_congr rfl rfl fun r k hr hk => ?_)
  rw [show r * 4 + k = r * 2 * 2 + k / 2 * 2 + k % 2 by omega]
  exact data_t3 g hr (by omega) (by omega)

omit [Add α] [Mul α] in
theorem viewRows_b22 (B T : Nat) (g : Nat → Nat → Nat → Nat → α) :
    viewRows (t4 B T 2 2 g) 4 = .ok (t2 (B * T) 4 fun r k => g (r / T) (r % T) (k / 2) (k % 2)) := by
  unfold viewRows
  refine check_step (by rw [numel_t4]; omega) ?_
  rw [numel_t4, show B * T * 2 * 2 / 4 = B * T by omega, ofData_t2, pure_eq_ok]
  refine congrArg Except.ok (t2_congr rfl rfl fun r k hr hk => ?_)
  have hT : 0 < T := by
    rcases Nat.eq_zero_or_pos T with rfl | h
    · simp at hr
    · exact h
  have h1 : r / T < B := Nat.div_lt_of_lt_mul (by rw [Nat.mul_comm]; exact hr)
  have h2 : r % T < T := Nat.mod_lt _ hT
  have e : r * 4 + k = r / T * T * 2 * 2 + r % T * 2 * 2 + k / 2 * 2 + k % 2 := by
    have := Nat.div_add_mod r T
    rw [Nat.mul_comm] at this
    omega
  rw [e]
  exact data_t4 g h1 h2 (by omega) (by omega)

omit [Add α] [Mul α] in
theorem drop_first_t3 (B N M : Nat) (g : Nat → Nat → Nat → α) :
    slice (t3 B (N + 1) M g) 1 (some 1) (some ((N + 1 : Nat) : Int)) = .ok (t3 B N M fun b n i => g b (n + 1) i) := by
  have e1 : pyStart (N + 1) (some 1) = 1 := by unfold pyStart pyBound; simp
  have e2 : pyStop (N + 1) (some ((N + 1 : Nat) : Int)) = N + 1 := by unfold pyStop pyBound; simp; omega
  rw [slice_t3_1, e1, e2, Nat.add_sub_cancel]

omit [Add α] [Mul α] in
theorem drop_first_t2 (B N : Nat) (g : Nat → Nat → α) :
    slice (t2 B (N + 1) g) 1 (some 1) (some ((N + 1 : Nat) : Int)) = .ok (t2 B N fun b n => g b (n + 1)) := by
  have e1 : pyStart (N + 1) (some 1) = 1 := by unfold pyStart pyBound; simp
  have e2 : pyStop (N + 1) (some ((N + 1 : Nat) : Int)) = N + 1 := by unfold pyStop pyBound; simp; omega
  rw [slice_t2_1, e1, e2, Nat.add_sub_cancel]

/-- The vector of an element. -/
def sq2Vec (e : Sq2 α) (i : Nat) : α := if i = 0 then e.e else e.f

omit [Add α] [Mul α] in
theorem unpack2_eq (B N : Nat) (out : Nat → Sq2 α) (y : Nat → Nat → Nat → α)
    (h : ∀ b < B, ∀ n, n < N → ∀ i < 2, sq2Vec (out (b * (N + 1) + (n + 1))) i = y b n i) :
    unpack2 (B * (N + 1)) (B * (N + 1)) B (N + 1) out = .ok (t3 B N 2 y) := by
  unfold unpack2
  rw [ofData_t2]
  refine bind_step (transpose_t2_0_1 _ _ _) ?_
  refine check_step (by rw [numel_t2]) ?_
  rw [ofData_t3, drop_first_t3]
  refine congrArg Except.ok (t3_congr rfl rfl rfl fun b n i hb hn hi => ?_)
  have hr : b * (N + 1) + (n + 1) < B * (N + 1) := flat_lt hb (by omega)
  rw [show b * (N + 1) * 2 + (n + 1) * 2 + i = (b * (N + 1) + (n + 1)) * 2 + i by ring, data_t2 _ hr hi, ← h b hb n hn i hi]
  have : i = 0 ∨ i = 1 := by omega
  rcases this with rfl | rfl
  · rw [if_pos (by omega), Nat.zero_mul, Nat.zero_add]; rfl
  · rw [if_neg (by omega), Nat.one_mul, Nat.add_sub_cancel_left]; rfl

/-- The signal with its initial state in front. -/
def withState (zi : Nat → Nat → α) (x : Nat → Nat → Nat → α) (i j k : Nat) : α := if j < 1 then zi i k else x i (j - 1) k

/-- A step of a `do` block whose result is described up to a choice. -/
theorem bind_stepE {β γ δ : Type} {x : Res β} {v : β} {f : β → Res γ} {P : δ → Prop} {r : δ → Res γ} (h : x = .ok v)
    (h' : ∃ e, P e ∧ f v = r e) : ∃ e, P e ∧ (x >>= f) = r e := by
  rw [h]; exact h'

theorem check_stepE {γ δ : Type} {c : Prop} {inst : Decidable c} {msg : String} {f : Unit → Res γ} {P : δ → Prop}
    {r : δ → Res γ} (h : c) (h' : ∃ e, P e ∧ f () = r e) : ∃ e, P e ∧ (check c msg >>= f) = r e := by
  rw [check_true h]; exact h'

/-- The elements of the scan of the scalar recurrence: item `b`, step `t`. -/
def pairAt (a : Nat → α) (zi : Nat → α) (x : Nat → Nat → α) (b t : Nat) : α × α :=
  if t = 0 then (0, zi b) else (a b, x b (t - 1))

/-- The CUDA op returns the second components of the scan, in any arithmetic. -/
theorem ltiRecurCuda_run (scan : Scanner (α × α)) {B N : Nat} {A : Tensor α} {a : Nat → α} (zi : Nat → α)
    (x : Nat → Nat → α) (hA : BatchVals B A a) :
    ∃ e : Nat → α × α, (∀ b < B, ∀ t < N + 1, e (b * (N + 1) + t) = pairAt a zi x b t) ∧
      ltiRecurCuda scan A (t1 B zi) (t2 B N x) =
        .ok (t2 B N fun b n => (scan recurOp (index2key (N + 1)) (B * (N + 1)) e (b * (N + 1) + (n + 1))).2) := by
  have hr : A.rank ≤ 1 := by cases hA <;> simp [rank_t0, rank_t1]
  unfold ltiRecurCuda
  refine check_stepE hr ?_
  refine check_stepE (rank_t1 _ _) ?_
  refine check_stepE (by rw [rank_t2]) ?_
  simp only [size_t2_0, size_t2_1]
  refine bind_stepE (unsqueeze_t1_1 _ _) ?_
  refine bind_stepE (cat2_t2_1 _ _ _ _ _) ?_
  rw [Nat.add_comm 1 N]
  set g : Nat → Nat → α := fun i j => if j < 1 then zi i else x i (j - 1) with hg
  set T := N + 1 with hT
  -- the elements of the scan
  set el : Nat → α × α := fun i => (if 0 < i % T then a (i / T) else 0, g (i / T) (i % T)) with hel
  have hx : ∀ i, i < B * T → load (data (t2 B T g)) (t2 B T g).numel i = .ok (g (i / T) (i % T)) := by
    intro i hi
    have h1 : i / T < B := Nat.div_lt_of_lt_mul (by rw [Nat.mul_comm]; exact hi)
    have h2 : i % T < T := Nat.mod_lt _ (by omega)
    rw [load_ok (by rw [numel_t2]; exact hi)]
    have := data_t2 g h1 h2
    rw [Nat.mul_comm, Nat.div_add_mod] at this
    rw [this]
  have hel' : ∀ e : Nat → α × α, (∀ i, i < B * T → e i = el i) → ∀ b < B, ∀ t < T, e (b * T + t) = pairAt a zi x b t := by
    intro e he b hb t ht
    rw [he _ (flat_lt hb ht), hel]
    simp only [flat_div ht, flat_mod ht, hg, pairAt]
    rcases Nat.eq_zero_or_pos t with rfl | h
    · simp
    · rw [if_pos h, if_neg (by omega), if_neg (by omega)]
  have hfin : ∀ e : Nat → α × α,
      slice (ofData (t2 B T g).shape fun i => (scan recurOp (index2key T) (B * T) e i).2) 1 (some 1) (some ((T : Nat) : Int)) =
        .ok (t2 B N fun b n => (scan recurOp (index2key T) (B * T) e (b * T + (n + 1))).2) := by
    intro e
    rw [shape_t2, ofData_t2, drop_first_t2]
  have hshared : ∀ c : α, (∀ b < B, a b = c) → ∀ i, i < B * T →
      (do let xi ← load (data (t2 B T g)) (t2 B T g).numel i
          ltiSharedRecurInput c T i xi) = .ok (el i) := by
    intro c hc i hi
    refine bind_step (hx i hi) ?_
    have h1 : i / T < B := Nat.div_lt_of_lt_mul (by rw [Nat.mul_comm]; exact hi)
    unfold ltiSharedRecurInput
    rw [hel]
    split
    · rename_i h; simp only [if_pos h, hc _ h1]; rfl
    · rename_i h; simp only [if_neg h]; rfl
  have hbatch : ∀ i, i < B * T →
      (do let xi ← load (data (t2 B T g)) (t2 B T g).numel i
          ltiBatchRecurInput (load (data (t1 B a)) (t1 B a).numel) T i xi) = .ok (el i) := by
    intro i hi
    refine bind_step (hx i hi) ?_
    have h1 : i / T < B := Nat.div_lt_of_lt_mul (by rw [Nat.mul_comm]; exact hi)
    unfold ltiBatchRecurInput
    rw [hel]
    split
    · rename_i h
      rw [load_ok (by rw [numel_t1]; exact h1), data_t1 a h1]
      simp only [if_pos h]; rfl
    · rename_i h; simp only [if_neg h]; rfl
  cases hA with
  | scalar c =>
    rw [if_neg (by rw [rank_t0]; simp)]
    obtain ⟨e, he1, he2⟩ := collect_ok (d := ((0, 0) : α × α)) (hshared c fun _ _ => rfl)
    refine ⟨e, hel' e he2, bind_step (v := e) ?_ (hfin e)⟩
    refine check_step (by rw [numel_t0]) ?_
    exact he1
  | single f =>
    by_cases hB : B = 1
    · subst hB
      rw [if_pos ⟨rank_t1 _ _, by rw [numel_t1]⟩]
      obtain ⟨e, he1, he2⟩ := collect_ok (d := ((0, 0) : α × α)) (n := 1 * T) (g := el) (f := fun i => do
        let xi ← load (data (t2 1 T g)) (t2 1 T g).numel i
        ltiBatchRecurInput (load (data (t1 1 f)) (t1 1 f).numel) T i xi) (by
        intro i hi
        refine bind_step (hx i hi) ?_
        have h1 : i / T < 1 := Nat.div_lt_of_lt_mul (by rw [Nat.mul_comm]; exact hi)
        unfold ltiBatchRecurInput
        rw [hel]
        split
        · rename_i h
          have e0 : f (i / T) = f 0 := congrArg f (Nat.lt_one_iff.1 h1)
          rw [load_ok (by rw [numel_t1]; exact h1), data_t1 f h1, e0]
          simp only [if_pos h]; rfl
        · rename_i h; simp only [if_neg h]; rfl)
      exact ⟨e, hel' e he2, bind_step he1 (hfin e)⟩
    · rw [if_neg (by rw [numel_t1]; intro h; exact hB h.2.symm)]
      obtain ⟨e, he1, he2⟩ := collect_ok (d := ((0, 0) : α × α)) (hshared (f 0) fun _ _ => rfl)
      refine ⟨e, hel' e he2, bind_step (v := e) ?_ (hfin e)⟩
      refine check_step (by rw [numel_t1]) ?_
      rw [data_t1 f (by omega)]
      exact he1
  | full =>
    rw [if_pos ⟨rank_t1 _ _, by rw [numel_t1]⟩]
    obtain ⟨e, he1, he2⟩ := collect_ok (d := ((0, 0) : α × α)) hbatch
    exact ⟨e, hel' e he2, bind_step he1 (hfin e)⟩

theorem vecRec_one {α : Type} [CommRing α] (a : Nat → α) (z : α) (x : Nat → α) (t : Nat) :
    vecRec 1 (fun t _ _ => a t) (fun _ => z) (fun t _ => x t) t 0 = scalarRec a z x t := by
  induction t with
  | zero => rfl
  | succ t ih => simp [vecRec, scalarRec, ih]

theorem ltiRecurCuda_isScalarOp {α : Type} [CommRing α] {scan : Scanner (α × α)} (hscan : IsScan scan) :
    IsScalarOp (ltiRecurCuda scan) := by
  intro B N A a zi x hA
  obtain ⟨e, he, hr⟩ := ltiRecurCuda_run scan (N := N) zi x hA
  rw [hr]
  have hE : Elems pairView B (N + 1) e (fun b _ _ _ => a b) (fun b _ => zi b) (fun b t _ => x b t) := by
    have hi0 : ∀ b < B, e (b * (N + 1)) = (0, zi b) := fun b hb => he b hb 0 (by omega)
    have hi1 : ∀ b < B, ∀ t, t + 1 < N + 1 → e (b * (N + 1) + (t + 1)) = (a b, x b t) := fun b hb t ht => he b hb (t + 1) ht
    constructor
    · intro b hb i _ k _; simp only [pairView]; rw [hi0 b hb]
    · intro b hb i _; simp only [pairView]; rw [hi0 b hb]
    · intro b hb t ht i _ k _; simp only [pairView]; rw [hi1 b hb t ht]
    · intro b hb t ht i _; simp only [pairView]; rw [hi1 b hb t ht]
  refine congrArg Except.ok (t2_congr rfl rfl fun b n hb hn => ?_)
  have := keyed_state hE hscan hb (t := n + 1) (by omega) 0 (by omega)
  rw [← vecRec_one (fun _ => a b) (zi b) (x b) (n + 1)]
  exact this

theorem collect_item {β : Type} {d : β} {B T : Nat} {f : Nat → Res β} {g : Nat → Nat → β}
    (h : ∀ b < B, ∀ t < T, f (b * T + t) = .ok (g b t)) :
    ∃ e, collect d (B * T) f = .ok e ∧ ∀ b < B, ∀ t < T, e (b * T + t) = g b t := by
  obtain ⟨e, h1, h2⟩ := collect_ok (d := d) (n := B * T) (f := f) (g := fun i => g (i / T) (i % T)) (by
    intro i hi
    have hT : 0 < T := by
      rcases Nat.eq_zero_or_pos T with rfl | h
      · simp at hi
      · exact h
    have := h (i / T) (Nat.div_lt_of_lt_mul (by rw [Nat.mul_comm]; exact hi)) (i % T) (Nat.mod_lt _ hT)
    rwa [Nat.mul_comm, Nat.div_add_mod] at this)
  refine ⟨e, h1, fun b hb t ht => ?_⟩
  rw [h2 _ (flat_lt hb ht), flat_div ht, flat_mod ht]

/-- The matrix at step `t`: zero in front of the sequence. -/
def matAt (A : Nat → Nat → Nat → Nat → α) (b t i k : Nat) : α := if t < 1 then 0 else A b (t - 1) i k

/-- The element of the scan for item `b` and step `t`. -/
def sq2At (A : Nat → Nat → Nat → Nat → α) (zi : Nat → Nat → α) (x : Nat → Nat → Nat → α) (b t : Nat) : Sq2 α :=
  ⟨matAt A b t 0 0, matAt A b t 0 1, matAt A b t 1 0, matAt A b t 1 1, withState zi x b t 0, withState zi x b t 1⟩

theorem sq2_elems {α : Type} [CommRing α] {B N : Nat} {e : Nat → Sq2 α} {A : Nat → Nat → Nat → Nat → α} {zi : Nat → Nat → α}
    {x : Nat → Nat → Nat → α} (h : ∀ b < B, ∀ t < N + 1, e (b * (N + 1) + t) = sq2At A zi x b t) :
    Elems sq2View B (N + 1) e A zi x := by
  have h0 : ∀ b < B, e (b * (N + 1)) = sq2At A zi x b 0 := fun b hb => h b hb 0 (by omega)
  have two : ∀ i, i < 2 → i = 0 ∨ i = 1 := by omega
  constructor
  · intro b hb i hi k hk
    rw [h0 b hb]
    rcases two i hi with rfl | rfl <;> rcases two k hk with rfl | rfl <;> simp [sq2View, sq2At, matAt]
  · intro b hb i hi
    rw [h0 b hb]
    rcases two i hi with rfl | rfl <;> simp [sq2View, sq2At, withState]
  · intro b hb t ht i hi k hk
    rw [h b hb _ ht]
    rcases two i hi with rfl | rfl <;> rcases two k hk with rfl | rfl <;> simp [sq2View, sq2At, matAt]
  · intro b hb t ht i hi
    rw [h b hb _ ht]
    rcases two i hi with rfl | rfl <;> simp [sq2View, sq2At, withState]

omit [Add α] [Mul α] in
/-- The two rows of the transposed signal. -/
theorem zip2_item {B T : Nat} (g : Nat → Nat → Nat → α) (f : Nat → α → α → Res (Sq2 α)) {b t : Nat} (hb : b < B) (ht : t < T) :
    zip2 (t2 2 (B * T) fun k r => g (r / T) (r % T) k) (B * T) f (b * T + t) = f (b * T + t) (g b t 0) (g b t 1) := by
  have hi := flat_lt hb ht
  unfold zip2
  have e0 := data_t2 (n := 2) (m := B * T) (fun k r => g (r / T) (r % T) k) (i := 0) (by omega) hi
  have e1 := data_t2 (n := 2) (m := B * T) (fun k r => g (r / T) (r % T) k) (i := 1) (by omega) hi
  rw [Nat.zero_mul, Nat.zero_add] at e0
  rw [Nat.one_mul] at e1
  rw [load_ok (by rw [numel_t2]; omega), load_ok (by rw [numel_t2]; omega), e0, e1, flat_div ht, flat_mod ht]
  rfl

omit [Add α] [Mul α] in
theorem load_t2 (f : Nat → Nat → α) {i k : Nat} (hi : i < 2) (hk : k < 2) :
    load (data (t2 2 2 f)) (t2 2 2 f).numel (i * 2 + k) = .ok (f i k) := by
  rw [load_ok (by rw [numel_t2]; omega), data_t2 f hi hk]

omit [Add α] [Mul α] in
theorem load_t3 {B : Nat} (f : Nat → Nat → Nat → α) {b i k : Nat} (hb : b < B) (hi : i < 2) (hk : k < 2) :
    load (data (t3 B 2 2 f)) (t3 B 2 2 f).numel (b * 4 + i * 2 + k) = .ok (f b i k) := by
  rw [load_ok (by rw [numel_t3]; omega)]
  have := data_t3 f hb hi hk
  rw [show b * 2 * 2 = b * 4 by omega] at this
  rw [this]

/-- The CUDA op returns the vectors of the scan, in any arithmetic. -/
theorem ltiRecur2Cuda_run (scan : Scanner (Sq2 α)) {B N : Nat} {A : Tensor α} {a : Nat → Nat → Nat → α}
    (zi : Nat → Nat → α) (x : Nat → Nat → Nat → α) (hA : MatVals B 2 2 A a) :
    ∃ e : Nat → Sq2 α, (∀ b < B, ∀ t < N + 1, e (b * (N + 1) + t) = sq2At (fun b _ => a b) zi x b t) ∧
      ltiRecur2Cuda scan A (t2 B 2 zi) (t3 B N 2 x) =
        .ok (t3 B N 2 fun b n => sq2Vec (scan recur2Op (index2key (N + 1)) (B * (N + 1)) e (b * (N + 1) + (n + 1)))) := by
  have hr : A.rank = 2 ∨ A.rank = 3 := by cases hA <;> simp [rank_t2, rank_t3]
  have hs : A.size (-1) = 2 ∧ A.size (-2) = 2 := by
    cases hA
    · exact ⟨size_t2_n1 _ _ _, size_t2_n2 _ _ _⟩
    · exact ⟨size_t3_n1 _ _ _ _, size_t3_n2 _ _ _ _⟩
  unfold ltiRecur2Cuda
  refine check_stepE hr ?_
  refine check_stepE (by rw [rank_t3]) ?_
  refine check_stepE (size_t3_2 _ _ _ _) ?_
  refine check_stepE hs ?_
  simp only [size_t3_0, size_t3_1]
  refine bind_stepE (unsqueeze_t2_1 _ _ _) ?_
  refine bind_stepE (cat2_t3_1 _ _ _ _ _ _) ?_
  rw [Nat.add_comm 1 N]
  refine bind_stepE (viewRows_3 B (N + 1) 2 (by omega) (withState zi x)) ?_
  refine bind_stepE (transpose_t2_0_1 _ _ _) ?_
  rw [size_t2_0]
  have hfin : ∀ e : Nat → Sq2 α,
      unpack2 (B * (N + 1)) (B * (N + 1)) B (N + 1) (scan recur2Op (index2key (N + 1)) (B * (N + 1)) e) =
        .ok (t3 B N 2 fun b n => sq2Vec (scan recur2Op (index2key (N + 1)) (B * (N + 1)) e (b * (N + 1) + (n + 1)))) :=
    fun e => unpack2_eq B N _ _ fun _ _ _ _ _ _ => rfl
  cases hA with
  | shared f =>
    rw [if_neg (by rw [rank_t2]; decide)]
    obtain ⟨e, he1, he2⟩ := collect_item (d := (Sq2.zero : Sq2 α)) (B := B) (T := N + 1)
      (f := zip2 (t2 2 (B * (N + 1)) fun k r => withState zi x (r / (N + 1)) (r % (N + 1)) k) (B * (N + 1))
        (ltiShareAInput (load (data (t2 2 2 f)) (t2 2 2 f).numel) (N + 1)))
      (g := sq2At (fun _ _ => f) zi x) (by
        intro b hb t ht
        rw [zip2_item (withState zi x) _ hb ht]
        unfold ltiShareAInput
        rw [flat_mod ht]
        split
        · rename_i h
          refine bind_step (load_t2 f (i := 0) (k := 0) (by omega) (by omega)) ?_
          refine bind_step (load_t2 f (i := 0) (k := 1) (by omega) (by omega)) ?_
          refine bind_step (load_t2 f (i := 1) (k := 0) (by omega) (by omega)) ?_
          refine bind_step (load_t2 f (i := 1) (k := 1) (by omega) (by omega)) ?_
          simp only [sq2At, matAt, if_neg (show ¬ t < 1 by omega)]; rfl
        · rename_i h
          simp only [sq2At, matAt, if_pos (show t < 1 by omega)]; rfl)
    exact ⟨e, he2, bind_step he1 (hfin e)⟩
  | batched =>
    rw [if_pos (rank_t3 _ _ _ _)]
    obtain ⟨e, he1, he2⟩ := collect_item (d := (Sq2.zero : Sq2 α)) (B := B) (T := N + 1)
      (f := zip2 (t2 2 (B * (N + 1)) fun k r => withState zi x (r / (N + 1)) (r % (N + 1)) k) (B * (N + 1))
        (ltiBatchAInput (load (data (t3 B 2 2 a)) (t3 B 2 2 a).numel) (N + 1)))
      (g := sq2At (fun b _ => a b) zi x) (by
        intro b hb t ht
        rw [zip2_item (withState zi x) _ hb ht]
        unfold ltiBatchAInput
        rw [flat_mod ht]
        split
        · rename_i h
          rw [flat_div ht]
          refine bind_step (load_t3 a hb (i := 0) (k := 0) (by omega) (by omega)) ?_
          refine bind_step (load_t3 a hb (i := 0) (k := 1) (by omega) (by omega)) ?_
          refine bind_step (load_t3 a hb (i := 1) (k := 0) (by omega) (by omega)) ?_
          refine bind_step (load_t3 a hb (i := 1) (k := 1) (by omega) (by omega)) ?_
          simp only [sq2At, matAt, if_neg (show ¬ t < 1 by omega)]; rfl
        · rename_i h
          simp only [sq2At, matAt, if_pos (show t < 1 by omega)]; rfl)
    exact ⟨e, he2, bind_step he1 (hfin e)⟩

theorem ltiRecur2Cuda_isMatrixOp {α : Type} [CommRing α] {scan : Scanner (Sq2 α)} (hscan : IsScan scan) :
    IsMatrixOp 2 (ltiRecur2Cuda scan) := by
  intro B N A a zi x hA
  obtain ⟨e, he, hr⟩ := ltiRecur2Cuda_run scan (N := N) zi x hA
  rw [hr]
  refine congrArg Except.ok (t3_congr rfl rfl rfl fun b n i hb hn hi => ?_)
  exact keyed_state (sq2_elems he) hscan hb (t := n + 1) (by omega) i hi

omit [Add α] [Mul α] in
theorem load_col {n : Nat} (f : Nat → Nat → α) {k r : Nat} (hk : k < 4) (hr : r < n) :
    load (data (t2 4 n f)) (t2 4 n f).numel (n * k + r) = .ok (f k r) := by
  have := flat_lt hk hr
  rw [Nat.mul_comm n k, load_ok (by rw [numel_t2]; exact this), data_t2 f hk hr]

/-- The CUDA op returns the vectors of the scan, in any arithmetic. -/
theorem recur2Cuda_run (scan : Scanner (Sq2 α)) {B N : Nat} {A : Tensor α} {a : Nat → Nat → Nat → Nat → α}
    (zi : Nat → Nat → α) (x : Nat → Nat → Nat → α) (hA : MatSeq B N 2 2 A a) :
    ∃ e : Nat → Sq2 α, (∀ b < B, ∀ t < N + 1, e (b * (N + 1) + t) = sq2At a zi x b t) ∧
      recur2Cuda scan A (t2 B 2 zi) (t3 B N 2 x) =
        .ok (t3 B N 2 fun b n => sq2Vec (scan recur2Op (index2key (N + 1)) (B * (N + 1)) e (b * (N + 1) + (n + 1)))) := by
  have hr : A.rank = 3 ∨ A.rank = 4 := by cases hA <;> simp [rank_t3, rank_t4]
  have hs : A.size (-1) = 2 ∧ A.size (-2) = 2 := by
    cases hA
    · exact ⟨size_t3_n1 _ _ _ _, size_t3_n2 _ _ _ _⟩
    · exact ⟨size_t4_n1 _ _ _ _ _, size_t4_n2 _ _ _ _ _⟩
  unfold recur2Cuda
  refine check_stepE hr ?_
  refine check_stepE (by rw [rank_t3]) ?_
  refine check_stepE (size_t3_2 _ _ _ _) ?_
  refine check_stepE hs ?_
  simp only [size_t3_0, size_t3_1]
  have hfin : ∀ e : Nat → Sq2 α,
      unpack2 (B * (N + 1)) (B * (N + 1)) B (N + 1) (scan recur2Op (index2key (N + 1)) (B * (N + 1)) e) =
        .ok (t3 B N 2 fun b n => sq2Vec (scan recur2Op (index2key (N + 1)) (B * (N + 1)) e (b * (N + 1) + (n + 1)))) :=
    fun e => unpack2_eq B N _ _ fun _ _ _ _ _ _ => rfl
  cases hA with
  | shared f =>
    refine bind_stepE (padDim_t3_n3_left _ _ _ _ _ _) ?_
    refine bind_stepE (viewRows_22 (N + 1) (matAt (fun _ => f) 0)) ?_
    refine bind_stepE (transpose_t2_0_1 _ _ _) ?_
    refine bind_stepE (unsqueeze_t2_1 _ _ _) ?_
    refine bind_stepE (cat2_t3_1 _ _ _ _ _ _) ?_
    rw [Nat.add_comm 1 N]
    refine bind_stepE (viewRows_3 B (N + 1) 2 (by omega) (withState zi x)) ?_
    refine bind_stepE (transpose_t2_0_1 _ _ _) ?_
    rw [size_t2_0, if_neg (by rw [rank_t3]; decide)]
    set F : Nat → Nat → α := fun i j => matAt (fun _ => f) 0 j (i / 2) (i % 2) with hF
    obtain ⟨e, he1, he2⟩ := collect_item (d := (Sq2.zero : Sq2 α)) (B := B) (T := N + 1)
      (f := zip2 (t2 2 (B * (N + 1)) fun k r => withState zi x (r / (N + 1)) (r % (N + 1)) k) (B * (N + 1))
        (shareAInput (load (data (t2 4 (N + 1) F)) (t2 4 (N + 1) F).numel) (N + 1)))
      (g := sq2At (fun _ => f) zi x) (by
        intro b hb t ht
        rw [zip2_item (withState zi x) _ hb ht]
        unfold shareAInput
        rw [flat_mod ht]
        have l0 := load_col F (k := 0) (by omega) ht
        have l1 := load_col F (k := 1) (by omega) ht
        have l2 := load_col F (k := 2) (by omega) ht
        have l3 := load_col F (k := 3) (by omega) ht
        rw [Nat.add_comm _ t] at l0 l1 l2 l3
        refine bind_step l0 ?_
        rw [Nat.mul_one] at l1
        refine bind_step l1 ?_
        refine bind_step l2 ?_
        refine bind_step l3 ?_
        rfl)
    exact ⟨e, he2, bind_step he1 (hfin e)⟩
  | batched =>
    refine bind_stepE (padDim_t4_n3_left _ _ _ _ _ _ _) ?_
    refine bind_stepE (viewRows_b22 B (N + 1) (matAt a)) ?_
    refine bind_stepE (transpose_t2_0_1 _ _ _) ?_
    refine bind_stepE (unsqueeze_t2_1 _ _ _) ?_
    refine bind_stepE (cat2_t3_1 _ _ _ _ _ _) ?_
    rw [Nat.add_comm 1 N]
    refine bind_stepE (viewRows_3 B (N + 1) 2 (by omega) (withState zi x)) ?_
    refine bind_stepE (transpose_t2_0_1 _ _ _) ?_
    rw [size_t2_0, if_pos (rank_t4 _ _ _ _ _)]
    set F : Nat → Nat → α := fun i j => matAt a (j / (N + 1)) (j % (N + 1)) (i / 2) (i % 2) with hF
    obtain ⟨e, he1, he2⟩ := collect_item (d := (Sq2.zero : Sq2 α)) (B := B) (T := N + 1)
      (f := zip2 (t2 2 (B * (N + 1)) fun k r => withState zi x (r / (N + 1)) (r % (N + 1)) k) (B * (N + 1))
        (batchAInput (load (data (t2 4 (B * (N + 1)) F)) (t2 4 (B * (N + 1)) F).numel) (B * (N + 1))))
      (g := sq2At a zi x) (by
        intro b hb t ht
        rw [zip2_item (withState zi x) _ hb ht]
        have hi := flat_lt hb ht
        have hv : ∀ k, F k (b * (N + 1) + t) = matAt a b t (k / 2) (k % 2) := by
          intro k; simp only [hF, flat_div ht, flat_mod ht]
        unfold batchAInput
        have l0 := load_col F (k := 0) (by omega) hi
        have l1 := load_col F (k := 1) (by omega) hi
        have l2 := load_col F (k := 2) (by omega) hi
        have l3 := load_col F (k := 3) (by omega) hi
        rw [hv] at l0 l1 l2 l3
        rw [Nat.mul_zero, Nat.zero_add] at l0
        rw [Nat.mul_one] at l1
        refine bind_step l0 ?_
        refine bind_step l1 ?_
        refine bind_step l2 ?_
        refine bind_step l3 ?_
        rfl)
    exact ⟨e, he2, bind_step he1 (hfin e)⟩

theorem recur2Cuda_isVaryingOp {α : Type} [CommRing α] {scan : Scanner (Sq2 α)} (hscan : IsScan scan) :
    IsVaryingOp 2 (recur2Cuda scan) := by
  intro B N A a zi x hA
  obtain ⟨e, he, hr⟩ := recur2Cuda_run scan (N := N) zi x hA
  rw [hr]
  refine congrArg Except.ok (t3_congr rfl rfl rfl fun b n i hb hn hi => ?_)
  exact keyed_state (sq2_elems he) hscan hb (t := n + 1) (by omega) i hi

end Phil.Cuda

namespace Phil.Cuda
open Torch Torch.Tensor Scan Spec Phil.Host

variable {α : Type} [CommRing α]

theorem load_t4 {B T : Nat} (f : Nat → Nat → Nat → Nat → α) {b t i k : Nat} (hb : b < B) (ht : t < T) (hi : i < 2) (hk : k < 2) :
    load (data (t4 B T 2 2 f)) (t4 B T 2 2 f).numel ((b * T + t) * 4 + i * 2 + k) = .ok (f b t i k) := by
  have h := flat_lt hb ht
  rw [load_ok (by rw [numel_t4]; omega)]
  have := data_t4 f hb ht hi hk
  rw [show b * T * 2 * 2 + t * 2 * 2 = (b * T + t) * 4 by omega] at this
  rw [this]

theorem load_sig {B T : Nat} (g : Nat → Nat → Nat → α) {b t k : Nat} (hb : b < B) (ht : t < T) (hk : k < 2) :
    load (data (t3 B T 2 g)) (t3 B T 2 g).numel ((b * T + t) * 2 + k) = .ok (g b t k) := by
  have h := flat_lt hb ht
  rw [load_ok (by rw [numel_t3]; omega)]
  have := data_t3 g hb ht hk
  rw [show b * T * 2 + t * 2 = (b * T + t) * 2 by omega] at this
  rw [this]

theorem recur2HostScan_isVaryingOp {scan : Scanner (Sq2 α)} (hscan : IsScan scan) : IsVaryingOp 2 (recur2HostScan scan) := by
  intro B N A a zi x hA
  have hr : A.rank = 3 ∨ A.rank = 4 := by cases hA <;> simp [rank_t3, rank_t4]
  have hs : A.size (-1) = 2 ∧ A.size (-2) = 2 := by
    cases hA
    · exact ⟨size_t3_n1 _ _ _ _, size_t3_n2 _ _ _ _⟩
    · exact ⟨size_t4_n1 _ _ _ _ _, size_t4_n2 _ _ _ _ _⟩
  unfold recur2HostScan
  refine check_step hr ?_
  refine check_step (by rw [rank_t3]) ?_
  refine check_step (size_t3_2 _ _ _ _) ?_
  refine check_step hs ?_
  simp only [size_t3_0, size_t3_1]
  have hfin : ∀ e : Nat → Sq2 α, (∀ b < B, ∀ t < N + 1, e (b * (N + 1) + t) = sq2At a zi x b t) →
      (do
        check ((ofData (t3 B (N + 1) 2 (withState zi x)).shape fun j =>
          if j % 2 = 0 then (scan recur2Op oneKey ((N + 1) * B) e (j / 2)).e
          else (scan recur2Op oneKey ((N + 1) * B) e (j / 2)).f).numel = B * (N + 1) * 2) "RuntimeError: shape is invalid for input"
        slice (ofData [B, N + 1, 2] (data (ofData (t3 B (N + 1) 2 (withState zi x)).shape fun j =>
          if j % 2 = 0 then (scan recur2Op oneKey ((N + 1) * B) e (j / 2)).e
          else (scan recur2Op oneKey ((N + 1) * B) e (j / 2)).f))) 1 (some 1) (some ((N + 1 : Nat) : Int))) =
        .ok (t3 B N 2 fun b n i => vecRec 2 (a b) (zi b) (x b) (n + 1) i) := by
    intro e he
    rw [shape_t3, ofData_t3, ofData_t3]
    refine check_step (by rw [numel_t3]) ?_
    rw [drop_first_t3]
    refine congrArg Except.ok (t3_congr rfl rfl rfl fun b n i hb hn hi => ?_)
    rw [data_t3 _ hb (by omega) hi,
      show b * (N + 1) * 2 + (n + 1) * 2 + i = (b * (N + 1) + (n + 1)) * 2 + i by ring, flat_div hi, flat_mod hi]
    rw [← flat_state (sq2_elems he) hscan hb (t := n + 1) (by omega) i hi]
    rfl
  cases hA with
  | shared f =>
    refine bind_step (padDim_t3_n3_left _ _ _ _ _ _) ?_
    refine bind_step (unsqueeze_t2_1 _ _ _) ?_
    refine bind_step (cat2_t3_1 _ _ _ _ _ _) ?_
    rw [Nat.add_comm 1 N, if_neg (by rw [rank_t3]; decide)]
    obtain ⟨e, he1, he2⟩ := collect_item (d := (Sq2.zero : Sq2 α)) (B := B) (T := N + 1)
      (f := fun i => hostElem2 (load (data (t3 (N + 1) 2 2 (matAt (fun _ => f) 0))) (t3 (N + 1) 2 2 (matAt (fun _ => f) 0)).numel)
        (load (data (t3 B (N + 1) 2 (withState zi x))) (t3 B (N + 1) 2 (withState zi x)).numel) (i % (N + 1) * 4) i)
      (g := sq2At (fun _ => f) zi x) (by
        intro b hb t ht
        unfold hostElem2
        rw [flat_mod ht]
        refine bind_step (load_t3 _ ht (i := 0) (k := 0) (by omega) (by omega)) ?_
        refine bind_step (load_t3 _ ht (i := 0) (k := 1) (by omega) (by omega)) ?_
        refine bind_step (load_t3 _ ht (i := 1) (k := 0) (by omega) (by omega)) ?_
        refine bind_step (load_t3 _ ht (i := 1) (k := 1) (by omega) (by omega)) ?_
        refine bind_step (load_sig _ hb ht (k := 0) (by omega)) ?_
        refine bind_step (load_sig _ hb ht (k := 1) (by omega)) ?_
        rfl)
    refine bind_step (v := e) ?_ (hfin e he2)
    rw [Nat.mul_comm (N + 1) B]
    exact he1
  | batched =>
    refine bind_step (padDim_t4_n3_left _ _ _ _ _ _ _) ?_
    refine bind_step (unsqueeze_t2_1 _ _ _) ?_
    refine bind_step (cat2_t3_1 _ _ _ _ _ _) ?_
    rw [Nat.add_comm 1 N, if_pos (rank_t4 _ _ _ _ _)]
    obtain ⟨e, he1, he2⟩ := collect_item (d := (Sq2.zero : Sq2 α)) (B := B) (T := N + 1)
      (f := fun i => hostElem2 (load (data (t4 B (N + 1) 2 2 (matAt a))) (t4 B (N + 1) 2 2 (matAt a)).numel)
        (load (data (t3 B (N + 1) 2 (withState zi x))) (t3 B (N + 1) 2 (withState zi x)).numel) (i * 4) i)
      (g := sq2At a zi x) (by
        intro b hb t ht
        unfold hostElem2
        refine bind_step (load_t4 _ hb ht (i := 0) (k := 0) (by omega) (by omega)) ?_
        refine bind_step (load_t4 _ hb ht (i := 0) (k := 1) (by omega) (by omega)) ?_
        refine bind_step (load_t4 _ hb ht (i := 1) (k := 0) (by omega) (by omega)) ?_
        refine bind_step (load_t4 _ hb ht (i := 1) (k := 1) (by omega) (by omega)) ?_
        refine bind_step (load_sig _ hb ht (k := 0) (by omega)) ?_
        refine bind_step (load_sig _ hb ht (k := 1) (by omega)) ?_
        rfl)
    refine bind_step (v := e) ?_ (hfin e he2)
    rw [Nat.mul_comm (N + 1) B]
    exact he1

/-- The array of the scan for item `b` and step `t`. -/
theorem array_elems {M B N : Nat} {e : Nat → Nat → α} {A : Nat → Nat → Nat → Nat → α} {zi : Nat → Nat → α}
    {x : Nat → Nat → Nat → α}
    (hm : ∀ b < B, ∀ t < N + 1, ∀ i < M, ∀ k < M, e (b * (N + 1) + t) (i * M + k) = matAt A b t i k)
    (hv : ∀ b < B, ∀ t < N + 1, ∀ i < M, e (b * (N + 1) + t) (M * M + i) = withState zi x b t i) :
    Elems (arrayView M) B (N + 1) e A zi x := by
  constructor
  · intro b hb i hi k hk
    exact hm b hb 0 (by omega) i hi k hk
  · intro b hb i hi
    exact hv b hb 0 (by omega) i hi
  · intro b hb t ht i hi k hk
    exact hm b hb _ ht i hi k hk
  · intro b hb t ht i hi
    exact hv b hb _ ht i hi

theorem recurNHostScan_isVaryingOp {scan : Scanner (Nat → α)} (hscan : IsScan scan) (M : Nat) :
    IsVaryingOp M (recurNHostScan scan) := by
  intro B N A a zi x hA
  have hr : A.rank = 3 ∨ A.rank = 4 := by cases hA <;> simp [rank_t3, rank_t4]
  have hs : A.size (-1) = M ∧ A.size (-2) = M := by
    cases hA
    · exact ⟨size_t3_n1 _ _ _ _, size_t3_n2 _ _ _ _⟩
    · exact ⟨size_t4_n1 _ _ _ _ _, size_t4_n2 _ _ _ _ _⟩
  unfold recurNHostScan
  refine check_step hr ?_
  refine check_step (by rw [rank_t3]) ?_
  refine check_step (by rw [size_t3_2, hs.1]) ?_
  refine check_step (by rw [hs.1, hs.2]) ?_
  simp only [size_t3_0, size_t3_1, hs.1]
  have hfin : ∀ e : Nat → Nat → α,
      (∀ b < B, ∀ t < N + 1, ∀ i < M, ∀ k < M, e (b * (N + 1) + t) (i * M + k) = matAt a b t i k) →
      (∀ b < B, ∀ t < N + 1, ∀ i < M, e (b * (N + 1) + t) (M * M + i) = withState zi x b t i) →
      slice (ofData (t3 B (N + 1) M (withState zi x)).shape fun j =>
          scan (recurNOp M) oneKey ((N + 1) * B) e (j / M) (M * M + j % M)) 1 (some 1) (some ((N + 1 : Nat) : Int)) =
        .ok (t3 B N M fun b n i => vecRec M (a b) (zi b) (x b) (n + 1) i) := by
    intro e hm hv
    rw [shape_t3, ofData_t3, drop_first_t3]
    refine congrArg Except.ok (t3_congr rfl rfl rfl fun b n i hb hn hi => ?_)
    rw [show b * (N + 1) * M + (n + 1) * M + i = (b * (N + 1) + (n + 1)) * M + i by ring, flat_div hi, flat_mod hi]
    exact flat_state (array_elems hm hv) hscan hb (t := n + 1) (by omega) i hi
  cases hA with
  | shared f =>
    refine bind_step (padDim_t3_n3_left _ _ _ _ _ _) ?_
    refine bind_step (unsqueeze_t2_1 _ _ _) ?_
    refine bind_step (cat2_t3_1 _ _ _ _ _ _) ?_
    rw [Nat.add_comm 1 N, if_neg (by rw [rank_t3]; decide)]
    set G := matAt (fun _ => f) 0 with hG
    set X := withState zi x with hX
    have hc : ∀ b < B, ∀ t < N + 1, (do
          let m ← copyFrom (data (t3 (N + 1) M M G)) (t3 (N + 1) M M G).numel ((b * (N + 1) + t) % (N + 1) * (M * M)) (M * M)
          let v ← copyFrom (data (t3 B (N + 1) M X)) (t3 B (N + 1) M X).numel ((b * (N + 1) + t) * M) M
          return fun k => if k < M * M then m k else v (k - M * M)) =
        (.ok fun k => if k < M * M then (if k < M * M then data (t3 (N + 1) M M G) (t * (M * M) + k) else 0)
          else (if k - M * M < M then data (t3 B (N + 1) M X) ((b * (N + 1) + t) * M + (k - M * M)) else 0) : Res (Nat → α)) := by
      intro b hb t ht
      rw [flat_mod ht]
      refine bind_step (if_pos ?_) (bind_step (if_pos ?_) rfl)
      · rw [numel_t3, Nat.mul_assoc]
        calc t * (M * M) + M * M = (t + 1) * (M * M) := by ring
          _ ≤ _ := Nat.mul_le_mul_right _ ht
      · rw [numel_t3]
        calc (b * (N + 1) + t) * M + M = (b * (N + 1) + t + 1) * M := by ring
          _ ≤ _ := Nat.mul_le_mul_right _ (flat_lt hb ht)
    obtain ⟨e, he1, he2⟩ := collect_item (d := (fun _ => 0 : Nat → α)) (B := B) (T := N + 1)
      (f := fun i => do
          let m ← copyFrom (data (t3 (N + 1) M M G)) (t3 (N + 1) M M G).numel (i % (N + 1) * (M * M)) (M * M)
          let v ← copyFrom (data (t3 B (N + 1) M X)) (t3 B (N + 1) M X).numel (i * M) M
          return fun k => if k < M * M then m k else v (k - M * M)) hc
    refine bind_step (v := e) ?_ (hfin e ?_ ?_)
    · rw [Nat.mul_comm (N + 1) B]; exact he1
    · intro b hb t ht i hi k hk
      have hl := flat_lt hi hk
      rw [he2 b hb t ht]
      simp only [if_pos hl]
      have := data_t3 G ht hi hk
      rw [show t * M * M + i * M + k = t * (M * M) + (i * M + k) by ring] at this
      rw [this]; rfl
    · intro b hb t ht i hi
      rw [he2 b hb t ht]
      simp only [if_neg (show ¬ M * M + i < M * M by omega), Nat.add_sub_cancel_left, if_pos hi]
      have := data_t3 X hb ht hi
      rw [show b * (N + 1) * M + t * M + i = (b * (N + 1) + t) * M + i by ring] at this
      rw [this]
  | batched =>
    refine bind_step (padDim_t4_n3_left _ _ _ _ _ _ _) ?_
    refine bind_step (unsqueeze_t2_1 _ _ _) ?_
    refine bind_step (cat2_t3_1 _ _ _ _ _ _) ?_
    rw [Nat.add_comm 1 N, if_pos (rank_t4 _ _ _ _ _)]
    set G : Nat → Nat → Nat → Nat → α := fun b t i k => if i < M then matAt a b t i k else withState zi x b t k with hG
    have hAx : (do
          let xu ← unsqueeze (t3 B (N + 1) M (withState zi x)) (-2)
          let Ax ← cat2 (t4 B (N + 1) M M (matAt a)) xu (-2)
          collect (fun _ => 0) ((N + 1) * B) fun i =>
            copyFrom (data Ax) Ax.numel (i * (M * M + M)) (M * M + M)) =
        (collect (fun _ => 0) ((N + 1) * B) fun i =>
            copyFrom (data (t4 B (N + 1) (M + 1) M G)) (t4 B (N + 1) (M + 1) M G).numel (i * (M * M + M)) (M * M + M) :
          Res (Nat → Nat → α)) :=
      bind_step (unsqueeze_t3_n2 _ _ _ _) (bind_step (cat2_t4_n2 _ _ _ _ _ _ _) rfl)
    have hc : ∀ b < B, ∀ t < N + 1,
        copyFrom (data (t4 B (N + 1) (M + 1) M G)) (t4 B (N + 1) (M + 1) M G).numel ((b * (N + 1) + t) * (M * M + M)) (M * M + M) =
        (.ok fun k => if k < M * M + M then data (t4 B (N + 1) (M + 1) M G) ((b * (N + 1) + t) * (M * M + M) + k) else 0) := by
      intro b hb t ht
      refine if_pos ?_
      rw [numel_t4]
      calc (b * (N + 1) + t) * (M * M + M) + (M * M + M) = (b * (N + 1) + t + 1) * ((M + 1) * M) := by ring
        _ ≤ B * (N + 1) * ((M + 1) * M) := Nat.mul_le_mul_right _ (flat_lt hb ht)
        _ = _ := by ring
    obtain ⟨e, he1, he2⟩ := collect_item (d := (fun _ => 0 : Nat → α)) (B := B) (T := N + 1)
      (f := fun i => copyFrom (data (t4 B (N + 1) (M + 1) M G)) (t4 B (N + 1) (M + 1) M G).numel (i * (M * M + M)) (M * M + M)) hc
    refine bind_step (v := e) ?_ (hfin e ?_ ?_)
    · refine hAx.trans ?_
      rw [Nat.mul_comm (N + 1) B]; exact he1
    · intro b hb t ht i hi k hk
      have hl := flat_lt hi hk
      rw [he2 b hb t ht]
      simp only [if_pos (show i * M + k < M * M + M by omega)]
      have := data_t4 G hb ht (show i < M + 1 by omega) hk
      rw [show b * (N + 1) * (M + 1) * M + t * (M + 1) * M + i * M + k = (b * (N + 1) + t) * (M * M + M) + (i * M + k) by ring] at this
      rw [this]
      simp only [hG, if_pos hi]
    · intro b hb t ht i hi
      rw [he2 b hb t ht]
      simp only [if_pos (show M * M + i < M * M + M by omega)]
      have := data_t4 G hb ht (show M < M + 1 by omega) hi
      rw [show b * (N + 1) * (M + 1) * M + t * (M + 1) * M + M * M + i = (b * (N + 1) + t) * (M * M + M) + (M * M + i) by ring] at this
      rw [this]
      simp only [hG, if_neg (show ¬ M < M by omega)]

end Phil.Cuda
