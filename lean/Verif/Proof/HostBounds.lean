import Verif.Proof.HostKernels

/-! # Which inputs make the compiled CPU kernels leave their buffers -/

namespace Omp
open Torch
variable {ρ α : Type}

/-- The kernel accessed memory outside of its buffers. -/
def OutOfBounds {β : Type} (r : Res β) : Prop :=
  r = .error "read outside of A" ∨ r = .error "read outside of out" ∨ r = .error "write outside of out"

theorem oob_ok {β : Type} (v : β) : ¬ OutOfBounds (.ok v : Res β) := by
  rintro (h | h | h) <;> cases h

theorem oob_error {β : Type} {e : String} (h : e ≠ "read outside of A") (h' : e ≠ "read outside of out")
    (h'' : e ≠ "write outside of out") : ¬ OutOfBounds (.error e : Res β) := by
  rintro (he | he | he) <;> injection he <;> contradiction

theorem oob_bind {β γ : Type} {x : Res β} {f : β → Res γ} (h : ¬ OutOfBounds x) (h' : ∀ v, x = .ok v → ¬ OutOfBounds (f v)) :
    ¬ OutOfBounds (x >>= f) := by
  cases x with
  | ok v => exact h' v rfl
  | error e => exact fun hc => h (by rcases hc with hc | hc | hc <;> injection hc <;> subst_vars <;> simp [OutOfBounds])

theorem oob_left {β γ : Type} {x : Res β} {f : β → Res γ} (h : OutOfBounds x) : OutOfBounds (x >>= f) := by
  rcases h with rfl | rfl | rfl
  · exact .inl rfl
  · exact .inr (.inl rfl)
  · exact .inr (.inr rfl)

theorem oob_check {c : Prop} [Decidable c] {e : String} (h : e ≠ "read outside of A") (h' : e ≠ "read outside of out")
    (h'' : e ≠ "write outside of out") : ¬ OutOfBounds (check c e) := by
  unfold check
  split
  · exact oob_ok _
  · exact oob_error h h' h''

theorem stepAct_cases (B : Bufs α) (a : Act ρ α) (s : (Nat → α) × ρ) :
    (a.inside B ∧ ∃ s', stepAct B a s = .ok s') ∨ (¬ a.inside B ∧ OutOfBounds (stepAct B a s)) := by
  obtain ⟨m, r⟩ := s
  cases a with
  | readC i f =>
    simp only [stepAct, Act.inside]
    split
    · exact .inl ⟨by assumption, _, rfl⟩
    · exact .inr ⟨by assumption, .inl rfl⟩
  | read i f =>
    simp only [stepAct, Act.inside]
    split
    · exact .inl ⟨by assumption, _, rfl⟩
    · exact .inr ⟨by assumption, .inr (.inl rfl)⟩
  | write i f =>
    simp only [stepAct, Act.inside]
    split
    · exact .inl ⟨by assumption, _, rfl⟩
    · exact .inr ⟨by assumption, .inr (.inr rfl)⟩
  | compute f => exact .inl ⟨trivial, _, rfl⟩

theorem run_cases (B : Bufs α) (s : List (Nat × Act ρ α)) (st : (Nat → α) × (Nat → ρ)) :
    ((∀ x ∈ s, x.2.inside B) ∧ ∃ st', run B s st = .ok st') ∨ ((∃ x ∈ s, ¬ x.2.inside B) ∧ OutOfBounds (run B s st)) := by
  induction s generalizing st with
  | nil => exact .inl ⟨by simp, _, rfl⟩
  | cons x s ih =>
    obtain ⟨b, a⟩ := x
    obtain ⟨m, r⟩ := st
    simp only [run]
    rcases stepAct_cases B a (m, r b) with ⟨h1, s', h2⟩ | ⟨h1, h2⟩
    · rw [h2, ok_bind]
      rcases ih (s'.1, Function.update r b s'.2) with ⟨h3, h4⟩ | ⟨⟨x, hx, h3⟩, h4⟩
      · refine .inl ⟨?_, h4⟩
        intro x hx
        rcases List.mem_cons.1 hx with rfl | hx
        · exact h1
        · exact h3 x hx
      · exact .inr ⟨⟨x, by simp [hx], h3⟩, h4⟩
    · exact .inr ⟨⟨(b, a), by simp, h1⟩, oob_left h2⟩

/-- The parallel loop leaves its buffers exactly if some step of some iteration is outside, whatever the schedule. -/
theorem parallelFor_cases {sch : Scheduler ρ α} (hsch : IsScheduler sch) (B : Bufs α) (r0 : ρ) (n : Nat)
    (p : Nat → List (Act ρ α)) (out : Nat → α) :
    ((∀ b, b < n → ∀ a ∈ p b, a.inside B) ∧ ∃ m, parallelFor sch B r0 n p out = .ok m) ∨
      ((∃ b, b < n ∧ ∃ a ∈ p b, ¬ a.inside B) ∧ OutOfBounds (parallelFor sch B r0 n p out)) := by
  unfold parallelFor
  rcases run_cases B (sch n p) (out, fun _ => r0) with ⟨h1, st, h2⟩ | ⟨⟨⟨b, a⟩, hx, h1⟩, h2⟩
  · refine .inl ⟨fun b hb a ha => ?_, st.1, by rw [h2, ok_bind]; rfl⟩
    exact h1 (b, a) (mem_of_interleaves (hsch n p) b a (by unfold iters; rw [if_pos hb]; exact ha))
  · refine .inr ⟨?_, oob_left h2⟩
    have := interleaves_mem (hsch n p) b a hx
    unfold iters at this
    split at this
    · exact ⟨b, by assumption, a, this, h1⟩
    · cases this

theorem parallelFor_not_oob {sch : Scheduler ρ α} (hsch : IsScheduler sch) {B : Bufs α} {r0 : ρ} {n : Nat}
    {p : Nat → List (Act ρ α)} {out : Nat → α} (h : ∀ b, b < n → ∀ a ∈ p b, a.inside B) :
    ¬ OutOfBounds (parallelFor sch B r0 n p out) := by
  rcases parallelFor_cases hsch B r0 n p out with ⟨-, m, h2⟩ | ⟨⟨b, hb, a, ha, hn⟩, -⟩
  · rw [h2]; exact oob_ok _
  · exact absurd (h b hb a ha) hn

theorem parallelFor_oob {sch : Scheduler ρ α} (hsch : IsScheduler sch) {B : Bufs α} {r0 : ρ} {n b : Nat}
    {p : Nat → List (Act ρ α)} {out : Nat → α} (hb : b < n) {a : Act ρ α} (ha : a ∈ p b) (h : ¬ a.inside B) :
    OutOfBounds (parallelFor sch B r0 n p out) := by
  rcases parallelFor_cases hsch B r0 n p out with ⟨h1, -⟩ | ⟨-, h2⟩
  · exact absurd (h1 b hb a ha) h
  · exact h2

end Omp

namespace Torch.Tensor
open Omp
variable {α : Type} [Zero α]

theorem oob_wrapDim (r : Nat) (d : Int) : ¬ OutOfBounds (wrapDim r d) := by
  unfold wrapDim
  split
  · exact oob_ok _
  · split
    · exact oob_ok _
    · exact oob_error (by decide) (by decide) (by decide)

theorem oob_unsqueeze (x : Tensor α) (d : Int) : ¬ OutOfBounds (unsqueeze x d) :=
  oob_bind (oob_wrapDim _ _) fun _ _ => oob_ok _

theorem oob_slice (x : Tensor α) (d : Int) (s e : Option Int) : ¬ OutOfBounds (slice x d s e) :=
  oob_bind (oob_wrapDim _ _) fun _ _ => oob_ok _

theorem oob_padDim (x : Tensor α) (d : Int) (l r : Int) (v : α) : ¬ OutOfBounds (padDim x d l r v) :=
  oob_bind (oob_wrapDim _ _) fun _ _ => oob_bind (oob_check (by decide) (by decide) (by decide)) fun _ _ => oob_ok _

theorem oob_cat2 (x y : Tensor α) (d : Int) : ¬ OutOfBounds (cat2 x y d) :=
  oob_bind (oob_wrapDim _ _) fun _ _ => oob_bind (oob_check (by decide) (by decide) (by decide)) fun _ _ => oob_ok _

/-- What `cat([zi.unsqueeze(1), x], 1)` needs and returns. -/
theorem cat_state_shape {zi x z1 out : Tensor α} (hz : unsqueeze zi 1 = .ok z1) (hc : cat2 z1 x 1 = .ok out) :
    x.rank = zi.rank + 1 ∧ out.shape = x.shape.set 1 (1 + x.shape.getD 1 0) ∧ x.shape.eraseIdx 1 = zi.shape := by
  have hz' : zi.rank ≠ 0 := by
    intro h
    unfold unsqueeze wrapDim at hz
    rw [h] at hz
    simp at hz
  have hr : ∀ k : Nat, 2 ≤ k → wrapDim k 1 = .ok 1 := by
    intro k hk
    unfold wrapDim
    rw [if_pos (by omega)]; rfl
  unfold unsqueeze at hz
  rw [hr _ (by omega), ok_bind] at hz
  cases hz
  unfold cat2 at hc
  have hlen : (zi.shape.insertIdx 1 1).length = zi.rank + 1 := by
    rw [List.length_insertIdx]
    have : zi.shape.length = zi.rank := rfl
    rw [if_pos (by omega), this]
  have hrank : (ofFn (zi.shape.insertIdx 1 1) fun l => zi.get (l.eraseIdx 1) : Tensor α).rank = zi.rank + 1 := hlen
  rw [hrank, hr _ (by omega), ok_bind] at hc
  unfold check at hc
  split at hc
  · rename_i hcond
    rw [ok_bind] at hc
    cases hc
    obtain ⟨h1, h2⟩ := hcond
    have he : (zi.shape.insertIdx 1 1).eraseIdx 1 = zi.shape := List.eraseIdx_insertIdx_self _
    have h2' : x.shape.eraseIdx 1 = zi.shape := by rw [← h2]; exact he
    refine ⟨h1.symm, ?_, h2'⟩
    show (zi.shape.insertIdx 1 1).set 1 ((zi.shape.insertIdx 1 1).getD 1 0 + x.shape.getD 1 0) = _
    have hzl : zi.shape.length = zi.rank := rfl
    have hxl : x.shape.length = zi.rank + 1 := h1.symm
    match hzs : zi.shape, hxs : x.shape with
    | [], _ => rw [hzs] at hzl; simp at hzl; omega
    | _ :: _, [] => rw [hxs] at hxl; simp at hxl
    | _ :: _, [_] => rw [hxs] at hxl; simp at hxl; omega
    | a :: s, b :: c :: t =>
      rw [hzs, hxs] at h2'
      simp at h2'
      obtain ⟨rfl, rfl⟩ := h2'
      simp
  · cases hc

end Torch.Tensor

namespace Phil.Host
open Torch Torch.Tensor Omp

variable {α : Type} [CommRing α]

theorem inside_scalar {B : Bufs α} {T b : Nat} (get : Regs α → α) (hlen : b * T + T ≤ B.outLen) :
    ∀ x ∈ (forLoop 1 T fun t => [
        Act.read (b * T + (t - 1)) (fun v r => { r with p := v }),
        Act.read (b * T + t) (fun v r => { r with q := v }),
        Act.write (b * T + t) (fun (r : Regs α) => r.q + get r * r.p)]), x.inside B := by
  intro x hx
  rw [mem_forLoop] at hx
  obtain ⟨t, h1, h2, hx⟩ := hx
  simp only [List.mem_cons, List.not_mem_nil, or_false] at hx
  rcases hx with rfl | rfl | rfl <;> simp only [Act.inside] <;> omega

theorem ltiRecurCpu_inside {sch : Scheduler (Regs α) α} (hsch : IsScheduler sch) (a zi x : Tensor α) :
    ¬ OutOfBounds (ltiRecurCpu sch a zi x) := by
  unfold ltiRecurCpu
  refine oob_bind (oob_check (by decide) (by decide) (by decide)) fun _ ha => ?_
  refine oob_bind (oob_check (by decide) (by decide) (by decide)) fun _ hzr => ?_
  refine oob_bind (oob_check (by decide) (by decide) (by decide)) fun _ hxr => ?_
  refine oob_bind (oob_unsqueeze _ _) fun z1 hz1 => ?_
  refine oob_bind (oob_cat2 _ _ _) fun out hout => ?_
  have hz : zi.rank = 1 := by
    unfold check at hzr; split at hzr
    · assumption
    · cases hzr
  obtain ⟨h1, h2, h3⟩ := cat_state_shape hz1 hout
  have hlen : out.numel = x.size 0 * (x.size 1 + 1) := by
    have hl : x.shape.length = 2 := by rw [show x.shape.length = x.rank from rfl, h1, hz]
    match hxs : x.shape with
    | [] => rw [hxs] at hl; simp at hl
    | [_] => rw [hxs] at hl; simp at hl
    | _ :: _ :: _ :: _ => rw [hxs] at hl; simp at hl
    | [n, m] =>
      unfold numel
      rw [h2, hxs]
      simp [size, hxs, Nat.add_comm]
  have hb : ∀ b, b < x.size 0 → b * (x.size 1 + 1) + (x.size 1 + 1) ≤ out.numel := by
    intro b hb
    rw [hlen]
    calc b * (x.size 1 + 1) + (x.size 1 + 1) = (b + 1) * (x.size 1 + 1) := by ring
      _ ≤ _ := Nat.mul_le_mul_right _ hb
  refine oob_bind ?_ fun _ _ => oob_slice _ _ _ _
  split
  · rename_i hc
    refine parallelFor_not_oob hsch fun b hb' c hcm => ?_
    unfold ltiBatchBody at hcm
    rcases List.mem_cons.1 hcm with rfl | hcm
    · show b < a.numel
      rw [hc.2]; exact hb'
    · exact inside_scalar (fun r => r.a) (hb b hb') c hcm
  · refine oob_bind (oob_check (by decide) (by decide) (by decide)) fun _ _ => ?_
    refine parallelFor_not_oob hsch fun b hb' c hcm => ?_
    exact inside_scalar (fun _ => data a 0) (hb b hb') c hcm

theorem inside_mat {B : Bufs α} {T N b : Nat} {aOff : Nat → Nat} (hlen : b * T * N + T * N ≤ B.outLen)
    (hin : ∀ t i j, 1 ≤ t → t < T → i < N → j < N → aOff t + i * N + j < B.constLen) :
    ∀ x ∈ (matBody T N aOff b : List (Act (Regs α) α)), x.inside B := by
  intro x hx
  unfold matBody at hx
  rw [mem_forLoop] at hx
  obtain ⟨t, ht1, ht2, hx⟩ := hx
  rw [mem_forLoop] at hx
  obtain ⟨i, -, hi, hx⟩ := hx
  have key : ∀ s j, s < T → j < N → b * T * N + s * N + j < B.outLen := by
    intro s j hs hj
    have := flat_lt hs hj
    omega
  simp only [List.cons_append, List.mem_cons, List.mem_append, mem_forLoop, List.not_mem_nil, or_false] at hx
  rcases hx with rfl | ⟨j, -, hj, rfl | rfl | rfl⟩ | rfl | rfl
  · trivial
  · exact hin t i j ht1 ht2 hi hj
  · exact key (t - 1) j (by omega) hj
  · trivial
  · exact key t i ht2 hi
  · exact key t i ht2 hi

/-- A read of `A` by a matrix kernel. -/
theorem mem_matBody {T N t : Nat} (aOff : Nat → Nat) (b : Nat) (h1 : 1 ≤ t) (h2 : t < T) (hN : 0 < N) :
    ∃ f, Act.readC (aOff t) f ∈ (matBody T N aOff b : List (Act (Regs α) α)) := by
  refine ⟨fun v r => { r with p := v }, ?_⟩
  unfold matBody
  rw [mem_forLoop]
  refine ⟨t, h1, h2, ?_⟩
  rw [mem_forLoop]
  refine ⟨0, le_refl _, hN, ?_⟩
  simp only [List.cons_append, List.mem_cons, List.mem_append]
  refine .inr (.inl ?_)
  rw [mem_forLoop]
  refine ⟨0, le_refl _, hN, ?_⟩
  simp

/-- The buffer of a three-dimensional signal. -/
theorem out_len3 {zi x z1 out : Tensor α} (hx : x.rank = 3) (hz : unsqueeze zi 1 = .ok z1) (hc : cat2 z1 x 1 = .ok out) :
    out.numel = x.size 0 * (x.size 1 + 1) * x.size 2 := by
  obtain ⟨-, h2, -⟩ := cat_state_shape hz hc
  have hl : x.shape.length = 3 := hx
  match hxs : x.shape with
  | [] => rw [hxs] at hl; simp at hl
  | [_] => rw [hxs] at hl; simp at hl
  | [_, _] => rw [hxs] at hl; simp at hl
  | _ :: _ :: _ :: _ :: _ => rw [hxs] at hl; simp at hl
  | [n, m, p] =>
    unfold numel
    rw [h2, hxs]
    simp [size, hxs, Nat.add_comm, Nat.mul_assoc]

theorem of_check {c : Prop} [Decidable c] {e : String} {v : Unit} (h : check c e = .ok v) : c := by
  unfold check at h
  split at h
  · assumption
  · cases h

theorem len_le {n m p b : Nat} (hb : b < n) : b * m * p + m * p ≤ n * m * p := by
  calc b * m * p + m * p = (b + 1) * m * p := by ring
    _ ≤ _ := Nat.mul_le_mul_right _ (Nat.mul_le_mul_right _ hb)

theorem ltiRecurNCpu_inside {sch : Scheduler (Regs α) α} (hsch : IsScheduler sch) (A zi x : Tensor α) (hx : x.rank = 3)
    (hA : A.rank = 3 → x.size 0 ≤ A.size 0) : ¬ OutOfBounds (ltiRecurNCpu sch A zi x) := by
  unfold ltiRecurNCpu
  refine oob_bind (oob_check (by decide) (by decide) (by decide)) fun _ c1 => ?_
  refine oob_bind (oob_check (by decide) (by decide) (by decide)) fun _ c2 => ?_
  refine oob_bind (oob_check (by decide) (by decide) (by decide)) fun _ c3 => ?_
  refine oob_bind (oob_check (by decide) (by decide) (by decide)) fun _ c4 => ?_
  refine oob_bind (oob_unsqueeze _ _) fun z1 hz1 => ?_
  refine oob_bind (oob_cat2 _ _ _) fun out hout => ?_
  have c1 := of_check c1
  have c3 := of_check c3
  have c4 := of_check c4
  have hlen := out_len3 hx hz1 hout
  rw [c3] at hlen
  refine oob_bind ?_ fun _ _ => oob_slice _ _ _ _
  split
  · rename_i hr
    refine parallelFor_not_oob hsch fun b hb => ?_
    refine inside_mat (by show _ ≤ out.numel; rw [hlen]; exact len_le hb) ?_
    intro t i j h1 h2 hi hj
    show b * A.size (-1) * A.size (-1) + i * A.size (-1) + j < A.numel
    have hn : A.numel = A.size 0 * (A.size (-1) * A.size (-1)) := by
      have hl : A.shape.length = 3 := hr
      match hs : A.shape with
      | [] => rw [hs] at hl; simp at hl
      | [_] => rw [hs] at hl; simp at hl
      | [_, _] => rw [hs] at hl; simp at hl
      | _ :: _ :: _ :: _ :: _ => rw [hs] at hl; simp at hl
      | [n, m, p] =>
        have e1 : A.size (-1) = p := by simp [size, rank, hs]
        have e2 : A.size (-2) = m := by simp [size, rank, hs]
        rw [e1, e2] at c4
        rw [e1, numel, hs]
        simp [size, hs, c4]
    rw [hn]
    calc b * A.size (-1) * A.size (-1) + i * A.size (-1) + j =
          b * (A.size (-1) * A.size (-1)) + (i * A.size (-1) + j) := by ring
      _ < _ := flat_lt (lt_of_lt_of_le hb (hA hr)) (flat_lt hi hj)
  · rename_i hr
    refine parallelFor_not_oob hsch fun b hb => ?_
    refine inside_mat (by show _ ≤ out.numel; rw [hlen]; exact len_le hb) ?_
    intro t i j h1 h2 hi hj
    show 0 + i * A.size (-1) + j < A.numel
    have hn : A.numel = A.size (-1) * A.size (-1) := by
      have hl : A.shape.length = 2 := c1.resolve_right hr
      match hs : A.shape with
      | [] => rw [hs] at hl; simp at hl
      | [_] => rw [hs] at hl; simp at hl
      | _ :: _ :: _ :: _ => rw [hs] at hl; simp at hl
      | [m, p] =>
        have e1 : A.size (-1) = p := by simp [size, rank, hs]
        have e2 : A.size (-2) = m := by simp [size, rank, hs]
        rw [e1, e2] at c4
        rw [e1, numel, hs]
        simp [c4]
    rw [hn, Nat.zero_add]
    exact flat_lt hi hj

theorem recurNCpu_inside {sch : Scheduler (Regs α) α} (hsch : IsScheduler sch) (A zi x : Tensor α) (hx : x.rank = 3)
    (hA3 : A.rank = 3 → x.size 1 ≤ A.size 0)
    (hA4 : A.rank = 4 → x.size 0 * (x.size 1 + 1) ≤ A.size 0 * (A.size 1 + 1)) :
    ¬ OutOfBounds (recurNCpu sch A zi x) := by
  unfold recurNCpu
  refine oob_bind (oob_check (by decide) (by decide) (by decide)) fun _ c1 => ?_
  refine oob_bind (oob_check (by decide) (by decide) (by decide)) fun _ c2 => ?_
  refine oob_bind (oob_check (by decide) (by decide) (by decide)) fun _ c3 => ?_
  refine oob_bind (oob_check (by decide) (by decide) (by decide)) fun _ c4 => ?_
  refine oob_bind (oob_padDim _ _ _ _ _) fun Ac hAc => ?_
  refine oob_bind (oob_unsqueeze _ _) fun z1 hz1 => ?_
  refine oob_bind (oob_cat2 _ _ _) fun out hout => ?_
  have c1 := of_check c1
  have c3 := of_check c3
  have c4 := of_check c4
  have hlen := out_len3 hx hz1 hout
  rw [c3] at hlen
  refine oob_bind ?_ fun _ _ => oob_slice _ _ _ _
  split
  · rename_i hr
    refine parallelFor_not_oob hsch fun b hb => ?_
    refine inside_mat (by show _ ≤ out.numel; rw [hlen]; exact len_le hb) ?_
    intro t i j h1 h2 hi hj
    show b * (x.size 1 + 1) * A.size (-1) * A.size (-1) + t * A.size (-1) * A.size (-1) + i * A.size (-1) + j < Ac.numel
    have hn : Ac.numel = A.size 0 * (A.size 1 + 1) * (A.size (-1) * A.size (-1)) := by
      have hl : A.shape.length = 4 := hr
      match hs : A.shape with
      | [] => rw [hs] at hl; simp at hl
      | [_] => rw [hs] at hl; simp at hl
      | [_, _] => rw [hs] at hl; simp at hl
      | [_, _, _] => rw [hs] at hl; simp at hl
      | _ :: _ :: _ :: _ :: _ :: _ => rw [hs] at hl; simp at hl
      | [n, m, p, q] =>
        have e1 : A.size (-1) = q := by simp [size, rank, hs]
        have e2 : A.size (-2) = p := by simp [size, rank, hs]
        have e3 : A.size 0 = n := by simp [size, hs]
        have e4 : A.size 1 = m := by simp [size, hs]
        rw [eq_t4 hs, padDim_t4_n3_left] at hAc
        cases hAc
        rw [e1, e2] at c4
        rw [numel_t4, e1, e3, e4, c4]; ring
    rw [hn]
    calc b * (x.size 1 + 1) * A.size (-1) * A.size (-1) + t * A.size (-1) * A.size (-1) + i * A.size (-1) + j =
          (b * (x.size 1 + 1) + t) * (A.size (-1) * A.size (-1)) + (i * A.size (-1) + j) := by ring
      _ < _ := flat_lt (lt_of_lt_of_le (flat_lt hb h2) (hA4 hr)) (flat_lt hi hj)
  · rename_i hr
    have hr : A.rank = 3 := c1.resolve_right hr
    refine parallelFor_not_oob hsch fun b hb => ?_
    refine inside_mat (by show _ ≤ out.numel; rw [hlen]; exact len_le hb) ?_
    intro t i j h1 h2 hi hj
    show t * A.size (-1) * A.size (-1) + i * A.size (-1) + j < Ac.numel
    have hn : Ac.numel = (A.size 0 + 1) * (A.size (-1) * A.size (-1)) := by
      have hl : A.shape.length = 3 := hr
      match hs : A.shape with
      | [] => rw [hs] at hl; simp at hl
      | [_] => rw [hs] at hl; simp at hl
      | [_, _] => rw [hs] at hl; simp at hl
      | _ :: _ :: _ :: _ :: _ => rw [hs] at hl; simp at hl
      | [n, m, p] =>
        have e1 : A.size (-1) = p := by simp [size, rank, hs]
        have e2 : A.size (-2) = m := by simp [size, rank, hs]
        have e3 : A.size 0 = n := by simp [size, hs]
        rw [eq_t3 hs, padDim_t3_n3_left] at hAc
        cases hAc
        rw [e1, e2] at c4
        rw [numel_t3, e1, e3, c4]; ring
    rw [hn]
    calc t * A.size (-1) * A.size (-1) + i * A.size (-1) + j =
          t * (A.size (-1) * A.size (-1)) + (i * A.size (-1) + j) := by ring
      _ < _ := flat_lt (lt_of_lt_of_le h2 (by have := hA3 hr; omega)) (flat_lt hi hj)

end Phil.Host
