import Verif.Model.Omp
import Verif.Torch.Loop

/-! # Non-interference of the loop iterations, and loop invariants -/

namespace Omp
open Torch

variable {ρ α : Type}

/-- The step accesses `out` only at addresses in `own`. -/
def Act.owned (own : Nat → Prop) : Act ρ α → Prop
  | .read i _ => own i
  | .write i _ => own i
  | _ => True

/-- The step stays inside the buffers. -/
def Act.inside (B : Bufs α) : Act ρ α → Prop
  | .readC i _ => i < B.constLen
  | .read i _ => i < B.outLen
  | .write i _ => i < B.outLen
  | .compute _ => True

theorem stepAct_agree {B : Bufs α} {own : Nat → Prop} {a : Act ρ α} (ha : a.owned own) {m m' m₁ : Nat → α} {r r₁ : ρ}
    (hm : ∀ i, own i → m i = m' i) (h : stepAct B a (m, r) = .ok (m₁, r₁)) :
    ∃ m₂, stepAct B a (m', r) = .ok (m₂, r₁) ∧ ∀ i, own i → m₁ i = m₂ i := by
  cases a with
  | readC i f =>
    simp only [stepAct] at h ⊢
    split at h
    · rename_i hi
      rw [if_pos hi]
      cases h
      exact ⟨m', rfl, hm⟩
    · cases h
  | read i f =>
    simp only [stepAct] at h ⊢
    split at h
    · rename_i hi
      rw [if_pos hi]
      cases h
      exact ⟨m', by rw [hm i ha], hm⟩
    · cases h
  | write i f =>
    simp only [stepAct] at h ⊢
    split at h
    · rename_i hi
      rw [if_pos hi]
      cases h
      refine ⟨_, rfl, fun j hj => ?_⟩
      by_cases hij : j = i
      · subst hij; simp
      · rw [Function.update_of_ne hij, Function.update_of_ne hij]; exact hm j hj
    · cases h
  | compute f =>
    simp only [stepAct] at h ⊢
    cases h
    exact ⟨m', rfl, hm⟩

theorem stepAct_frame {B : Bufs α} {own : Nat → Prop} {a : Act ρ α} (ha : a.owned own) {m m₁ : Nat → α} {r r₁ : ρ}
    (h : stepAct B a (m, r) = .ok (m₁, r₁)) (i : Nat) (hi : ¬ own i) : m₁ i = m i := by
  cases a with
  | readC j f => simp only [stepAct] at h; split at h <;> cases h; rfl
  | read j f => simp only [stepAct] at h; split at h <;> cases h; rfl
  | write j f =>
    simp only [stepAct] at h
    split at h <;> cases h
    exact Function.update_of_ne (fun e => hi (by rw [e]; exact ha)) _ _
  | compute f => simp only [stepAct] at h; cases h; rfl

theorem solo_agree {B : Bufs α} {own : Nat → Prop} {p : List (Act ρ α)} (hp : ∀ a ∈ p, a.owned own) {m m' m₁ : Nat → α}
    {r r₁ : ρ} (hm : ∀ i, own i → m i = m' i) (h : solo B p (m, r) = .ok (m₁, r₁)) :
    ∃ m₂, solo B p (m', r) = .ok (m₂, r₁) ∧ ∀ i, own i → m₁ i = m₂ i := by
  induction p generalizing m m' r with
  | nil => cases h; exact ⟨m', rfl, hm⟩
  | cons a p ih =>
    simp only [solo] at h ⊢
    cases hs : stepAct B a (m, r) with
    | error e => rw [hs] at h; cases h
    | ok s =>
      obtain ⟨ms, rs⟩ := s
      rw [hs, ok_bind] at h
      obtain ⟨m2, h2, ha2⟩ := stepAct_agree (hp a (by simp)) hm hs
      rw [h2, ok_bind]
      exact ih (fun a' ha' => hp a' (by simp [ha'])) ha2 h

/-- If the iterations own disjoint parts of `out`, every interleaving leaves in the part owned by iteration `b` what
iteration `b` computes when it runs alone, and changes nothing else. -/
theorem run_interleaves {B : Bufs α} {own : Nat → Nat → Prop} (hdis : ∀ b b' i, own b i → own b' i → b = b')
    {p : Nat → List (Act ρ α)} {s : List (Nat × Act ρ α)} (hs : Interleaves p s)
    (hp : ∀ b, ∀ a ∈ p b, a.owned (own b)) (m : Nat → α) (r : Nat → ρ)
    (hsolo : ∀ b, ∃ mr, solo B (p b) (m, r b) = .ok mr) :
    ∃ m' r', run B s (m, r) = .ok (m', r') ∧
      (∀ b m₁ r₁, solo B (p b) (m, r b) = .ok (m₁, r₁) → ∀ i, own b i → m' i = m₁ i) ∧
      (∀ i, (∀ b, ¬ own b i) → m' i = m i) := by
  induction hs generalizing m r with
  | done p h =>
    refine ⟨m, r, rfl, fun b m₁ r₁ h1 i _ => ?_, fun i _ => rfl⟩
    rw [h b] at h1; cases h1; rfl
  | step p b a rest s h h' ih =>
    obtain ⟨mr, hmr⟩ := hsolo b
    have hab : a.owned (own b) := hp b a (by rw [h]; simp)
    rw [h] at hmr
    simp only [solo] at hmr
    cases hst : stepAct B a (m, r b) with
    | error e => rw [hst] at hmr; cases hmr
    | ok st =>
      obtain ⟨m1, r1⟩ := st
      rw [hst, ok_bind] at hmr
      have hother : ∀ b', b' ≠ b → ∀ m₁ r₁, solo B (p b') (m, r b') = .ok (m₁, r₁) →
          ∃ m₂, solo B (p b') (m1, r b') = .ok (m₂, r₁) ∧ ∀ i, own b' i → m₁ i = m₂ i := by
        intro b' hb' m₁ r₁ hso
        refine solo_agree (hp b') (fun i hi => ?_) hso
        exact (stepAct_frame hab hst i fun hi' => hb' (hdis _ _ i hi hi')).symm
      have hp' : ∀ b', ∀ a ∈ Function.update p b rest b', a.owned (own b') := by
        intro b' a' ha'
        by_cases hb' : b' = b
        · subst hb'
          rw [Function.update_self] at ha'
          exact hp b' a' (by rw [h]; simp [ha'])
        · rw [Function.update_of_ne hb'] at ha'; exact hp b' a' ha'
      obtain ⟨m', r', hrun, hown, hfr⟩ := ih hp' m1 (Function.update r b r1) (by
        intro b'
        by_cases hb' : b' = b
        · subst hb'
          rw [Function.update_self, Function.update_self]; exact ⟨mr, hmr⟩
        · rw [Function.update_of_ne hb', Function.update_of_ne hb']
          obtain ⟨⟨m₁, r₁⟩, h1⟩ := hsolo b'
          obtain ⟨m₂, h2, _⟩ := hother b' hb' m₁ r₁ h1
          exact ⟨_, h2⟩)
      refine ⟨m', r', ?_, ?_, ?_⟩
      · simp only [run]
        rw [hst, ok_bind]; exact hrun
      · intro b' m₁ r₁ h1 i hi
        by_cases hb' : b' = b
        · subst hb'
          refine hown b' m₁ r₁ ?_ i hi
          rw [Function.update_self, Function.update_self]
          rw [h] at h1
          simp only [solo] at h1
          rw [hst, ok_bind] at h1
          exact h1
        · obtain ⟨m₂, h2, hag⟩ := hother b' hb' m₁ r₁ h1
          rw [hag i hi]
          refine hown b' m₂ r₁ ?_ i hi
          rw [Function.update_of_ne hb', Function.update_of_ne hb']; exact h2
      · intro i hi
        rw [hfr i hi]
        exact stepAct_frame hab hst i (hi b)

/-- The addresses are fixed before the loop runs: a run succeeds exactly if all steps are inside the buffers. -/
theorem run_ok_iff {B : Bufs α} (s : List (Nat × Act ρ α)) (st : (Nat → α) × (Nat → ρ)) :
    (∃ st', run B s st = .ok st') ↔ ∀ x ∈ s, x.2.inside B := by
  induction s generalizing st with
  | nil => exact ⟨fun _ => by simp, fun _ => ⟨st, rfl⟩⟩
  | cons x s ih =>
    obtain ⟨b, a⟩ := x
    obtain ⟨m, r⟩ := st
    simp only [run]
    have key : (∃ mr, stepAct B a (m, r b) = .ok mr) ↔ a.inside B := by
      cases a with
      | readC i f => simp only [stepAct, Act.inside]; split <;> simp_all
      | read i f => simp only [stepAct, Act.inside]; split <;> simp_all
      | write i f => simp only [stepAct, Act.inside]; split <;> simp_all
      | compute f => simp [stepAct, Act.inside]
    cases hst : stepAct B a (m, r b) with
    | error e =>
      rw [hst] at key
      constructor
      · rintro ⟨st', h⟩; cases h
      · intro h
        obtain ⟨mr, h1⟩ := key.2 (h (b, a) (by simp))
        cases h1
    | ok mr =>
      rw [hst] at key
      rw [ok_bind]
      rw [ih]
      have hi := key.1 ⟨mr, rfl⟩
      constructor
      · intro h x hx
        rcases List.mem_cons.1 hx with rfl | hx
        · exact hi
        · exact h x hx
      · intro h x hx; exact h x (by simp [hx])

/-- An order contains every step of every iteration. -/
theorem mem_of_interleaves {β : Type} {p : Nat → List β} {s : List (Nat × β)} (hs : Interleaves p s) (b : Nat) (a : β)
    (ha : a ∈ p b) : (b, a) ∈ s := by
  induction hs generalizing a with
  | done p h => rw [h b] at ha; cases ha
  | step p b' a' rest s h h' ih =>
    by_cases hb : b = b'
    · subst hb
      rw [h] at ha
      rcases List.mem_cons.1 ha with rfl | ha
      · simp
      · refine List.mem_cons_of_mem _ (ih a ?_)
        rw [Function.update_self]; exact ha
    · refine List.mem_cons_of_mem _ (ih a ?_)
      rw [Function.update_of_ne hb]; exact ha

/-- An order contains nothing else. -/
theorem interleaves_mem {β : Type} {p : Nat → List β} {s : List (Nat × β)} (hs : Interleaves p s) (b : Nat) (a : β)
    (ha : (b, a) ∈ s) : a ∈ p b := by
  induction hs generalizing a with
  | done p h => cases ha
  | step p b' a' rest s h h' ih =>
    rcases List.mem_cons.1 ha with e | ha
    · cases e; rw [h]; simp
    · have := ih a ha
      by_cases hb : b = b'
      · subst hb
        rw [Function.update_self] at this
        rw [h]; simp [this]
      · rwa [Function.update_of_ne hb] at this

/-- Running one thread is a possible order. -/
theorem sequential_isScheduler : IsScheduler (sequential : Scheduler ρ α) := by
  have one : ∀ (l : List (Act ρ α)) (b : Nat) (p : Nat → List (Act ρ α)) (s : List (Nat × Act ρ α)), p b = l →
      Interleaves (Function.update p b []) s → Interleaves p (l.map (fun a => (b, a)) ++ s) := by
    intro l b
    induction l with
    | nil =>
      intro p s hp hs
      have : Function.update p b [] = p := by rw [← hp]; exact Function.update_eq_self b p
      rw [this] at hs; exact hs
    | cons a l ih =>
      intro p s hp hs
      refine .step p b a l _ hp (ih _ _ (Function.update_self ..) ?_)
      rw [Function.update_idem]; exact hs
  have many : ∀ (k n : Nat) (p : Nat → List (Act ρ α)), (∀ b, b < n → p b = []) → (∀ b, n + k ≤ b → p b = []) →
      Interleaves p ((List.range' n k).flatMap fun b => (p b).map fun a => (b, a)) := by
    intro k
    induction k with
    | zero =>
      intro n p h1 h2
      refine .done p fun b => ?_
      rcases Nat.lt_or_ge b n with h | h
      · exact h1 b h
      · exact h2 b (by omega)
    | succ k ih =>
      intro n p h1 h2
      rw [List.range'_succ, List.flatMap_cons]
      refine one (p n) n p _ rfl ?_
      have := ih (n + 1) (Function.update p n []) (fun b hb => by
        by_cases hbn : b = n
        · subst hbn; exact Function.update_self ..
        · rw [Function.update_of_ne hbn]; exact h1 b (by omega)) (fun b hb => by
        rw [Function.update_of_ne (by omega)]; exact h2 b (by omega))
      have e : ((List.range' (n + 1) k).flatMap fun b => (Function.update p n [] b).map fun a => (b, a)) =
          (List.range' (n + 1) k).flatMap fun b => (p b).map fun a => (b, a) := by
        refine List.flatMap_congr fun b hb => ?_
        rw [List.mem_range'] at hb
        obtain ⟨i, _, rfl⟩ := hb
        rw [Function.update_of_ne (by omega)]
      rw [e] at this; exact this
  intro n p
  have h := many n 0 (iters n p) (fun b hb => by omega) (fun b hb => by unfold iters; rw [if_neg (by omega)])
  have e : ((List.range' 0 n).flatMap fun b => (iters n p b).map fun a => (b, a)) = sequential n p := by
    unfold sequential
    rw [List.range_eq_range']
    refine List.flatMap_congr fun b hb => ?_
    rw [List.mem_range'] at hb
    obtain ⟨i, hi, rfl⟩ := hb
    unfold iters
    rw [if_pos (by omega)]
  rw [e] at h; exact h

/-! ## Program logic for one iteration -/

theorem solo_append (B : Bufs α) (p q : List (Act ρ α)) (s : (Nat → α) × ρ) :
    solo B (p ++ q) s = solo B p s >>= solo B q := by
  induction p generalizing s with
  | nil => rfl
  | cons a p ih =>
    simp only [List.cons_append, solo]
    cases stepAct B a s with
    | error e => rfl
    | ok s' => rw [ok_bind, ok_bind, ih]

theorem ex_nil {B : Bufs α} {s : (Nat → α) × ρ} {Q : (Nat → α) × ρ → Prop} (h : Q s) :
    ∃ s', solo B ([] : List (Act ρ α)) s = .ok s' ∧ Q s' := ⟨s, rfl, h⟩

theorem ex_readC {B : Bufs α} {p : List (Act ρ α)} {m : Nat → α} {r : ρ} {i : Nat} {f : α → ρ → ρ}
    {Q : (Nat → α) × ρ → Prop} (hi : i < B.constLen) (h : ∃ s', solo B p (m, f (B.const i) r) = .ok s' ∧ Q s') :
    ∃ s', solo B (.readC i f :: p) (m, r) = .ok s' ∧ Q s' := by
  obtain ⟨s', h1, h2⟩ := h
  exact ⟨s', by simp only [solo, stepAct]; rw [if_pos hi, ok_bind]; exact h1, h2⟩

theorem ex_read {B : Bufs α} {p : List (Act ρ α)} {m : Nat → α} {r : ρ} {i : Nat} {f : α → ρ → ρ}
    {Q : (Nat → α) × ρ → Prop} (hi : i < B.outLen) (h : ∃ s', solo B p (m, f (m i) r) = .ok s' ∧ Q s') :
    ∃ s', solo B (.read i f :: p) (m, r) = .ok s' ∧ Q s' := by
  obtain ⟨s', h1, h2⟩ := h
  exact ⟨s', by simp only [solo, stepAct]; rw [if_pos hi, ok_bind]; exact h1, h2⟩

theorem ex_write {B : Bufs α} {p : List (Act ρ α)} {m : Nat → α} {r : ρ} {i : Nat} {f : ρ → α}
    {Q : (Nat → α) × ρ → Prop} (hi : i < B.outLen)
    (h : ∃ s', solo B p (Function.update m i (f r), r) = .ok s' ∧ Q s') :
    ∃ s', solo B (.write i f :: p) (m, r) = .ok s' ∧ Q s' := by
  obtain ⟨s', h1, h2⟩ := h
  exact ⟨s', by simp only [solo, stepAct]; rw [if_pos hi, ok_bind]; exact h1, h2⟩

theorem ex_compute {B : Bufs α} {p : List (Act ρ α)} {m : Nat → α} {r : ρ} {f : ρ → ρ}
    {Q : (Nat → α) × ρ → Prop} (h : ∃ s', solo B p (m, f r) = .ok s' ∧ Q s') :
    ∃ s', solo B (.compute f :: p) (m, r) = .ok s' ∧ Q s' := by
  obtain ⟨s', h1, h2⟩ := h
  exact ⟨s', by simp only [solo, stepAct]; rw [ok_bind]; exact h1, h2⟩

/-- `{P} p {Q}` with termination and no access outside of the buffers. -/
def Hoare (B : Bufs α) (P : (Nat → α) × ρ → Prop) (p : List (Act ρ α)) (Q : (Nat → α) × ρ → Prop) : Prop :=
  ∀ s, P s → ∃ s', solo B p s = .ok s' ∧ Q s'

theorem Hoare.append {B : Bufs α} {P Q R : (Nat → α) × ρ → Prop} {p q : List (Act ρ α)} (h₁ : Hoare B P p Q)
    (h₂ : Hoare B Q q R) : Hoare B P (p ++ q) R := by
  intro s hs
  obtain ⟨s1, h1, hq⟩ := h₁ s hs
  obtain ⟨s2, h2, hr⟩ := h₂ s1 hq
  exact ⟨s2, by rw [solo_append, h1, ok_bind, h2], hr⟩

theorem Hoare.cons {B : Bufs α} {P Q R : (Nat → α) × ρ → Prop} {a : Act ρ α} {q : List (Act ρ α)}
    (h₁ : ∀ s, P s → ∃ s', stepAct B a s = .ok s' ∧ Q s') (h₂ : Hoare B Q q R) : Hoare B P (a :: q) R := by
  intro s hs
  obtain ⟨s1, h1, hq⟩ := h₁ s hs
  obtain ⟨s2, h2, hr⟩ := h₂ s1 hq
  exact ⟨s2, by simp only [solo]; rw [h1, ok_bind, h2], hr⟩

theorem Hoare.nil {B : Bufs α} {P : (Nat → α) × ρ → Prop} : Hoare B P [] P := fun s hs => ⟨s, rfl, hs⟩

theorem Hoare.weaken {B : Bufs α} {P P' Q Q' : (Nat → α) × ρ → Prop} {p : List (Act ρ α)} (h : Hoare B P p Q)
    (hP : ∀ s, P' s → P s) (hQ : ∀ s, Q s → Q' s) : Hoare B P' p Q' := fun s hs => by
  obtain ⟨s', h1, h2⟩ := h s (hP s hs)
  exact ⟨s', h1, hQ s' h2⟩

/-- Loop invariants. -/
theorem Hoare.forLoop {B : Bufs α} {I : Nat → (Nat → α) × ρ → Prop} {lo hi : Nat} (hle : lo ≤ hi)
    {body : Nat → List (Act ρ α)} (h : ∀ t, lo ≤ t → t < hi → Hoare B (I t) (body t) (I (t + 1))) :
    Hoare B (I lo) (Omp.forLoop lo hi body) (I hi) := by
  unfold Omp.forLoop
  obtain ⟨k, rfl⟩ := Nat.exists_eq_add_of_le hle
  rw [Nat.add_sub_cancel_left]
  induction k generalizing lo with
  | zero => exact Hoare.nil
  | succ k ih =>
    rw [List.range'_succ, List.flatMap_cons]
    refine Hoare.append (h lo (le_refl _) (by omega)) ?_
    have := ih (lo := lo + 1) (by omega) fun t h1 h2 => h t (by omega) (by omega)
    rw [show lo + 1 + k = lo + (k + 1) by omega] at this
    exact this

theorem mem_forLoop {lo hi : Nat} {body : Nat → List (Act ρ α)} {a : Act ρ α} :
    a ∈ forLoop lo hi body ↔ ∃ t, lo ≤ t ∧ t < hi ∧ a ∈ body t := by
  unfold forLoop
  rw [List.mem_flatMap]
  constructor
  · rintro ⟨t, ht, ha⟩
    rw [List.mem_range'] at ht
    obtain ⟨i, hi, rfl⟩ := ht
    exact ⟨_, by omega, by omega, ha⟩
  · rintro ⟨t, h1, h2, ha⟩
    refine ⟨t, ?_, ha⟩
    rw [List.mem_range']
    exact ⟨t - lo, by omega, by omega⟩

end Omp
