import Verif.Proof.ProtoSosMain

/-! # The poles of `sos2pfe`, philtorch/prototype/signal.py:192-213 -/

namespace Phil.Proto
open Torch Spec Polynomial
variable {α : Type} [Field α] [DecidableEq α]

local notation:max l "⟪" i "⟫" => List.getD l i (0, 0, false)

/-- The sections over a larger field. -/
def Section.map {K : Type} (f : K → α) (s : Section K) : Section α := ⟨f s.b0, f s.b1, f s.b2, f s.a0, f s.a1, f s.a2⟩

/-- The ordered poles if all flags agree. -/
theorem orderedFlags_spec [CharZero α] {close : α → α → Bool} {order : List α → List Nat} (ho : IsOrder order) {poles : List α}
    (hp : poles ≠ []) (hclose : ∀ x ∈ poles, ∀ y ∈ poles, close x y = decide (x = y)) {flags : List Bool} {c : Bool}
    (hlen : flags.length = poles.length) (hc : ∀ f ∈ flags, f = c) :
    ∃ u, uniqueRoots close .mean poles (some flags) = .ok u ∧
      (u.map fun x => x.1).Nodup ∧ (∀ x ∈ u, 0 < x.2.1) ∧ (∀ x ∈ u, x.2.2 = c) ∧ (repeatPoles (polesOf u)).Perm poles ∧
      ((order (u.map fun x => x.1)).map fun i => u⟪i⟫).Perm u := by
  obtain ⟨u, hu, hnod, hperm, hpos⟩ := uniqueRoots_eq hp hclose (some flags) (by intro d hd; cases hd; exact hlen)
  rw [Option.getD_some] at hperm
  have hflag : ∀ x ∈ u, x.2.2 = c := by
    intro x hx
    have h1 : (x.1, x.2.2) ∈ u.flatMap fun x => List.replicate x.2.1 (x.1, x.2.2) :=
      List.mem_flatMap.2 ⟨x, hx, List.mem_replicate.2 ⟨(hpos x hx).ne', rfl⟩⟩
    exact hc _ (List.of_mem_zip ((hperm.mem_iff).1 h1)).2
  have hnod' : (u.map fun x => x.1).Nodup := by
    have he : (u.map fun x => (x.1, x.2.2)) = (u.map fun x => x.1).map fun z => (z, c) := by
      rw [List.map_map]
      refine List.map_congr_left fun x hx => ?_
      simp only [Function.comp, hflag x hx]
    rw [he] at hnod
    exact List.Nodup.of_map _ hnod
  refine ⟨u, hu, hnod', hpos, hflag, ?_, ?_⟩
  · have h1 := hperm.map Prod.fst
    rw [List.map_fst_zip (by omega), List.map_flatMap] at h1
    rw [repeatPoles, polesOf, List.flatMap_map]
    refine List.Perm.trans (List.Perm.of_eq ?_) h1
    exact List.flatMap_congr fun x _ => by rw [List.map_replicate]
  · have h1 := (ho (u.map fun x => x.1)).map fun i => u⟪i⟫
    refine h1.trans (List.Perm.of_eq ?_)
    rw [List.length_map]
    exact (map_range_getD u id).trans (List.map_id _)

omit [DecidableEq α] in
theorem sosRoots_length (sqrt : α → α) (sos : List (Section α)) : (sosRoots sqrt sos).length = 2 * sos.length := by
  unfold sosRoots
  induction sos with
  | nil => rfl
  | cons s sos ih => rw [List.flatMap_cons, List.length_append, ih, List.length_cons]; simp; omega

omit [DecidableEq α] in
theorem sosFlags_length (neg : α → Bool) (sos : List (Section α)) : (sosFlags neg sos).length = 2 * sos.length := by
  unfold sosFlags; simp; omega

omit [DecidableEq α] in
theorem sosRoots_prod [CharZero α] (sqrt : α → α) (sos : List (Section α)) (hsq : ∀ s ∈ sos, sqrt s.disc * sqrt s.disc = s.disc) :
    ((sosRoots sqrt sos).map fun p => X - C p).prod = (sos.map fun s => X ^ 2 + C s.na1 * X + C s.na2).prod := by
  unfold sosRoots
  induction sos with
  | nil => rfl
  | cons s sos ih =>
    rw [List.flatMap_cons, List.map_append, List.prod_append, ih fun t ht => hsq t (List.mem_cons_of_mem _ ht), List.map_cons, List.prod_cons]
    congr 1
    have h := hsq s (by simp)
    simp only [List.map_cons, List.map_nil, List.prod_cons, List.prod_nil, mul_one]
    have h1 : (-s.na1 + sqrt s.disc) / 2 + (-s.na1 - sqrt s.disc) / 2 = -s.na1 := by field_simp; ring
    have h2 : (-s.na1 + sqrt s.disc) / 2 * ((-s.na1 - sqrt s.disc) / 2) = s.na2 := by
      have hd : s.disc = s.na1 * s.na1 - 4 * s.na2 := rfl
      generalize sqrt s.disc = q at h ⊢
      rw [hd] at h
      field_simp
      linear_combination -h
    generalize (-s.na1 + sqrt s.disc) / 2 = a at h1 h2
    generalize (-s.na1 - sqrt s.disc) / 2 = b at h1 h2
    have e1 : C s.na1 = -(C a + C b) := by rw [← C_add, h1, C_neg, neg_neg]
    have e2 : C s.na2 = C a * C b := by rw [← C_mul, h2]
    rw [e1, e2]; ring

/-- The value of the sections. -/
def sosValue (sos : List (Section α)) (z : α) : α :=
  (sos.map fun s => (s.b0 * z ^ 2 + s.b1 * z + s.b2) / (s.a0 * z ^ 2 + s.a1 * z + s.a2)).prod

omit [DecidableEq α] in
theorem sosValue_eq (sos : List (Section α)) (hb : ∀ s ∈ sos, s.b0 ≠ 0) (ha : ∀ s ∈ sos, s.a0 ≠ 0) (z : α) :
    sosValue sos z = (sos.map fun s => s.b0 / s.a0).prod *
      ((numerPoly sos).eval z / ((sos.map fun s => X ^ 2 + C s.na1 * X + C s.na2).prod : α[X]).eval z) := by
  unfold sosValue numerPoly
  induction sos with
  | nil => simp
  | cons s sos ih =>
    rw [List.map_cons, List.prod_cons, ih (fun t ht => hb t (List.mem_cons_of_mem _ ht)) (fun t ht => ha t (List.mem_cons_of_mem _ ht))]
    simp only [List.map_cons, List.prod_cons, eval_mul]
    have hb0 := hb s (by simp)
    have ha0 := ha s (by simp)
    have e1 : s.b0 * z ^ 2 + s.b1 * z + s.b2 = s.b0 * eval z (X ^ 2 + C s.nb1 * X + C s.nb2) := by
      simp [Section.nb1, Section.nb2]; field_simp
    have e2 : s.a0 * z ^ 2 + s.a1 * z + s.a2 = s.a0 * eval z (X ^ 2 + C s.na1 * X + C s.na2) := by
      simp [Section.na1, Section.na2]; field_simp
    rw [e1, e2, mul_div_mul_comm, mul_div_mul_comm]
    ring

omit [DecidableEq α] in
theorem sosDen_ne (sos : List (Section α)) (ha : ∀ s ∈ sos, s.a0 ≠ 0) (z : α) (hz : ∀ s ∈ sos, s.a0 * z ^ 2 + s.a1 * z + s.a2 ≠ 0) :
    ((sos.map fun s => X ^ 2 + C s.na1 * X + C s.na2).prod : α[X]).eval z ≠ 0 := by
  rw [show eval z (sos.map fun s => X ^ 2 + C s.na1 * X + C s.na2).prod = _ from map_list_prod (evalRingHom z) _]
  refine List.prod_ne_zero fun h => ?_
  rw [List.map_map] at h
  obtain ⟨s, hs, h0⟩ := List.mem_map.1 h
  refine hz s hs ?_
  have ha0 := ha s hs
  have e2 : s.a0 * z ^ 2 + s.a1 * z + s.a2 = s.a0 * eval z (X ^ 2 + C s.na1 * X + C s.na2) := by
    simp [Section.na1, Section.na2]; field_simp
  rw [e2]
  change eval z _ = 0 at h0
  rw [h0, mul_zero]

omit [DecidableEq α] in
/-- The ordered poles are data for the expansion. -/
theorem poleData [CharZero α] {K : Type} [Field K] {φ : K →+* α} {sos : List (Section α)} (hne : sos ≠ [])
    (hb : ∀ s ∈ sos, s.nb1 ∈ Set.range φ ∧ s.nb2 ∈ Set.range φ) {poles : List α} (hlen : poles.length = 2 * sos.length)
    (hr : ∀ x ∈ poles, x ∈ Set.range φ) {u l : List (α × Nat × Bool)}
    (hnod : (u.map fun x => x.1).Nodup) (hpos : ∀ x ∈ u, 0 < x.2.1) (hperm : (repeatPoles (polesOf u)).Perm poles) (hl : l.Perm u) :
    PoleData φ sos l ∧ (repeatPoles (polesOf l)).Perm poles ∧ prodPow (polesOf l) = (poles.map fun p => X - C p).prod := by
  have hperm' : (repeatPoles (polesOf l)).Perm poles := (((hl.map _).flatMap_right _)).trans hperm
  refine ⟨⟨hne, hb, (hl.map _).nodup_iff.2 hnod, fun x hx => hpos x (hl.mem_iff.1 hx), fun x hx => hr _ ?_, ?_⟩, hperm', ?_⟩
  · refine hperm'.mem_iff.1 (List.mem_flatMap.2 ⟨(x.1, x.2.1), List.mem_map.2 ⟨x, hx, rfl⟩, ?_⟩)
    exact List.mem_replicate.2 ⟨(hpos x (hl.mem_iff.1 hx)).ne', rfl⟩
  · have := hperm'.length_eq
    rw [hlen, repeatPoles, List.length_flatMap, polesOf, List.map_map] at this
    rw [← this]
    congr 1
    exact List.map_congr_left fun x _ => by simp
  · rw [← prod_repeatPoles]
    exact (hperm'.map _).prod_eq

theorem sos2pfe_step [CharZero α] (sqrt re : α → α) (neg : α → Bool) {close : α → α → Bool} {order : List α → List Nat} (ho : IsOrder order)
    {sos : List (Section α)} (hne : sos ≠ []) (hg : ∀ s ∈ sos, neg (s.b0 / s.a0) = false) {c : Bool} (hc : ∀ s ∈ sos, neg s.disc = c)
    (hclose : ∀ x ∈ sosRoots sqrt sos, ∀ y ∈ sosRoots sqrt sos, close x y = decide (x = y)) :
    ∃ u, uniqueRoots close .mean (sosRoots sqrt sos) (some (sosFlags neg sos)) = .ok u ∧
      (u.map fun x => x.1).Nodup ∧ (∀ x ∈ u, 0 < x.2.1) ∧ (∀ x ∈ u, x.2.2 = c) ∧ (repeatPoles (polesOf u)).Perm (sosRoots sqrt sos) ∧
      ((order (u.map fun x => x.1)).map fun i => u⟪i⟫).Perm u ∧
      sos2pfe sqrt re neg close order .mean sos =
        pfeOf re sos (sos.map fun s => s.b0 / s.a0).prod ((order (u.map fun x => x.1)).map fun i => u⟪i⟫) := by
  have h0 : sosRoots sqrt sos ≠ [] := by
    intro h
    have h1 := sosRoots_length sqrt sos
    rw [h, List.length_nil] at h1
    exact hne (List.length_eq_zero_iff.1 (by omega))
  obtain ⟨u, h1, h2, h3, h4, h5, h6⟩ := orderedFlags_spec ho h0 hclose (flags := sosFlags neg sos) (c := c)
    (by rw [sosFlags_length, sosRoots_length]) (by
      intro f hf
      unfold sosFlags at hf
      rcases List.mem_append.1 hf with h | h <;>
      · obtain ⟨s, hs, rfl⟩ := List.mem_map.1 h
        exact hc s hs)
  refine ⟨u, h1, h2, h3, h4, h5, h6, ?_⟩
  unfold sos2pfe
  refine check_step hg ?_
  exact bind_step h1 rfl

end Phil.Proto
