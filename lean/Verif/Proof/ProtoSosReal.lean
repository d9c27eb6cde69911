import Verif.Proof.ProtoSos

/-! # `sos2pfe` with real poles, philtorch/prototype/signal.py:172-373 -/

namespace Phil.Proto
open Torch Spec Polynomial
variable {α : Type} [Field α] [DecidableEq α]

local notation:max l "⟪" i "⟫" => List.getD l i (0, 0, false)

/-- What holds of the ordered poles `l` of the sections `sos`. -/
structure PoleData {K : Type} [Field K] (φ : K →+* α) (sos : List (Section α)) (l : List (α × Nat × Bool)) : Prop where
  sos_ne : sos ≠ []
  coeffs : ∀ s ∈ sos, s.nb1 ∈ Set.range φ ∧ s.nb2 ∈ Set.range φ
  nodup : (l.map fun x => x.1).Nodup
  pos : ∀ x ∈ l, 0 < x.2.1
  range : ∀ x ∈ l, x.1 ∈ Set.range φ
  sum : (l.map fun x => x.2.1).sum = 2 * sos.length

section
variable {K : Type} [Field K] {φ : K →+* α} {sos : List (Section α)} {l : List (α × Nat × Bool)}

omit [DecidableEq α] in
theorem PoleData.nodup' (h : PoleData φ sos l) : ((polesOf l).map fun x => x.1).Nodup := by
  rw [polesOf, List.map_map]; exact h.nodup

omit [Field α] [DecidableEq α] in
theorem getD_mem_list [Zero α] (l : List (α × Nat × Bool)) {i : Nat} (hi : i < l.length) : l⟪i⟫ ∈ l := by
  rw [List.getD_eq_getElem _ _ hi]; exact List.getElem_mem hi

omit [DecidableEq α] in
theorem PoleData.natDegree (h : PoleData φ sos l) : (prodPow (polesOf l)).natDegree = 2 * sos.length := by
  rw [prodPow_natDegree, polesOf, List.map_map, ← h.sum]; rfl

omit [DecidableEq α] in
theorem PoleData.others (h : PoleData φ sos l) {i : Nat} (hi : i < l.length) :
    (othersPoly l i).eval (l⟪i⟫).1 ≠ 0 ∧ (numerPoly sos).natDegree = (othersPoly l i).natDegree + (l⟪i⟫).2.1 := by
  have h1 := factor_facts h.nodup' (mem_polesOf l i hi) (othersPoly_mul l i hi)
  refine ⟨h1.1, ?_⟩
  rw [(numerPoly_monic sos).2, ← h.natDegree]
  have := h1.2
  simp only at this
  omega

omit [DecidableEq α] in
theorem PoleData.const_iff (h : PoleData φ sos l) {i : Nat} (hi : i < l.length) : (othersPoly l i).natDegree = 0 ↔ l.length = 1 := by
  have h1 := (h.others hi).2
  rw [(numerPoly_monic sos).2, ← h.sum] at h1
  obtain ⟨l1, l2, hl⟩ := List.append_of_mem (getD_mem_list l hi)
  have hsum : (l.map fun y => y.2.1).sum = (l⟪i⟫).2.1 + ((l1 ++ l2).map fun y => y.2.1).sum := by
    conv_lhs => rw [hl]
    simp; omega
  have hlen : l.length = 1 + (l1 ++ l2).length := by
    conv_lhs => rw [hl]
    simp; omega
  have hge : ∀ L : List (α × Nat × Bool), (∀ x ∈ L, 0 < x.2.1) → L.length ≤ (L.map fun y => y.2.1).sum := by
    intro L hL
    induction L with
    | nil => simp
    | cons y L ih =>
      have h1 := hL y (by simp)
      have h2 := ih fun w hw => hL w (List.mem_cons_of_mem _ hw)
      rw [List.map_cons, List.sum_cons, List.length_cons]; omega
  constructor
  · intro h0
    have := hge (l1 ++ l2) fun x hx => h.pos x (by
      rw [hl]
      rcases List.mem_append.1 hx with h | h
      · exact List.mem_append.2 (Or.inl h)
      · exact List.mem_append.2 (Or.inr (List.mem_cons_of_mem _ h)))
    omega
  · intro h0
    have : l1 ++ l2 = [] := List.length_eq_zero_iff.1 (by omega)
    rw [this, List.map_nil, List.sum_nil] at hsum
    omega

omit [DecidableEq α] in
theorem lifts_X_sub {x : α} (h : x ∈ Set.range φ) : (X - C x : α[X]) ∈ lifts φ := by
  obtain ⟨y, rfl⟩ := h
  exact (mem_lifts _).2 ⟨X - C y, by simp⟩

omit [DecidableEq α] in
theorem PoleData.others_lifts (h : PoleData φ sos l) (i : Nat) : othersPoly l i ∈ lifts φ := by
  unfold othersPoly
  refine list_prod_mem fun q hq => ?_
  obtain ⟨j, hj, rfl⟩ := List.mem_map.1 hq
  exact pow_mem (lifts_X_sub (h.range _ (getD_mem_list l (List.mem_range.1 hj)))) _

omit [DecidableEq α] in
theorem PoleData.numer_lifts (h : PoleData φ sos l) : numerPoly sos ∈ lifts φ := by
  unfold numerPoly
  refine list_prod_mem fun q hq => ?_
  obtain ⟨s, hs, rfl⟩ := List.mem_map.1 hq
  obtain ⟨⟨y, hy⟩, ⟨w, hw⟩⟩ := h.coeffs s hs
  exact (mem_lifts _).2 ⟨X ^ 2 + C y * X + C w, by simp [hy, hw]⟩

omit [DecidableEq α] in
theorem eval_lifts {q : α[X]} (hq : q ∈ lifts φ) {x : α} (hx : x ∈ Set.range φ) : q.eval x ∈ Set.range φ := by
  obtain ⟨q0, rfl⟩ := (mem_lifts _).1 hq
  obtain ⟨y, rfl⟩ := hx
  exact ⟨q0.eval y, by rw [eval_map_apply]⟩

/-- The residues of every pole, highest power first. -/
theorem PoleData.residues [CharZero α] (h : PoleData φ sos l) : ∃ R : Nat → List α,
    (∀ i < l.length, (R i).length = (l⟪i⟫).2.1 ∧ (∀ r ∈ R i, r ∈ Set.range φ) ∧
      ∃ Q, numerPoly sos = othersPoly l i * shiftPoly (l⟪i⟫).1 (R i) + Q * (X - C (l⟪i⟫).1) ^ (l⟪i⟫).2.1) ∧
    (∀ i ∈ simpleAt l, R i = [simpleResidue sos l i]) ∧
    ∃ n s, polysmul (sos.map fun s => [1, s.nb1, s.nb2]) = .ok n ∧
      (if simpleAt l = [] then .ok [1] else polysmul ((simpleAt l).map fun j => [1, -(l⟪j⟫).1])) = .ok s ∧
      ∀ i ∈ repeatedAt l, repeatedBlock l (repeatedAt l) n s i = .ok ((R i).map (shaped (l.length = 1))) := by
  obtain ⟨n, hn1, hn2⟩ := numerator_spec sos h.sos_ne
  obtain ⟨s, hs1, hs2⟩ := denominator_spec l fun i hi => h.pos _ (getD_mem_list l hi)
  have key : ∀ i, ∃ R : List α, i < l.length → (R.length = (l⟪i⟫).2.1 ∧ (∀ r ∈ R, r ∈ Set.range φ) ∧
      ∃ Q, numerPoly sos = othersPoly l i * shiftPoly (l⟪i⟫).1 R + Q * (X - C (l⟪i⟫).1) ^ (l⟪i⟫).2.1) ∧
      (i ∈ simpleAt l → R = [simpleResidue sos l i]) ∧
      (i ∈ repeatedAt l → repeatedBlock l (repeatedAt l) n s i = .ok (R.map (shaped (l.length = 1)))) := by
    intro i
    by_cases hi : i < l.length
    · by_cases hm : 1 < (l⟪i⟫).2.1
      · have hr : i ∈ repeatedAt l := List.mem_filter.2 ⟨List.mem_range.2 hi, by simpa using hm⟩
        obtain ⟨dd, hd1, hd2⟩ := hs2 i hr
        obtain ⟨R, h1, h2, h3, h4⟩ := block_spec φ (l⟪i⟫).1 (h.range _ (getD_mem_list l hi)) (l⟪i⟫).2.1 (by omega) n (polymul s dd)
          (hn2 ▸ h.numer_lifts) (hd2 ▸ h.others_lifts i) (by rw [hn2, hd2]; exact (h.others hi).2) (by rw [hd2]; exact (h.others hi).1)
        refine ⟨R, fun _ => ⟨⟨h1, h2, ?_⟩, fun hs => ?_, fun _ => ?_⟩⟩
        · rw [hn2, hd2] at h4; exact h4
        · exact absurd hm (by simpa using (List.mem_filter.1 hs).2)
        · unfold repeatedBlock
          have hfin : (divVal (polyval n (Val.scalar (l⟪i⟫).1)) (polyval (polymul s dd) (Val.scalar (l⟪i⟫).1)) ::
              derivLoop (l⟪i⟫).1 ((l⟪i⟫).2.1 - 1) 2 n (polymul s dd)) = R.map (shaped (l.length = 1)) := by
            rw [h3, hd2]
            have hc := h.const_iff hi
            unfold shaped
            simp only [hc]
          by_cases ho : ((repeatedAt l).flatMap fun j => List.replicate (if j = i then 0 else (l⟪j⟫).2.1) [1, -(l⟪j⟫).1]) = []
          · rw [if_pos ho] at hd1
            simp only
            rw [if_pos ho]
            refine bind_step hd1 ?_
            rw [hfin]; rfl
          · rw [if_neg ho] at hd1
            simp only
            rw [if_neg ho]
            refine bind_step hd1 ?_
            rw [hfin]; rfl
      · have hm1 : (l⟪i⟫).2.1 = 1 := by have := h.pos _ (getD_mem_list l hi); omega
        refine ⟨[simpleResidue sos l i], fun _ => ⟨⟨by rw [hm1]; rfl, ?_, ?_⟩, fun _ => rfl, fun hr => ?_⟩⟩
        · intro r hr
          rw [List.mem_singleton.1 hr, simpleResidue_eq]
          obtain ⟨x, hx⟩ := eval_lifts h.numer_lifts (h.range _ (getD_mem_list l hi))
          obtain ⟨y, hy⟩ := eval_lifts (h.others_lifts i) (h.range _ (getD_mem_list l hi))
          exact ⟨x / y, by rw [map_div₀, hx, hy]⟩
        · rw [hm1, pow_one, shiftPoly_cons, show shiftPoly (l⟪i⟫).1 ([] : List α) = 0 by simp [shiftPoly], zero_mul, add_zero]
          have hroot : (numerPoly sos - othersPoly l i * C (simpleResidue sos l i)).IsRoot (l⟪i⟫).1 := by
            rw [IsRoot.def, eval_sub, eval_mul, eval_C, simpleResidue_eq, mul_div_cancel₀ _ (h.others hi).1, sub_self]
          obtain ⟨Q, hQ⟩ := dvd_iff_isRoot.2 hroot
          exact ⟨Q, by linear_combination hQ⟩
        · exact absurd (by simpa using (List.mem_filter.1 hr).2) hm
    · exact ⟨[], fun h => absurd h hi⟩
  choose R hR using key
  refine ⟨R, fun i hi => (hR i hi).1, fun i hi => ?_, n, s, hn1, hs1, fun i hi => ?_⟩
  · exact (hR i (List.mem_range.1 (List.mem_filter.1 hi).1)).2.1 hi
  · exact (hR i (List.mem_range.1 (List.mem_filter.1 hi).1)).2.2 hi

omit [DecidableEq α] in
/-- The expansion. -/
theorem PoleData.expansion (h : PoleData φ sos l) (R : Nat → List α)
    (hR : ∀ i < l.length, (R i).length = (l⟪i⟫).2.1 ∧
      ∃ Q, numerPoly sos = othersPoly l i * shiftPoly (l⟪i⟫).1 (R i) + Q * (X - C (l⟪i⟫).1) ^ (l⟪i⟫).2.1) (z : α)
    (hz : (prodPow (polesOf l)).eval z ≠ 0) :
    (numerPoly sos).eval z / (prodPow (polesOf l)).eval z =
      1 + ((List.range l.length).map fun i => (shiftPoly (l⟪i⟫).1 (R i)).eval z / (z - (l⟪i⟫).1) ^ (l⟪i⟫).2.1).sum := by
  have hmap : (List.range l.length).map (fun i => ((l⟪i⟫).1, (l⟪i⟫).2.1)) = polesOf l := map_range_getD l fun x => (x.1, x.2.1)
  have h1 := eval_of_local ((List.range l.length).map fun i => (⟨(l⟪i⟫).1, (l⟪i⟫).2.1, othersPoly l i, shiftPoly (l⟪i⟫).1 (R i)⟩ : Part α))
    (prodPow (polesOf l)) (numerPoly sos - prodPow (polesOf l))
    (by rw [List.map_map]; exact congrArg prodPow hmap.symm)
    (by
      rw [List.map_map]
      have := h.nodup'
      rw [← hmap, List.map_map] at this
      exact this)
    (by
      intro y hy
      obtain ⟨i, hi, rfl⟩ := List.mem_map.1 hy
      exact othersPoly_mul l i (List.mem_range.1 hi))
    (by
      intro y hy
      obtain ⟨i, hi, rfl⟩ := List.mem_map.1 hy
      simp only
      rw [← (hR i (List.mem_range.1 hi)).1]
      exact shiftPoly_degree _ _)
    (by
      intro y hy
      obtain ⟨i, hi, rfl⟩ := List.mem_map.1 hy
      obtain ⟨Q, hQ⟩ := (hR i (List.mem_range.1 hi)).2
      refine ⟨Q - othersPoly l i, ?_⟩
      simp only
      rw [hQ, ← othersPoly_mul l i (List.mem_range.1 hi)]; ring)
    (by
      rw [degree_eq_natDegree (prodPow_monic _).ne_zero, h.natDegree, ← (numerPoly_monic sos).2,
        ← degree_eq_natDegree (numerPoly_monic sos).1.ne_zero]
      refine degree_sub_lt_left ?_ (numerPoly_monic sos).1.ne_zero ?_
      · rw [degree_eq_natDegree (prodPow_monic _).ne_zero, h.natDegree, degree_eq_natDegree (numerPoly_monic sos).1.ne_zero,
          (numerPoly_monic sos).2]
      · rw [(numerPoly_monic sos).1.leadingCoeff, (prodPow_monic _).leadingCoeff]) z hz
  rw [List.map_map] at h1
  rw [eval_sub, sub_div, div_self hz, sub_eq_iff_eq_add'] at h1
  rw [h1]
  rfl

end

/-! ## The sums returned -/

omit [DecidableEq α] in
theorem pfePow_append (r1 r2 p1 p2 : List α) (n1 n2 : List Nat) (h1 : r1.length = p1.length) (h2 : p1.length = n1.length) (z : α) :
    pfePow (r1 ++ r2) (p1 ++ p2) (n1 ++ n2) z = pfePow r1 p1 n1 z + pfePow r2 p2 n2 z := by
  unfold pfePow
  rw [List.zip_append h2, List.zip_append (by rw [List.length_zip, ← h2, Nat.min_self, h1]), List.map_append, List.sum_append]

omit [DecidableEq α] in
theorem pfePow_block (p z : α) (R : List α) (hz : z ≠ p) :
    pfePow R (List.replicate R.length p) ((List.range R.length).map fun k => R.length - k) z =
      (shiftPoly p R).eval z / (z - p) ^ R.length := by
  have h0 : z - p ≠ 0 := sub_ne_zero.2 hz
  have e : (R.zip ((List.replicate R.length p).zip ((List.range R.length).map fun k => R.length - k))).map
      (fun x => x.1 / (z - x.2.1) ^ x.2.2) = (List.range R.length).map fun k => R.getD k 0 / (z - p) ^ (R.length - k) := by
    refine List.ext_getElem (by simp) fun k h1 h2 => ?_
    have hk : k < R.length := by simpa using h2
    simp [hk]
  have hsum : ∀ (n : Nat) (f : Nat → α), ((List.range n).map f).sum = ∑ k ∈ Finset.range n, f k := by
    intro n f
    induction n with
    | zero => rfl
    | succ n ih => rw [List.range_succ, List.map_append, List.sum_append, ih, Finset.sum_range_succ]; simp
  unfold pfePow shiftPoly
  rw [e, hsum, eval_finsetSum, Finset.sum_div]
  refine Finset.sum_congr rfl fun k hk => ?_
  have hk := Finset.mem_range.1 hk
  rw [eval_mul, eval_C, eval_pow, eval_sub, eval_X, eval_C]
  have : (z - p) ^ R.length = (z - p) ^ k * (z - p) ^ (R.length - k) := by rw [← pow_add]; congr 1; omega
  rw [this, mul_comm (R.getD k 0), mul_div_mul_left _ _ (pow_ne_zero _ h0)]

omit [DecidableEq α] in
theorem pfePow_flat (p : Nat → α) (R : Nat → List α) (is : List Nat) (z : α) (hz : ∀ i ∈ is, z ≠ p i) :
    pfePow (is.flatMap R) (is.flatMap fun i => List.replicate (R i).length (p i))
      (is.flatMap fun i => (List.range (R i).length).map fun k => (R i).length - k) z =
      (is.map fun i => (shiftPoly (p i) (R i)).eval z / (z - p i) ^ (R i).length).sum := by
  induction is with
  | nil => rfl
  | cons i is ih =>
    rw [List.flatMap_cons, List.flatMap_cons, List.flatMap_cons, pfePow_append _ _ _ _ _ _ (by simp) (by simp), pfePow_block _ _ _ (hz i (by simp)),
      ih fun j hj => hz j (List.mem_cons_of_mem _ hj), List.map_cons, List.sum_cons]

omit [DecidableEq α] in
theorem pfePow_mul (r p : List α) (n : List Nat) (c z : α) : pfePow (r.map fun x => x * c) p n z = pfePow r p n z * c := by
  unfold pfePow
  rw [List.zip_map_left, List.map_map, ← List.sum_map_mul_right]
  refine congrArg List.sum (List.map_congr_left fun x _ => ?_)
  simp only [Function.comp, Prod.map]
  rw [mul_comm, mul_div_assoc, mul_comm]
  rfl

end Phil.Proto
