import Verif.Proof.AcceptSpace
import Verif.Proof.LtiFiltering
import Verif.Proof.LpvFiltering
import Verif.Proof.LpvSsmAny

/-!
# The shapes that the filters accept
-/

namespace Phil
open Torch Torch.Tensor Spec
variable {α : Type} [CommRing α] [StarRing α]

omit [StarRing α] in
theorem conv1d_inv {n g L g' K : Nat} {x w : Nat → Nat → Nat → α} {G : Nat} {y : Tensor α}
    (h : conv1d (t3 n g L x) (t3 g' 1 K w) G = .ok y) : 0 < G ∧ 0 < K ∧ K ≤ L := by
  unfold conv1d at h
  obtain ⟨_, h⟩ := ok_check h
  obtain ⟨h1, h⟩ := ok_check h
  obtain ⟨h2, _⟩ := ok_check h
  exact ⟨h1.1, h2.1, h2.2⟩

omit [StarRing α] in
theorem convTranspose1d_inv {n g L g' K : Nat} {x w : Nat → Nat → Nat → α} {G : Nat} {y : Tensor α}
    (h : convTranspose1d (t3 n g L x) (t3 g' 1 K w) G = .ok y) : 0 < G ∧ 0 < K ∧ 0 < L := by
  unfold convTranspose1d at h
  obtain ⟨_, h⟩ := ok_check h
  obtain ⟨h1, h⟩ := ok_check h
  obtain ⟨h2, _⟩ := ok_check h
  exact ⟨h1.1, h2.1, h2.2⟩

/-- What `lti.fir` requires of its arguments. -/
theorem ltiFir_ok {b x : Tensor α} {zi : Option (Tensor α)} {tr : Bool} {y : Tensor α × Option (Tensor α)}
    (h : Lti.fir b x zi tr = .ok y) :
    ∃ B N K, 0 < B ∧ 0 < N ∧ b.shape = [B, K + 1] ∧ x.shape = [B, N] ∧ ∀ z, zi = some z → z.shape = [B, K] := by
  unfold Lti.fir at h
  obtain ⟨h1, h⟩ := ok_check h
  obtain ⟨h2, h⟩ := ok_check h
  obtain ⟨h3, h⟩ := ok_check h
  obtain ⟨h4, h⟩ := ok_check h
  obtain ⟨h5, h⟩ := ok_check h
  obtain ⟨h6, h⟩ := ok_check h
  obtain ⟨B', L, hb⟩ := shape_rank2 h1
  obtain ⟨B, N, hx⟩ := shape_rank2 h2
  obtain ⟨f, rfl⟩ : ∃ f, b = t2 B' L f := ⟨_, eq_t2 hb⟩
  obtain ⟨g, rfl⟩ : ∃ f, x = t2 B N f := ⟨_, eq_t2 hx⟩
  obtain rfl : B' = B := h3
  have hzs : ∀ z, zi = some z → ∃ M, z.shape = [B', M] ∧ (M : Int) = (L : Int) - 1 := by
    intro z e
    obtain ⟨n, m, hs⟩ := shape_rank2 (h4 z e)
    have e0 := h5 z e
    have e1 := h6 z e
    simp only [size, hs] at e0 e1
    refine ⟨m, ?_, ?_⟩
    · rw [hs]; simpa using e0
    · simpa using e1
  suffices hh : 0 < B' ∧ 0 < L ∧ 0 < N by
    obtain ⟨hB, hL, hN⟩ := hh
    refine ⟨B', N, L - 1, hB, hN, by rw [hb, show L - 1 + 1 = L by omega], rfl, fun z e => ?_⟩
    obtain ⟨M, hs, hM⟩ := hzs z e
    rw [hs, show L - 1 = M by omega]
  cases tr with
  | true =>
    rw [if_pos rfl] at h
    unfold Lti.firTransposed at h
    rw [unsqueeze_t2_0, ok_bind, unsqueeze_t2_1, ok_bind, Lti.conj_t3] at h
    obtain ⟨w, hw, _⟩ := ok_bind_inv h
    have := convTranspose1d_inv hw
    exact ⟨this.1, this.2.1, this.2.2⟩
  | false =>
    rw [if_neg (by simp)] at h
    unfold Lti.firDirect at h
    obtain ⟨r, hr, h⟩ := ok_bind_inv h
    have hp : ∃ T p, r.1 = t2 B' T p ∧ (T : Int) = (N : Int) + ((L : Int) - 1) := by
      cases zi with
      | none =>
        obtain ⟨p, hp, hr⟩ := ok_bind_inv hr
        cases hr
        obtain ⟨q, hq, hp⟩ := ok_bind_inv hp
        cases hq
        obtain ⟨hc, hp⟩ := ok_check hp
        cases hp
        refine ⟨_, _, eq_t2 (by simp; rfl), ?_⟩
        have : (0 : Int) ≤ (N : Int) + ((L : Int) - 1) := by simpa using hc.2.1
        simp
        omega
      | some z =>
        obtain ⟨M, hs, hM⟩ := hzs z rfl
        obtain ⟨w, rfl⟩ : ∃ f, z = t2 B' M f := ⟨_, eq_t2 hs⟩
        dsimp only at hr
        rw [flip_t2_1, ok_bind, cat2_t2_1, ok_bind] at hr
        obtain ⟨_, _, hr⟩ := ok_bind_inv hr
        obtain ⟨_, _, hr⟩ := ok_bind_inv hr
        cases hr
        exact ⟨M + N, _, by dsimp only, by omega⟩
    obtain ⟨T, p, ep, hT⟩ := hp
    rw [ep, unsqueeze_t2_0, ok_bind, flip_t2_1, ok_bind, unsqueeze_t2_1, ok_bind] at h
    obtain ⟨w, hw, _⟩ := ok_bind_inv h
    have := conv1d_inv hw
    exact ⟨this.1, this.2.1, by omega⟩

/-- What `lpv.fir` requires of its arguments. -/
theorem lpvFir_ok {b x : Tensor α} {zi : Option (Tensor α)} {tr : Bool} {y : Tensor α × Option (Tensor α)}
    (h : Lpv.fir b x zi tr = .ok y) :
    ∃ B N K, b.shape = [B, N, K + 1] ∧ x.shape = [B, N] ∧ (∀ z, zi = some z → z.shape = [B, K]) ∧ (tr = false → 0 < N) := by
  unfold Lpv.fir at h
  obtain ⟨h1, h⟩ := ok_check h
  obtain ⟨h2, h⟩ := ok_check h
  obtain ⟨h3, h⟩ := ok_check h
  obtain ⟨h0, h⟩ := ok_check h
  obtain ⟨h4, h⟩ := ok_check h
  obtain ⟨h5, h⟩ := ok_check h
  obtain ⟨h6, h⟩ := ok_check h
  obtain ⟨B', T, L, hb⟩ := shape_rank3 h1
  obtain ⟨B, N, hx⟩ := shape_rank2 h2
  rw [hb, hx] at h3
  obtain ⟨rfl, rfl⟩ : B' = B ∧ T = N := by simpa using h3
  have eL : b.size 2 = L := by simp [size, hb]
  have eB : x.size 0 = B' := by simp [size, hx]
  have hzs : ∀ z, zi = some z → ∃ M, z.shape = [B', M] ∧ (M : Int) = (L : Int) - 1 := by
    intro z e
    obtain ⟨n, m, hs⟩ := shape_rank2 (h4 z e)
    have e0 := h5 z e
    have e1 := h6 z e
    rw [eB] at e0
    rw [eL] at e1
    simp only [size, hs] at e0 e1
    refine ⟨m, ?_, ?_⟩
    · rw [hs]; simpa using e0
    · simpa using e1
  have hL : 0 < L := by
    cases zi with
    | none => rw [← eL]; exact h0 rfl
    | some z => obtain ⟨M, _, hM⟩ := hzs z rfl; omega
  refine ⟨B', T, L - 1, by rw [hb, show L - 1 + 1 = L by omega], hx, fun z e => ?_, ?_⟩
  · obtain ⟨M, hs, hM⟩ := hzs z e
    rw [hs, show L - 1 = M by omega]
  · rintro rfl
    rw [if_neg (by simp)] at h
    unfold Lpv.firDirect at h
    obtain ⟨w, hw⟩ : ∃ w, zi.getD (zeros [x.size 0, b.size 2 - 1]) = t2 B' (L - 1) w := by
      cases zi with
      | none => exact ⟨_, eq_t2 (by rw [eB, eL]; rfl)⟩
      | some z =>
        obtain ⟨M, hs, hM⟩ := hzs z rfl
        exact ⟨_, eq_t2 (by rw [Option.getD_some, hs, show L - 1 = M by omega])⟩
    rw [hw, eq_t2 hx, flip_t2_1, ok_bind, cat2_t2_1, ok_bind] at h
    obtain ⟨w, hw, _⟩ := ok_bind_inv h
    obtain ⟨p, hp, hw⟩ := ok_bind_inv hw
    cases hp
    obtain ⟨hc, _⟩ := ok_check hw
    have hc : b.size 2 ≤ L - 1 + T := hc
    omega

/-- What `lpv.allpole` requires of its arguments. -/
theorem lpvAllpole_ok {lpc : Lpv.Lpc α} {a x : Tensor α} {zi : Option (Tensor α)} {tr : Bool} {y : Tensor α × Option (Tensor α)}
    (h : Lpv.allpole lpc a x zi tr = .ok y) :
    ∃ B N P, a.shape = [B, N, P] ∧ x.shape = [B, N] ∧ ∀ z, zi = some z → z.shape = [B, P] := by
  unfold Lpv.allpole at h
  obtain ⟨h1, h⟩ := ok_check h
  obtain ⟨h2, h⟩ := ok_check h
  obtain ⟨h3, h⟩ := ok_check h
  obtain ⟨h4, h⟩ := ok_check h
  obtain ⟨h5, h⟩ := ok_check h
  obtain ⟨h6, h⟩ := ok_check h
  obtain ⟨B', T, P, ha⟩ := shape_rank3 h1
  obtain ⟨B, N, hx⟩ := shape_rank2 h2
  rw [ha, hx] at h3
  obtain ⟨rfl, rfl⟩ : B' = B ∧ T = N := by simpa using h3
  refine ⟨B', T, P, ha, hx, fun z e => ?_⟩
  obtain ⟨n, m, hs⟩ := shape_rank2 (h4 z e)
  have e0 := h5 z e
  have e1 := h6 z e
  simp only [size, hs, ha, hx] at e0 e1
  rw [hs]; simp at e0 e1; rw [e0, e1]

theorem linearRecurrence_ok {a init x y : Tensor α} {u : Int} (h : Lti.linearRecurrence a init x u = .ok y) :
    1 ≤ u ∧ x.rank = 2 ∧ init.rank ≤ 1 ∧ (init.rank = 1 → init.size 0 ≤ 1 ∨ init.size 0 = x.size 0) := by
  unfold Lti.linearRecurrence at h
  rw [Lti.linearRecurrenceAux] at h
  obtain ⟨h1, h⟩ := ok_check h
  obtain ⟨_, h⟩ := ok_check h
  obtain ⟨_, h⟩ := ok_check h
  obtain ⟨_, _, h⟩ := ok_bind_inv h
  obtain ⟨h2, h⟩ := ok_check h
  obtain ⟨h3, h⟩ := ok_check h
  obtain ⟨_, _, h⟩ := ok_bind_inv h
  obtain ⟨h4, h⟩ := ok_check h
  refine ⟨by omega, h1, by omega, fun hr => ?_⟩
  by_contra hc
  exact h3 ⟨hr, by omega, by omega⟩

theorem wrapDim_inv {n p : Nat} {d : Int} (h : wrapDim n d = .ok p) : p < n ∧ (0 ≤ d → (p : Int) = d) ∧ (d < 0 → (p : Int) = d + n) := by
  unfold wrapDim at h
  split_ifs at h <;> cases h <;> omega

theorem prod_eraseIdx_one {l : List Nat} {p : Nat} (hp : p < l.length) (h : l.getD p 0 = 1) : (l.eraseIdx p).prod = l.prod := by
  induction l generalizing p with
  | nil => simp at hp
  | cons a l ih =>
    cases p with
    | zero =>
      have : a = 1 := by simpa using h
      simp [this]
    | succ p =>
      have := ih (p := p) (by simpa using hp) (by simpa using h)
      simp [this]

omit [StarRing α] in
theorem squeeze_numel {x y : Tensor α} {d : Int} (h : squeeze x d = .ok y) : y.shape.prod = x.shape.prod := by
  obtain ⟨p, hp, h⟩ := ok_bind_inv h
  split_ifs at h with h1
  · cases h
    refine prod_eraseIdx_one ?_ h1
    by_contra hc
    rw [List.getD_eq_getElem?_getD, List.getElem?_eq_none (by omega)] at h1
    cases h1
  · cases h; rfl

omit [StarRing α] in
theorem flatten_all_shape {x y : Tensor α} (h : flatten x 0 (-1) = .ok y) : y.shape = [x.shape.prod] := by
  obtain ⟨p, hp, h⟩ := ok_bind_inv h
  obtain ⟨q, hq, h⟩ := ok_bind_inv h
  obtain ⟨_, h⟩ := ok_check h
  obtain ⟨h1, h2, _⟩ := wrapDim_inv hp
  obtain ⟨h3, _, h4⟩ := wrapDim_inv hq
  have e0 : p = 0 := by have := h2 (by omega); omega
  have e1 : q + 1 = x.shape.length := by have := h4 (by omega); rw [rank] at this; omega
  cases h
  simp [ofFn, e0, e1]

omit [StarRing α] in
theorem combPad_shape {x y : Tensor α} {B N : Nat} {l r : Int} {v : α} (hx : x.shape = [B, N]) (h : padDim x 1 l r v = .ok y) :
    ∃ n, y.shape = [B, n] := by
  obtain ⟨p, hp, h⟩ := ok_bind_inv h
  obtain ⟨_, h⟩ := ok_check h
  have : p = 1 := by have := (wrapDim_inv hp).2.1 (by omega); omega
  cases h
  exact ⟨_, by rw [this]; simp only [ofFn, hx]; rfl⟩

omit [StarRing α] in
theorem combFold_size {x f g y : Tensor α} {B N D : Nat} (hx : x.shape = [B, N]) (hf : unflatten x 1 [none, some D] = .ok f)
    (hg : mT f = .ok g) (hy : flatten g 0 1 = .ok y) : y.size 0 = B * D := by
  obtain ⟨p, hp, hf⟩ := ok_bind_inv hf
  obtain ⟨ss, hss, hf⟩ := ok_bind_inv hf
  have e1 : p = 1 := by have := (wrapDim_inv hp).2.1 (by omega); omega
  have es : ∃ n, ss = [n, D] := by
    unfold resolve at hss
    dsimp only at hss
    split_ifs at hss <;> (cases hss; exact ⟨_, rfl⟩)
  obtain ⟨n, rfl⟩ := es
  cases hf
  obtain ⟨q, hq, hg⟩ := ok_bind_inv hg
  obtain ⟨r, hr, hg⟩ := ok_bind_inv hg
  have el : (ofFn (x.shape.take p ++ [n, D] ++ x.shape.drop (p + 1)) fun l =>
    x.get (l.take p ++ ravel [n, D] ((l.drop p).take [n, D].length) :: l.drop (p + [n, D].length))).shape = [B, n, D] := by
    rw [e1]; simp [ofFn, hx]
  rw [rank, el] at hq hr
  have eq : q = 1 := by have := (wrapDim_inv hq).2.2 (by omega); simp at this; omega
  have er : r = 2 := by have := (wrapDim_inv hr).2.2 (by omega); simp at this; omega
  rw [el] at hg
  have eg : g.shape = [B, D, n] := by cases hg; rw [eq, er]; rfl
  obtain ⟨p', hp', hy⟩ := ok_bind_inv hy
  obtain ⟨q', hq', hy⟩ := ok_bind_inv hy
  obtain ⟨_, hy⟩ := ok_check hy
  have e0 : p' = 0 := by have := (wrapDim_inv hp').2.1 (by omega); omega
  have e1 : q' = 1 := by have := (wrapDim_inv hq').2.1 (by omega); omega
  cases hy
  rw [e0, e1, eg]
  simp [size, ofFn]

omit [StarRing α] in
/-- The initial values of the folded recurrences of `comb_filter`. -/
theorem combInit_ok {a x z y : Tensor α} (h : Lti.combInit a x (some z) = .ok y) :
    y.shape = [if z.rank = 1 then x.size 0 * z.shape.prod else z.shape.prod] := by
  unfold Lti.combInit at h
  dsimp only at h
  split_ifs at h with h1
  · obtain ⟨w, hw, h⟩ := ok_bind_inv h
    obtain ⟨n, hn⟩ := shape_rank1 h1
    obtain ⟨_, _, hw⟩ := ok_bind_inv hw
    cases hw
    obtain ⟨_, h⟩ := ok_check h
    cases h
    simp [ofFn, hn, h1]
  · obtain ⟨w, hw, h⟩ := ok_bind_inv h
    obtain ⟨_, _, hw⟩ := ok_bind_inv hw
    cases hw
    rw [flatten_all_shape h, if_neg h1]
    rfl

/-- What `comb_filter` requires of its arguments. -/
theorem combFilter_ok {ext : Bool} {a x : Tensor α} {delay u : Int} {zi : Option (Tensor α)} {y : Tensor α × Option (Tensor α)}
    (h : Lti.combFilter ext a delay x zi u = .ok y) :
    ∃ B N, (a.shape = [] ∨ a.shape = [B]) ∧ x.shape = [B, N] ∧ 1 ≤ delay ∧ 1 ≤ u ∧ (delay = 1 ∨ ext = true) ∧
      ∀ z, zi = some z → (z.rank ≠ 1 ∨ delay = 1) ∧ (z.shape.prod ≤ 1 ∨ z.shape.prod = B * delay) ∨
        z.rank = 1 ∧ (B * z.shape.prod ≤ 1 ∨ z.shape.prod = delay) := by
  unfold Lti.combFilter at h
  obtain ⟨h1, h⟩ := ok_check h
  obtain ⟨h2, h⟩ := ok_check h
  obtain ⟨h3, h⟩ := ok_check h
  obtain ⟨h4, h⟩ := ok_check h
  obtain ⟨B, N, hx⟩ := shape_rank2 h2
  have eB : x.size 0 = B := by simp [size, hx]
  refine ⟨B, N, ?_, hx, ?_⟩
  · rcases Nat.lt_or_ge a.rank 1 with hr | hr
    · exact Or.inl (List.length_eq_zero_iff.1 (show a.shape.length = 0 by rw [rank] at hr; omega))
    · have hr : a.rank = 1 := by omega
      obtain ⟨n, hn⟩ := shape_rank1 hr
      have := h4 hr
      rw [eB] at this
      simp [size, hn] at this
      rw [hn, this]; exact Or.inr rfl
  · by_cases hd : delay = 1
    · rw [if_pos hd] at h
      obtain ⟨i, hi, h⟩ := ok_bind_inv h
      obtain ⟨_, hr, _⟩ := ok_bind_inv h
      obtain ⟨e1, _, e2, e3⟩ := linearRecurrence_ok hr
      refine ⟨by omega, e1, Or.inl hd, ?_⟩
      rintro z rfl
      have hp := squeeze_numel hi
      left
      refine ⟨Or.inr hd, ?_⟩
      rw [← hp, hd, mul_one]
      rcases Nat.lt_or_ge i.rank 1 with hr | hr
      · rw [List.length_eq_zero_iff.1 (show i.shape.length = 0 by rw [rank] at hr; omega)]
        exact Or.inl (by simp)
      · obtain ⟨n, hn⟩ := shape_rank1 (show i.rank = 1 by omega)
        have := e3 (by omega)
        rw [eB] at this
        simp [size, hn] at this
        rw [hn]
        simp
        omega
    · rw [if_neg hd] at h
      obtain ⟨h5, h⟩ := ok_check h
      have hD : ((delay.toNat : Nat) : Int) = delay := by omega
      obtain ⟨xp, hxp, h⟩ := ok_bind_inv h
      obtain ⟨f, hf, h⟩ := ok_bind_inv h
      obtain ⟨g, hg, h⟩ := ok_bind_inv h
      obtain ⟨_, _, h⟩ := ok_bind_inv h
      obtain ⟨i, hi, h⟩ := ok_bind_inv h
      obtain ⟨fl, hfl, h⟩ := ok_bind_inv h
      obtain ⟨_, hr, _⟩ := ok_bind_inv h
      unfold Lti.combRecurrence at hr
      split_ifs at hr with he
      obtain ⟨e1, _, e2, e3⟩ := linearRecurrence_ok hr
      refine ⟨by omega, e1, Or.inr he, ?_⟩
      rintro z rfl
      have hi := combInit_ok hi
      have hpx : ∃ n, xp.shape = [B, n] := by
        split_ifs at hxp
        · exact combPad_shape hx hxp
        · cases hxp; exact ⟨N, hx⟩
      obtain ⟨n, hpx⟩ := hpx
      have exB : xp.size 0 = B := by simp [size, hpx]
      have hs := combFold_size hpx hf hg hfl
      have := e3 (by rw [rank, hi]; rfl)
      have ei : i.size 0 = if z.rank = 1 then xp.size 0 * z.shape.prod else z.shape.prod := by
        show (if (0 : Int) ≤ 0 then i.shape.getD 0 0 else _) = _
        rw [hi]; rfl
      rw [hs, ei, exB] at this
      split_ifs at this with h1
      · refine Or.inr ⟨h1, ?_⟩
        rcases this with this | this
        · exact Or.inl this
        · rcases Nat.eq_zero_or_pos B with hB | hB
          · left; simp [hB]
          · right
            have := Nat.eq_of_mul_eq_mul_left hB this
            omega
      · refine Or.inl ⟨Or.inl h1, this.imp id fun h => ?_⟩
        rw [h]; push_cast; rw [hD]

end Phil

namespace Torch.Tensor
variable {α : Type} [Zero α]

theorem zip22_inv {p q p' q' : Nat} {f : α → α → α} {g h : Nat → Nat → α} {y : Tensor α}
    (e : zipWith f (t2 p q g) (t2 p' q' h) = .ok y) : ∃ r s, y.shape = [r, s] ∧ bdim p p' = some r ∧ bdim q q' = some s := by
  unfold zipWith at e
  split at e
  next s hs =>
    cases e
    have hs : (bshapeR [q, p] [q', p']).map List.reverse = some s := hs
    simp only [bshapeR] at hs
    cases h1 : bdim q q' with
    | none => rw [h1] at hs; simp at hs
    | some s' =>
      cases h2 : bdim p p' with
      | none => rw [h1, h2] at hs; simp at hs
      | some r' =>
        rw [h1, h2] at hs
        simp at hs
        exact ⟨r', s', by rw [← hs]; rfl, rfl, rfl⟩
  next => cases e

theorem zip21_inv {p q q' : Nat} {f : α → α → α} {g : Nat → Nat → α} {h : Nat → α} {y : Tensor α}
    (e : zipWith f (t2 p q g) (t1 q' h) = .ok y) : ∃ s, y.shape = [p, s] ∧ bdim q q' = some s := by
  unfold zipWith at e
  split at e
  next s hs =>
    cases e
    have hs : (bshapeR [q, p] [q']).map List.reverse = some s := hs
    simp only [bshapeR] at hs
    cases h1 : bdim q q' with
    | none => rw [h1] at hs; simp at hs
    | some s' =>
      rw [h1] at hs
      simp at hs
      exact ⟨s', by rw [← hs]; rfl, rfl⟩
  next => cases e

end Torch.Tensor

namespace Phil
open Torch Torch.Tensor Spec
open Phil.Mat (companion)
variable {α : Type} [CommRing α] [StarRing α]

omit [StarRing α] in
/-- Coefficients with one or two axes, as rows of a table. -/
theorem rows_of_rank {b : Tensor α} (h : b.rank = 1 ∨ b.rank = 2) : ∃ R K v, Rows R K b v ∧
    ((b.rank = 1 ∧ b.shape = [K] ∧ R = 1) ∨ b.rank = 2 ∧ b.shape = [R, K]) := by
  rcases h with h | h
  · obtain ⟨n, hs⟩ := shape_rank1 h
    rw [eq_t1 hs]; exact ⟨1, n, _, .shared _, Or.inl ⟨rfl, rfl, rfl⟩⟩
  · obtain ⟨n, m, hs⟩ := shape_rank2 h
    rw [eq_t2 hs]; exact ⟨n, m, _, .batched _, Or.inr ⟨rfl, rfl⟩⟩

omit [StarRing α] in
theorem padOrders_inv {R K Q P : Nat} {b a : Tensor α} {bv av : Nat → Nat → α} {p : Tensor α × Tensor α} (hb : Rows R K b bv)
    (ha : Rows Q P a av) (h : Lti.padOrders b a = .ok p) :
    (∃ v, Rows R (max P (K - 1) + 1) p.1 v) ∧ p.1.rank = b.rank ∧ (∃ v, Rows Q (max P (K - 1)) p.2 v) ∧ p.2.rank = a.rank := by
  unfold Lti.padOrders at h
  rw [Lti.size_rows hb, Lti.size_rows ha] at h
  split_ifs at h with h1 h2
  · obtain ⟨b', e, h⟩ := ok_bind_inv h
    cases h
    rw [show max P (K - 1) = P by omega]
    cases hb with
    | shared f =>
      rw [padDim_t1_n1_right, show K + (P + 1 - K) = P + 1 by omega] at e
      cases e; dsimp only; exact ⟨⟨_, .shared _⟩, rfl, ⟨_, ha⟩, rfl⟩
    | batched f =>
      rw [padDim_t2_n1_right, show K + (P + 1 - K) = P + 1 by omega] at e
      cases e; dsimp only; exact ⟨⟨_, .batched _⟩, rfl, ⟨_, ha⟩, rfl⟩
  · obtain ⟨a', e, h⟩ := ok_bind_inv h
    cases h
    rw [show max P (K - 1) = K - 1 by omega, show K - 1 + 1 = K by omega]
    cases ha with
    | shared f =>
      rw [padDim_t1_n1_right, show P + (K - P - 1) = K - 1 by omega] at e
      cases e; dsimp only; exact ⟨⟨_, hb⟩, rfl, ⟨_, .shared _⟩, rfl⟩
    | batched f =>
      rw [padDim_t2_n1_right, show P + (K - P - 1) = K - 1 by omega] at e
      cases e; dsimp only; exact ⟨⟨_, hb⟩, rfl, ⟨_, .batched _⟩, rfl⟩
  · cases h
    rw [show max P (K - 1) = P by omega, show P + 1 = K by omega]
    exact ⟨⟨_, hb⟩, rfl, ⟨_, ha⟩, rfl⟩

omit [StarRing α] in
theorem companion_none1 {f : Nat → α} : ∃ g, companion (t1 0 f) = .ok (t2 0 0 g) := ⟨_, by
  unfold companion
  refine check_step (by simp) ?_
  refine bind_step (v := t1 (0 * 0) fun i => if i < 0 then -f i else 0) ?_ ?_
  · rw [show zeros ((t1 0 f).shape.dropLast ++ [(t1 0 f).size (-1) * ((t1 0 f).size (-1) - 1)]) =
      (t1 (0 * (0 - 1)) fun _ => (0 : α)) from by rw [size_t1_n1]; exact full_t1 _ 0]
    rw [neg, map_t1, cat2_t1_n1]
  refine bind_step (by rw [size_t1_n1]; exact unflatten_t1_n1_c_c 0 0 _) ?_
  exact congrArg Except.ok (eq_t2 rfl)⟩

omit [StarRing α] in
theorem companion_none2 {B : Nat} {f : Nat → Nat → α} : ∃ g, companion (t2 B 0 f) = .ok (t3 B 0 0 g) := ⟨_, by
  unfold companion
  refine check_step (by simp) ?_
  refine bind_step (v := t2 B (0 * 0) fun b i => if i < 0 then -f b i else 0) ?_ ?_
  · rw [show zeros ((t2 B 0 f).shape.dropLast ++ [(t2 B 0 f).size (-1) * ((t2 B 0 f).size (-1) - 1)]) =
      (t2 B (0 * (0 - 1)) fun _ _ => (0 : α)) from by rw [size_t2_n1]; exact full_t2 _ _ 0]
    rw [neg, map_t2, cat2_t2_n1]
  refine bind_step (by rw [size_t2_n1]; exact unflatten_t2_n1_c_c B 0 0 _) ?_
  exact congrArg Except.ok (eq_t3 rfl)⟩

omit [StarRing α] in
theorem companion_inv1 {M : Nat} {f : Nat → α} {A : Tensor α} (h : companion (t1 M f) = .ok A) : ∃ g, A = t2 M M g := by
  rcases Nat.eq_zero_or_pos M with rfl | hM
  · obtain ⟨g, e⟩ := companion_none1 (f := f)
    rw [e] at h; cases h; exact ⟨_, rfl⟩
  · rw [Mat.companion_t1 _ hM] at h; cases h; exact ⟨_, rfl⟩

omit [StarRing α] in
theorem companion_inv2 {B M : Nat} {f : Nat → Nat → α} {A : Tensor α} (h : companion (t2 B M f) = .ok A) :
    ∃ g, A = t3 B M M g := by
  rcases Nat.eq_zero_or_pos M with rfl | hM
  · obtain ⟨g, e⟩ := companion_none2 (B := B) (f := f)
    rw [e] at h; cases h; exact ⟨_, rfl⟩
  · rw [Mat.companion_t2 _ hM] at h; cases h; exact ⟨_, rfl⟩

omit [StarRing α] in
theorem outputCoefs_shape22 {R Q M : Nat} {f g : Nat → Nat → α} {r : Tensor α × Tensor α}
    (h : Lti.outputCoefs (t2 R (M + 1) f) (t2 Q M g) = .ok r) :
    ∃ p s, r.1.shape = [p, s] ∧ (R = Q ∧ p = Q ∨ R = 1 ∧ p = Q ∨ Q = 1 ∧ p = R) := by
  have e1 : pyStop (M + 1) (some 1) - pyStart (M + 1) none = 1 := by rw [pyStop_one, pyStart_none]; omega
  have e2 : pyStop (M + 1) none - pyStart (M + 1) (some 1) = M := by rw [pyStop_none, pyStart_one]; omega
  unfold Lti.outputCoefs at h
  rw [slice_t2_n1, ok_bind, slice_t2_n1, ok_bind, e1, e2] at h
  obtain ⟨m, hm, h⟩ := ok_bind_inv h
  obtain ⟨C, hC, h⟩ := ok_bind_inv h
  obtain ⟨D, hD, h⟩ := ok_bind_inv h
  cases h
  obtain ⟨p, q, hs, h1, h2⟩ := zip22_inv hm
  rw [eq_t2 hs] at hC
  obtain ⟨p', q', hs', h1', h2'⟩ := zip22_inv hC
  refine ⟨p', q', hs', ?_⟩
  unfold bdim at h1 h1'
  split_ifs at h1 h1' <;> (cases h1; cases h1'; omega)

omit [StarRing α] in
theorem outputCoefs_shape21 {R M : Nat} {f : Nat → Nat → α} {g : Nat → α} {r : Tensor α × Tensor α}
    (h : Lti.outputCoefs (t2 R (M + 1) f) (t1 M g) = .ok r) : ∃ s, r.1.shape = [R, s] := by
  have e1 : pyStop (M + 1) (some 1) - pyStart (M + 1) none = 1 := by rw [pyStop_one, pyStart_none]; omega
  have e2 : pyStop (M + 1) none - pyStart (M + 1) (some 1) = M := by rw [pyStop_none, pyStart_one]; omega
  unfold Lti.outputCoefs at h
  rw [slice_t2_n1, ok_bind, slice_t2_n1, ok_bind, e1, e2] at h
  obtain ⟨m, hm, h⟩ := ok_bind_inv h
  obtain ⟨C, hC, h⟩ := ok_bind_inv h
  obtain ⟨D, hD, h⟩ := ok_bind_inv h
  cases h
  obtain ⟨q, hs, h2⟩ := zip21_inv hm
  rw [eq_t2 hs] at hC
  obtain ⟨p', q', hs', h1', h2'⟩ := zip22_inv hC
  refine ⟨q', ?_⟩
  unfold bdim at h1'
  rw [if_pos rfl] at h1'
  cases h1'; exact hs'

omit [StarRing α] in
theorem rows_rank1 {R n : Nat} {X : Tensor α} {v : Nat → Nat → α} (h : Rows R n X v) (hr : X.rank = 1) : ∃ f, X = t1 n f := by
  cases h with
  | shared f => exact ⟨_, rfl⟩
  | batched f => simp at hr

omit [StarRing α] in
theorem rows_rank2 {R n : Nat} {X : Tensor α} {v : Nat → Nat → α} (h : Rows R n X v) (hr : X.rank = 2) : ∃ f, X = t2 R n f := by
  cases h with
  | shared f => simp at hr
  | batched f => exact ⟨_, rfl⟩

omit [StarRing α] in
theorem matVals_batch {B n m : Nat} {A : Tensor α} {v : Nat → Nat → Nat → α} (h : MatVals B n m A v) (hr : A.rank = 3) :
    A.size 0 = B := by
  cases h with
  | shared f => simp at hr
  | batched f => rfl

omit [StarRing α] in
theorem shape2_of_rank {x : Tensor α} (h : x.rank = 2) : x.shape = [x.size 0, x.size 1] := by
  obtain ⟨n, m, hs⟩ := shape_rank2 h
  simp [size, hs]

omit [StarRing α] in
theorem ltiInput_shape {B N M : Nat} {Bt x : Tensor α} {v : Nat → Nat → Nat → α} (h : LtiInput B N M (some Bt) x v)
    (hx : x.rank = 2) (hB : Bt.rank = 2) : Bt.shape = [B, M] := by
  cases h with
  | vec g x => simp at hB
  | batchVec g x => rfl
  | mat F g x h => simp at hx
  | batchMat F g x => simp at hx

/-- What `_ssm_lfilter` of `lti/filtering.py` requires of its arguments. -/
theorem ltiSsmLfilter_ok {b a x : Tensor α} {zi : Option (Tensor α)} {form : Lti.Form} {u : Option Int}
    {y : Tensor α × Option (Tensor α)} (hb : b.rank = 1 ∨ b.rank = 2) (ha : a.rank = 1 ∨ a.rank = 2) (hx : x.rank ≤ 2)
    (h : Lti.ssmLfilter b a x zi form u = .ok y) :
    ∃ B N K P, 0 < N ∧ x.shape = [B, N] ∧ (a.shape = [P] ∨ a.shape = [B, P]) ∧
      (b.shape = [K] ∨ ∃ R, b.shape = [R, K] ∧ (form = .df2 ∨ R = 1 ∨ R = B)) ∧ form ≠ .other ∧
      (∀ i, u = some i → 1 ≤ i) ∧ (form = .df2 ∨ form = .tdf2 → ∃ z, InitState B (max P (K - 1)) zi z) := by
  obtain ⟨R, K, bv, hbr, hbs⟩ := rows_of_rank hb
  obtain ⟨Q, P, av, har, has⟩ := rows_of_rank ha
  unfold Lti.ssmLfilter at h
  obtain ⟨ba, hba, h⟩ := ok_bind_inv h
  obtain ⟨A, hA, h⟩ := ok_bind_inv h
  obtain ⟨⟨bv', hb'⟩, hbr', ⟨av', ha'⟩, har'⟩ := padOrders_inv hbr har hba
  generalize hM : max P (K - 1) = M at hb' ha'
  have hA : (a.shape = [P] ∧ (∃ g, ba.2 = t1 M g) ∧ ∃ g, A = t2 M M g) ∨
      a.shape = [Q, P] ∧ (∃ g, ba.2 = t2 Q M g) ∧ ∃ g, A = t3 Q M M g := by
    rcases has with ⟨hr, hs, _⟩ | ⟨hr, hs⟩
    · obtain ⟨f, e⟩ := rows_rank1 ha' (har'.trans hr)
      rw [e] at hA
      exact Or.inl ⟨hs, ⟨f, e⟩, companion_inv1 hA⟩
    · obtain ⟨f, e⟩ := rows_rank2 ha' (har'.trans hr)
      rw [e] at hA
      exact Or.inr ⟨hs, ⟨f, e⟩, companion_inv2 hA⟩
  have hMA : A.size (-1) = M := by
    rcases hA with ⟨_, _, g, rfl⟩ | ⟨_, _, g, rfl⟩ <;> rfl
  have haB : (A.rank = 3 → x.size 0 = A.size 0) → a.shape = [P] ∨ a.shape = [x.size 0, P] := by
    intro hh
    rcases hA with ⟨hs, _⟩ | ⟨hs, _, g, rfl⟩
    · exact Or.inl hs
    · have : x.size 0 = Q := hh rfl
      exact Or.inr (by rw [hs, this])
  have hAT : ∀ AT, mT A = .ok AT → (conj AT).size (-1) = M ∧ ((conj AT).rank = A.rank) ∧ (conj AT).size 0 = A.size 0 := by
    intro AT e
    rcases hA with ⟨_, _, g, rfl⟩ | ⟨_, _, g, rfl⟩
    · rw [show mT (t2 M M g) = _ from transpose_t2_n2_n1 _ _ _] at e; cases e; exact ⟨rfl, rfl, rfl⟩
    · rw [show mT (t3 Q M M g) = _ from transpose_t3_n2_n1 _ _ _ _] at e; cases e; exact ⟨rfl, rfl, rfl⟩
  have hbK : b.shape = [K] ∨ b.shape = [R, K] := by
    rcases hbs with ⟨_, hs, _⟩ | ⟨_, hs⟩
    · exact Or.inl hs
    · exact Or.inr hs
  cases form with
  | df2 =>
    obtain ⟨cd, hcd, h⟩ := ok_bind_inv h
    have hk := ltiStateSpace_ok h
    have hr := (ok_check h).1
    refine ⟨x.size 0, x.size 1, K, P, hk.1, shape2_of_rank (by omega), haB ?_, ?_, by simp, hk.2.2.2.2.2.2.1, fun _ => ?_⟩
    · intro hr
      obtain ⟨Av, hAv⟩ := hk.2.1
      exact (matVals_batch hAv hr).symm
    · rcases hbK with hs | hs
      · exact Or.inl hs
      · exact Or.inr ⟨R, hs, Or.inl rfl⟩
    · rw [hM, ← hMA]; exact hk.2.2.2.2.2.1
  | tdf2 =>
    obtain ⟨cd, hcd, h⟩ := ok_bind_inv h
    obtain ⟨AT, hT, h⟩ := ok_bind_inv h
    obtain ⟨e1, e2, e3⟩ := hAT AT hT
    have hk := ltiStateSpace_ok h
    have hr := (ok_check h).1
    have hr2 : x.rank = 2 := by omega
    refine ⟨x.size 0, x.size 1, K, P, hk.1, shape2_of_rank hr2, haB ?_, ?_, by simp, hk.2.2.2.2.2.2.1, fun _ => ?_⟩
    · intro hr
      obtain ⟨Av, hAv⟩ := hk.2.1
      rw [← e3]
      exact (matVals_batch hAv (e2.trans hr)).symm
    · rcases hbs with ⟨_, hs, _⟩ | ⟨hr, hs⟩
      · exact Or.inl hs
      · refine Or.inr ⟨R, hs, Or.inr ?_⟩
        obtain ⟨f, ef⟩ := rows_rank2 hb' (hbr'.trans hr)
        obtain ⟨v, hv⟩ := hk.2.2.1
        have hQ : x.size 0 = A.size 0 ∨ A.rank = 2 := by
          rcases hA with ⟨_, _, g, rfl⟩ | ⟨_, _, g, rfl⟩
          · exact Or.inr rfl
          · left
            obtain ⟨Av, hAv⟩ := hk.2.1
            rw [← e3]
            exact (matVals_batch hAv (e2.trans rfl)).symm
        rcases hA with ⟨_, ⟨g, eg⟩, g', rfl⟩ | ⟨_, ⟨g, eg⟩, g', rfl⟩
        · rw [ef, eg] at hcd
          obtain ⟨s, hs1⟩ := outputCoefs_shape21 hcd
          have := ltiInput_shape hv hr2 (rank_of hs1)
          have hs1 : (conj cd.1).shape = [R, s] := hs1
          rw [hs1] at this
          right; simpa using (List.cons.inj this).1
        · rw [ef, eg] at hcd
          obtain ⟨p, s, hs1, hp⟩ := outputCoefs_shape22 hcd
          have := ltiInput_shape hv hr2 (rank_of hs1)
          have hs1 : (conj cd.1).shape = [p, s] := hs1
          rw [hs1] at this
          have hp' := (List.cons.inj this).1
          have hQ : x.size 0 = Q := by
            rcases hQ with hQ | hQ
            · exact hQ
            · simp at hQ
          omega
    · rw [hM, ← e1]; exact hk.2.2.2.2.2.1
  | df1 =>
    obtain ⟨bb, hbb, h⟩ := ok_bind_inv h
    obtain ⟨v, hv, h⟩ := ok_bind_inv h
    obtain ⟨w, hw, _⟩ := ok_bind_inv h
    obtain ⟨B, N, L, hB, hN, hsb, hsx, _⟩ := ltiFir_ok hv
    have e0 : x.size 0 = B := by simp [size, hsx]
    have e1 : x.size 1 = N := by simp [size, hsx]
    have hc := ltiRecursion_ok hw
    have ez : x.size 0 = v.1.size 0 := hc.2.2.2.2.2.2.1
    refine ⟨x.size 0, x.size 1, K, P, by omega, by rw [hsx, e0, e1], haB fun hr => ez.trans (hc.2.2.2.1 hr), ?_, by simp,
      ?_, by simp⟩
    · rcases hbs with ⟨_, hs, _⟩ | ⟨hr, hs⟩
      · exact Or.inl hs
      · obtain ⟨f, ef⟩ := rows_rank2 hb' (hbr'.trans hr)
        rw [ef] at hbb
        have := (expand2_shape (shape_t2 _ _ _) hbb).2
        exact Or.inr ⟨R, hs, Or.inr (by omega)⟩
    · rintro i rfl; exact hc.2.2.2.2.2.2.2.2
  | tdf1 =>
    obtain ⟨bb, hbb, h⟩ := ok_bind_inv h
    obtain ⟨AT, hT, h⟩ := ok_bind_inv h
    obtain ⟨v, hv, h⟩ := ok_bind_inv h
    obtain ⟨e1, e2, e3⟩ := hAT AT hT
    have hc := ltiRecursion_ok hv
    have hr2 : x.rank = 2 := by have := hc.1; omega
    refine ⟨x.size 0, x.size 1, K, P, lti_nonempty (signal_of_rank hc.1) hv, shape2_of_rank hr2,
      haB fun hr => (hc.2.2.2.1 (e2.trans hr)).trans e3, ?_, by simp, ?_, by simp⟩
    · rcases hbs with ⟨_, hs, _⟩ | ⟨hr, hs⟩
      · exact Or.inl hs
      · obtain ⟨f, ef⟩ := rows_rank2 hb' (hbr'.trans hr)
        rw [ef, Lti.conj_t2] at hbb
        have := (expand2_shape (shape_t2 _ _ _) hbb).2
        exact Or.inr ⟨R, hs, Or.inr (by omega)⟩
    · rintro i rfl; exact hc.2.2.2.2.2.2.2.2
  | other => cases h

omit [StarRing α] in
/-- The signal that `lfilter` hands to the backend. -/
theorem lfilterSignal_ok {x x2 : Tensor α} {B N : Nat}
    (h : (if x.rank = 1 then unsqueeze x 0
      else if 2 < x.rank then Except.error "ValueError: Input signal x must be 1D or 2D." else pure x) = Except.ok x2) :
    x2.rank ≤ 2 ∧ (x2.shape = [B, N] → (x.shape = [N] ∧ B = 1) ∨ x.shape = [B, N]) := by
  split_ifs at h with h1 h2
  · obtain ⟨n, hn⟩ := shape_rank1 h1
    have hs := unsqueeze0_shape h
    rw [hn] at hs
    refine ⟨by rw [rank_of hs]; simp, fun e => ?_⟩
    rw [hs] at e
    simp at e
    exact Or.inl ⟨by rw [hn, e.2], e.1.symm⟩
  · cases h
    exact ⟨by omega, fun e => Or.inr e⟩

/-- What `lti.lfilter` requires of its arguments. -/
theorem ltiLfilter_ok {b a x : Tensor α} {zi : Option (Tensor α)} {form : Lti.Form} {u : Option Int}
    {y : Tensor α × Option (Tensor α)} (h : Lti.lfilter b a x zi form u = .ok y) :
    ∃ B N K P, 0 < N ∧ ((x.shape = [N] ∧ B = 1) ∨ x.shape = [B, N]) ∧ (a.shape = [P] ∨ a.shape = [B, P]) ∧
      (b.shape = [K] ∨ ∃ R, b.shape = [R, K] ∧ (form = .df2 ∨ R = 1 ∨ R = B)) ∧ form ≠ .other ∧
      (∀ i, u = some i → 1 ≤ i) ∧ (form = .df2 ∨ form = .tdf2 → ∃ z, InitState B (max P (K - 1)) zi z) := by
  unfold Lti.lfilter Lti.lfilterWith at h
  obtain ⟨x2, hx2, h⟩ := ok_bind_inv h
  obtain ⟨hb, h⟩ := ok_check h
  obtain ⟨ha, h⟩ := ok_check h
  obtain ⟨r, hr, _⟩ := ok_bind_inv h
  have hr : Lti.ssmLfilter b a x2 zi form u = .ok r := hr
  have h1 := (lfilterSignal_ok (B := 0) (N := 0) hx2).1
  obtain ⟨B, N, K, P, hN, hs, hh⟩ := ltiSsmLfilter_ok hb ha h1 hr
  have h2 := (lfilterSignal_ok (B := B) (N := N) hx2).2 hs
  exact ⟨B, N, K, P, hN, h2, hh⟩

end Phil

namespace Torch.Tensor
variable {α : Type} [Zero α]

theorem zip_second {x y r : Tensor α} {f : α → α → α} {q p q' p' : Nat} {l l' : List Nat} (h : zipWith f x y = .ok r)
    (hx : x.shape.reverse = q :: p :: l) (hy : y.shape.reverse = q' :: p' :: l') : p = p' ∨ p = 1 ∨ p' = 1 := by
  unfold zipWith at h
  split at h
  next s hs =>
    unfold bshape at hs
    rw [hx, hy] at hs
    by_contra hc
    rw [not_or, not_or] at hc
    simp only [bshapeR, bdim, if_neg hc.1, if_neg hc.2.1, if_neg hc.2.2] at hs
    split at hs <;> simp_all
  next => cases h

theorem bshapeR_length : ∀ {xs ys zs : List Nat}, bshapeR xs ys = some zs → xs.length ≤ zs.length
  | [], _, _, _ => Nat.zero_le _
  | _ :: _, [], _, h => by cases h; exact le_rfl
  | x :: xs, y :: ys, zs, h => by
    unfold bshapeR at h
    split at h
    next d r _ hr => cases h; have := bshapeR_length hr; simpa using this
    next => cases h

/-- Broadcasting does not remove axes. -/
theorem zip_rank {x y r : Tensor α} {f : α → α → α} (h : zipWith f x y = .ok r) : x.rank ≤ r.rank := by
  unfold zipWith at h
  split at h
  next s hs =>
    cases h
    unfold bshape at hs
    rw [Option.map_eq_some_iff] at hs
    obtain ⟨l, hl, rfl⟩ := hs
    have := bshapeR_length hl
    rw [List.length_reverse] at this
    exact this.trans_eq (List.length_reverse (as := l)).symm
  next => cases h

theorem bshapeR_head {x z : Nat} {xs ys zs : List Nat} (h : bshapeR (x :: xs) ys = some (z :: zs)) :
    (x ≠ 1 → z = x) ∧ ∃ ys', bshapeR xs ys' = some zs := by
  cases ys with
  | nil =>
    cases h
    refine ⟨fun _ => rfl, [], ?_⟩
    cases xs <;> rfl
  | cons y ys =>
    unfold bshapeR at h
    split at h
    next d r hd hr =>
      cases h
      refine ⟨fun h1 => ?_, ys, hr⟩
      unfold bdim at hd
      rw [if_neg h1] at hd
      split_ifs at hd with h2
      · cases hd; exact h2.symm
      · cases hd; rfl
    next => cases h

/-- An axis of the first operand that is not one is kept. -/
theorem zip_third {x y r : Tensor α} {f : α → α → α} {q p c d d' p' q' : Nat} (h : zipWith f x y = .ok r)
    (hx : x.shape = [c, p, q]) (hc : c ≠ 1) (hr : r.shape = [d, p', q']) (hd : d' = d) : c = d' := by
  subst hd
  unfold zipWith at h
  split at h
  next s hs =>
    cases h
    have hr : s = [d', p', q'] := hr
    subst hr
    unfold bshape at hs
    rw [hx] at hs
    have hs : bshapeR [q, p, c] y.shape.reverse = some [q', p', d'] := by
      rcases e : bshapeR [q, p, c] y.shape.reverse with _ | l
      · rw [show [c, p, q].reverse = [q, p, c] from rfl, e] at hs; cases hs
      · rw [show [c, p, q].reverse = [q, p, c] from rfl, e] at hs
        simp only [Option.map_some, Option.some.injEq] at hs
        rw [← List.reverse_reverse l, hs]; rfl
    obtain ⟨_, ys, hs⟩ := bshapeR_head hs
    obtain ⟨_, ys, hs⟩ := bshapeR_head hs
    exact ((bshapeR_head hs).1 hc).symm
  next => cases h

theorem expand23_shape {n p q : Nat} {f : Nat → Nat → α} {y : Tensor α} (h : expand (t2 p q f) [some n, none, none] = .ok y) :
    y.shape = [n, p, q] := by
  rw [expand_mp_nXX] at h; cases h; rfl

theorem expand33_shape {n r p q : Nat} {f : Nat → Nat → Nat → α} {y : Tensor α}
    (h : expand (t3 r p q f) [some n, none, none] = .ok y) : y.shape = [n, p, q] ∧ (r = 1 ∨ r = n) := by
  obtain ⟨_, h⟩ := ok_check h
  obtain ⟨_, h⟩ := ok_check h
  obtain ⟨hb, h⟩ := ok_check h
  cases h
  refine ⟨rfl, ?_⟩
  have hb : (bshapeR [q, p, r] [q, p, n]).map List.reverse = some [n, p, q] := hb
  by_contra hc
  rw [not_or] at hc
  simp only [bshapeR, bdim, if_true, if_neg hc.1, if_neg hc.2] at hb
  by_cases hn : n = 1 <;> simp [hn] at hb
  omega

end Torch.Tensor

namespace Phil
open Torch Torch.Tensor Spec
open Phil.Mat (companion)
variable {α : Type} [CommRing α] [StarRing α]

omit [StarRing α] in
/-- Time-varying coefficients with two or three axes. -/
theorem seq_of_rank {b : Tensor α} (h : b.rank = 2 ∨ b.rank = 3) : ∃ R T K v, MatVals R T K b v ∧
    ((b.rank = 2 ∧ b.shape = [T, K]) ∨ b.rank = 3 ∧ b.shape = [R, T, K]) := by
  rcases h with h | h
  · obtain ⟨n, m, hs⟩ := shape_rank2 h
    rw [eq_t2 hs]; exact ⟨1, n, m, _, .shared _, Or.inl ⟨rfl, rfl⟩⟩
  · obtain ⟨n, m, k, hs⟩ := shape_rank3 h
    rw [eq_t3 hs]; exact ⟨n, m, k, _, .batched _, Or.inr ⟨rfl, rfl⟩⟩

omit [StarRing α] in
theorem seq_rank2 {R T n : Nat} {X : Tensor α} {v : Nat → Nat → Nat → α} (h : MatVals R T n X v) (hr : X.rank = 2) :
    ∃ f, X = t2 T n f := by
  cases h with
  | shared f => exact ⟨_, rfl⟩
  | batched f => simp at hr

omit [StarRing α] in
theorem seq_rank3 {R T n : Nat} {X : Tensor α} {v : Nat → Nat → Nat → α} (h : MatVals R T n X v) (hr : X.rank = 3) :
    ∃ f, X = t3 R T n f := by
  cases h with
  | shared f => simp at hr
  | batched f => exact ⟨_, rfl⟩

omit [StarRing α] in
theorem padOrdersSeq_inv {R T K Q S P : Nat} {b a : Tensor α} {bv av : Nat → Nat → Nat → α} {p : Tensor α × Tensor α}
    (hb : MatVals R T K b bv) (ha : MatVals Q S P a av) (h : Lti.padOrders b a = .ok p) :
    (∃ v, MatVals R T (max P (K - 1) + 1) p.1 v) ∧ p.1.rank = b.rank ∧
      (∃ v, MatVals Q S (max P (K - 1)) p.2 v) ∧ p.2.rank = a.rank := by
  have sb : b.size (-1) = K := by cases hb <;> rfl
  have sa : a.size (-1) = P := by cases ha <;> rfl
  unfold Lti.padOrders at h
  rw [sb, sa] at h
  split_ifs at h with h1 h2
  · obtain ⟨b', e, h⟩ := ok_bind_inv h
    cases h
    rw [show max P (K - 1) = P by omega]
    cases hb with
    | shared f =>
      rw [padDim_t2_n1_right, show K + (P + 1 - K) = P + 1 by omega] at e
      cases e; dsimp only; exact ⟨⟨_, .shared _⟩, rfl, ⟨_, ha⟩, rfl⟩
    | batched f =>
      rw [padDim_t3_n1_right, show K + (P + 1 - K) = P + 1 by omega] at e
      cases e; dsimp only; exact ⟨⟨_, .batched _⟩, rfl, ⟨_, ha⟩, rfl⟩
  · obtain ⟨a', e, h⟩ := ok_bind_inv h
    cases h
    rw [show max P (K - 1) = K - 1 by omega, show K - 1 + 1 = K by omega]
    cases ha with
    | shared f =>
      rw [padDim_t2_n1_right, show P + (K - P - 1) = K - 1 by omega] at e
      cases e; dsimp only; exact ⟨⟨_, hb⟩, rfl, ⟨_, .shared _⟩, rfl⟩
    | batched f =>
      rw [padDim_t3_n1_right, show P + (K - P - 1) = K - 1 by omega] at e
      cases e; dsimp only; exact ⟨⟨_, hb⟩, rfl, ⟨_, .batched _⟩, rfl⟩
  · cases h
    rw [show max P (K - 1) = P by omega, show P + 1 = K by omega]
    exact ⟨⟨_, hb⟩, rfl, ⟨_, ha⟩, rfl⟩

omit [StarRing α] in
theorem companion_none3 {B N : Nat} {f : Nat → Nat → Nat → α} : ∃ g, companion (t3 B N 0 f) = .ok (t4 B N 0 0 g) := ⟨_, by
  unfold companion
  refine check_step (by simp) ?_
  refine bind_step (v := t3 B N (0 * 0) fun b t i => if i < 0 then -f b t i else 0) ?_ ?_
  · rw [show zeros ((t3 B N 0 f).shape.dropLast ++ [(t3 B N 0 f).size (-1) * ((t3 B N 0 f).size (-1) - 1)]) =
      (t3 B N (0 * (0 - 1)) fun _ _ _ => (0 : α)) from by rw [size_t3_n1]; exact full_t3 _ _ _ 0]
    rw [neg, map_t3, cat2_t3_n1]
  refine bind_step (by rw [size_t3_n1]; exact unflatten_t3_n1_c_c B N 0 0 _) ?_
  exact congrArg Except.ok (eq_t4 rfl)⟩

omit [StarRing α] in
theorem companion_inv3 {B N M : Nat} {f : Nat → Nat → Nat → α} {A : Tensor α} (h : companion (t3 B N M f) = .ok A) :
    ∃ g, A = t4 B N M M g := by
  rcases Nat.eq_zero_or_pos M with rfl | hM
  · obtain ⟨g, e⟩ := companion_none3 (B := B) (N := N) (f := f)
    rw [e] at h; cases h; exact ⟨_, rfl⟩
  · rw [Mat.companion_t3 _ hM] at h; cases h; exact ⟨_, rfl⟩

omit [StarRing α] in
theorem matSeq_dims {B N n m : Nat} {A : Tensor α} {v : Nat → Nat → Nat → Nat → α} (h : MatSeq B N n m A v) :
    A.size (-3) = N ∧ (A.rank = 4 → A.size 0 = B) := by
  cases h with
  | shared f => exact ⟨rfl, fun h => by simp at h⟩
  | batched f => exact ⟨rfl, fun _ => rfl⟩

omit [StarRing α] in
/-- Numerator and denominator are combined along the time axis. -/
theorem outputCoefs_time {R T Q S M : Nat} {b a : Tensor α} {bv av : Nat → Nat → Nat → α} {r : Tensor α × Tensor α}
    (hb : MatVals R T (M + 1) b bv) (ha : MatVals Q S M a av) (h : Lti.outputCoefs b a = .ok r) : T = S ∨ T = 1 ∨ S = 1 := by
  unfold Lti.outputCoefs at h
  obtain ⟨b0, hb0, h⟩ := ok_bind_inv h
  obtain ⟨bt, hbt, h⟩ := ok_bind_inv h
  obtain ⟨m, hm, h⟩ := ok_bind_inv h
  have h0 : ∃ q l, b0.shape.reverse = q :: T :: l := by
    cases hb with
    | shared f => rw [slice_t2_n1] at hb0; cases hb0; exact ⟨_, _, rfl⟩
    | batched f => rw [slice_t3_n1] at hb0; cases hb0; exact ⟨_, _, rfl⟩
  have h1 : ∃ q l, a.shape.reverse = q :: S :: l := by
    cases ha with
    | shared f => exact ⟨_, _, rfl⟩
    | batched f => exact ⟨_, _, rfl⟩
  obtain ⟨q, l, h0⟩ := h0
  obtain ⟨q', l', h1⟩ := h1
  exact zip_second hm h0 h1

omit [StarRing α] in
/-- The shapes of the combined coefficients for a numerator with a batch axis. -/
theorem outputCoefs_batch {R T M : Nat} {b a : Tensor α} {f : Nat → Nat → Nat → α} {r : Tensor α × Tensor α}
    (hb : b = t3 R T (M + 1) f) (h : Lti.outputCoefs b a = .ok r) :
    r.2.shape = [R, T] ∧ 3 ≤ r.1.rank ∧ ∀ d p q, r.1.shape = [d, p, q] → R = 1 ∨ R = d := by
  subst hb
  unfold Lti.outputCoefs at h
  obtain ⟨b0, hb0, h⟩ := ok_bind_inv h
  obtain ⟨bt, hbt, h⟩ := ok_bind_inv h
  obtain ⟨m, hm, h⟩ := ok_bind_inv h
  obtain ⟨C, hC, h⟩ := ok_bind_inv h
  obtain ⟨D, hD, h⟩ := ok_bind_inv h
  cases h
  rw [select_t3_n1_0 _ _ _ _ (by omega)] at hD
  rw [slice_t3_n1] at hbt
  cases hD; cases hbt
  refine ⟨rfl, zip_rank hC, fun d p q e => ?_⟩
  by_cases h1 : R = 1
  · exact Or.inl h1
  · exact Or.inr (zip_third hC rfl h1 e rfl)

omit [StarRing α] in
theorem feed_batch {B N R T : Nat} {D x : Tensor α} {k : Option Nat} {d : Nat → Nat → Nat → α} (h : LpvFeed B N (some D) x k d)
    (hD : D.shape = [R, T]) (hx : x.rank = 2) : R = B ∨ R = N := by
  cases h <;> simp at hD hx <;> omega

omit [StarRing α] in
theorem input_batch {B N M : Nat} {G x : Tensor α} {v : Nat → Nat → Nat → α} (h : LpvInput B N M (some G) x v) (hG : 3 ≤ G.rank)
    (hx : x.rank = 2) : G.shape = [B, N, M] := by
  cases h <;> simp at hG hx
  rfl

/-- What `_ssm_lfilter` of `lpv/filtering.py` requires of its arguments. -/
theorem lpvSsmLfilter_ok {b a x : Tensor α} {zi : Option (Tensor α)} {form : Lti.Form} {u : Option Int}
    {y : Tensor α × Option (Tensor α)} (hb : b.rank = 2 ∨ b.rank = 3) (ha : a.rank = 2 ∨ a.rank = 3) (hx : x.rank ≤ 2)
    (h : Lpv.ssmLfilter b a x zi form u = .ok y) :
    ∃ B N K P, 0 < N ∧ x.shape = [B, N] ∧ (a.shape = [N, P] ∨ a.shape = [B, N, P]) ∧
      (∃ R T, (b.shape = [T, K] ∨ b.shape = [R, T, K] ∧ (form = .df1 ∨ form = .tdf1 → R = 1 ∨ R = B) ∧
          (form = .df2 → R = B ∨ R = N) ∧ (form = .tdf2 → R = B ∨ N = 1)) ∧
        (form = .df1 → T = N) ∧ (form = .tdf1 → 0 < B → 0 < max P (K - 1) → T = N) ∧
        (form = .df2 ∨ form = .tdf2 → T = N ∨ T = 1 ∨ N = 1)) ∧ form ≠ .other ∧
      (∀ i, u = some i → 1 ≤ i) ∧ (form = .df2 ∨ form = .tdf2 → ∃ z, InitState B (max P (K - 1)) zi z) := by
  obtain ⟨R, T, K, bv, hbr, hbs⟩ := seq_of_rank hb
  obtain ⟨Q, S, P, av, har, has⟩ := seq_of_rank ha
  unfold Lpv.ssmLfilter at h
  obtain ⟨ba, hba, h⟩ := ok_bind_inv h
  obtain ⟨A, hA, h⟩ := ok_bind_inv h
  obtain ⟨⟨bv', hb'⟩, hbr', ⟨av', ha'⟩, har'⟩ := padOrdersSeq_inv hbr har hba
  generalize hM : max P (K - 1) = M at hb' ha'
  have hA : (a.shape = [S, P] ∧ ∃ g, A = t3 S M M g) ∨ a.shape = [Q, S, P] ∧ ∃ g, A = t4 Q S M M g := by
    rcases has with ⟨hr, hs⟩ | ⟨hr, hs⟩
    · obtain ⟨f, e⟩ := seq_rank2 ha' (har'.trans hr)
      rw [e] at hA
      exact Or.inl ⟨hs, companion_inv2 hA⟩
    · obtain ⟨f, e⟩ := seq_rank3 ha' (har'.trans hr)
      rw [e] at hA
      exact Or.inr ⟨hs, companion_inv3 hA⟩
  have hMA : A.size (-1) = M ∧ A.size (-3) = S := by
    rcases hA with ⟨_, g, rfl⟩ | ⟨_, g, rfl⟩ <;> exact ⟨rfl, rfl⟩
  have haB : ∀ B, (A.rank = 4 → B = A.size 0) → a.shape = [S, P] ∨ a.shape = [B, S, P] := by
    intro B hh
    rcases hA with ⟨hs, _⟩ | ⟨hs, g, rfl⟩
    · exact Or.inl hs
    · have : B = Q := hh rfl
      exact Or.inr (by rw [hs, this])
  have hAT : ∀ AT, mT A = .ok AT → (conj AT).size (-1) = M ∧ (conj AT).size (-3) = S ∧ (conj AT).rank = A.rank ∧
      (conj AT).size 0 = A.size 0 := by
    intro AT e
    rcases hA with ⟨_, g, rfl⟩ | ⟨_, g, rfl⟩
    · rw [show mT (t3 S M M g) = _ from transpose_t3_n2_n1 _ _ _ _] at e; cases e; exact ⟨rfl, rfl, rfl, rfl⟩
    · rw [show mT (t4 Q S M M g) = _ from transpose_t4_n2_n1 _ _ _ _ _] at e; cases e; exact ⟨rfl, rfl, rfl, rfl⟩
  cases form with
  | df2 =>
    obtain ⟨cd, hcd, h⟩ := ok_bind_inv h
    have hk := lpvStateSpace_ok h
    have hr := (ok_check h).1
    obtain ⟨Av, hAv⟩ := hk.2.1
    obtain ⟨d1, d2⟩ := matSeq_dims hAv
    have hS : S = x.size 1 := hMA.2.symm.trans d1
    refine ⟨x.size 0, x.size 1, K, P, hk.1, shape2_of_rank (by omega), ?_,
      ⟨R, T, ?_, by simp, by simp, fun _ => by rw [← hS]; exact outputCoefs_time hb' ha' hcd⟩, by simp, hk.2.2.2.2.2.2.1, fun _ => ?_⟩
    · rw [← hS]; exact haB _ fun hr => (d2 hr).symm
    · refine hbs.imp (fun h => h.2) fun h => ⟨h.2, by simp, fun _ => ?_, by simp⟩
      obtain ⟨f, ef⟩ := seq_rank3 hb' (hbr'.trans h.1)
      obtain ⟨_, _, hfeed⟩ := hk.2.2.2.2.1
      exact feed_batch hfeed (outputCoefs_batch ef hcd).1 (by omega)
    · rw [hM, ← hMA.1]; exact hk.2.2.2.2.2.1
  | tdf2 =>
    obtain ⟨cd, hcd, h⟩ := ok_bind_inv h
    obtain ⟨AT, hT, h⟩ := ok_bind_inv h
    obtain ⟨e1, e4, e2, e3⟩ := hAT AT hT
    have hk := lpvStateSpace_ok h
    have hr := (ok_check h).1
    obtain ⟨Av, hAv⟩ := hk.2.1
    obtain ⟨d1, d2⟩ := matSeq_dims hAv
    have hS : S = x.size 1 := e4.symm.trans d1
    refine ⟨x.size 0, x.size 1, K, P, hk.1, shape2_of_rank (by omega), ?_,
      ⟨R, T, ?_, by simp, by simp, fun _ => by rw [← hS]; exact outputCoefs_time hb' ha' hcd⟩, by simp, hk.2.2.2.2.2.2.1, fun _ => ?_⟩
    · rw [← hS]; exact haB _ fun hr => (d2 (e2.trans hr)).symm.trans e3
    · refine hbs.imp (fun h => h.2) fun h => ⟨h.2, by simp, by simp, fun _ => ?_⟩
      obtain ⟨f, ef⟩ := seq_rank3 hb' (hbr'.trans h.1)
      obtain ⟨_, _, hfeed⟩ := hk.2.2.2.2.1
      obtain ⟨_, hin⟩ := hk.2.2.1
      obtain ⟨c1, h3, c2⟩ := outputCoefs_batch ef hcd
      have hr2 : x.rank = 2 := by omega
      have hR := feed_batch hfeed (show (conj cd.2).shape = _ from c1) (by omega)
      have := c2 _ _ _ (show cd.1.shape = _ from input_batch (G := conj cd.1) hin h3 hr2)
      omega
    · rw [hM, ← e1]; exact hk.2.2.2.2.2.1
  | df1 =>
    obtain ⟨bb, hbb, h⟩ := ok_bind_inv h
    obtain ⟨v, hv, h⟩ := ok_bind_inv h
    obtain ⟨w, hw, _⟩ := ok_bind_inv h
    obtain ⟨B, N, L, hsb, hsx, _, hN⟩ := lpvFir_ok hv
    have hN := hN rfl
    have e0 : x.size 0 = B := by simp [size, hsx]
    have hc := lpvRecursion_ok hw
    have ez : x.size 0 = v.1.size 0 := hc.2.2.2.2.2.2.2.1
    have e1 : v.1.size 1 = N := by
      rw [eq_t3 hsb, eq_t2 hsx, Lpv.fir_direct_none _ _ hN] at hv
      cases hv; rfl
    have hS : S = N := hMA.2.symm.trans (hc.2.2.2.1.trans e1)
    have hB : a.shape = [S, P] ∨ a.shape = [B, S, P] := haB _ fun hr => by rw [← hc.2.2.2.2.1 hr, ← ez, e0]
    rw [hS] at hB
    refine ⟨B, N, K, P, hN, hsx, hB, ?_, by simp, ?_, by simp⟩
    · rcases hbs with ⟨hr, hs⟩ | ⟨hr, hs⟩
      · obtain ⟨f, ef⟩ := seq_rank2 hb' (hbr'.trans hr)
        rw [ef] at hbb
        have := expand23_shape hbb
        rw [this] at hsb
        exact ⟨1, T, Or.inl hs, fun _ => by simp at hsb; exact hsb.2.1, by simp, by simp⟩
      · obtain ⟨f, ef⟩ := seq_rank3 hb' (hbr'.trans hr)
        rw [ef] at hbb
        have := expand33_shape hbb
        rw [this.1] at hsb
        exact ⟨R, T, Or.inr ⟨hs, fun _ => by rw [← e0]; exact this.2, by simp, by simp⟩, fun _ => by simp at hsb; exact hsb.2.1, by simp,
          by simp⟩
    · rintro i rfl; exact hc.2.2.2.2.2.2.2.2.2
  | tdf1 =>
    obtain ⟨bb, hbb, h⟩ := ok_bind_inv h
    obtain ⟨AT, hT, h⟩ := ok_bind_inv h
    obtain ⟨v, hv, h⟩ := ok_bind_inv h
    obtain ⟨e1, e4, e2, e3⟩ := hAT AT hT
    have hc := lpvRecursion_ok hv
    have hr2 : x.rank = 2 := by have := hc.1; omega
    have hS : S = x.size 1 := e4.symm.trans hc.2.2.2.1
    refine ⟨x.size 0, x.size 1, K, P, lpv_nonempty (signal_of_rank hc.1) hv, shape2_of_rank hr2, ?_, ?_, by simp, ?_, by simp⟩
    · rw [← hS]; exact haB _ fun hr => (hc.2.2.2.2.1 (e2.trans hr)).trans e3
    · have hT : bb.shape = [x.size 0, T, M + 1] → 0 < x.size 0 → 0 < M → T = x.size 1 := by
        intro hsb hB hM0
        obtain ⟨B', N', L, hsb', hsv, _⟩ := lpvFir_ok h
        rw [hsb] at hsb'
        have hv' : v.shape = [x.size 0, x.size 1] := by
          have hN := lpv_nonempty (signal_of_rank hc.1) hv
          have hx2 := eq_t2 (shape2_of_rank hr2)
          have hz : (zeros [x.size 0, A.size (-1)] : Tensor α) = t2 (x.size 0) M fun _ _ => 0 := by
            rw [hMA.1]; exact full_t2 _ _ 0
          obtain ⟨Av, hAv⟩ : ∃ Av, MatSeq (x.size 0) (x.size 1) M M (conj AT) Av := by
            rw [← hS]
            rcases hA with ⟨_, g, rfl⟩ | ⟨_, g, rfl⟩
            · rw [show mT (t3 S M M g) = _ from transpose_t3_n2_n1 _ _ _ _] at hT; cases hT; rw [Lti.conj_t3]; exact ⟨_, .shared _⟩
            · have hq : x.size 0 = Q := hc.2.2.2.2.1 (e2.trans rfl) |>.trans e3
              rw [hq]
              rw [show mT (t4 Q S M M g) = _ from transpose_t4_n2_n1 _ _ _ _ _] at hT; cases hT; rw [Lti.conj_t4]; exact ⟨_, .batched _⟩
          rw [hz] at hv
          generalize hn0 : x.size 0 = B0 at *
          generalize hn1 : x.size 1 = N0 at *
          rw [hx2] at hv
          rw [Lpv.stateSpaceRecursion_any hAv (Drive.scalar _) _ _ (some 0) ⟨by omega, by omega⟩ hB hM0 hN hc.2.2.2.2.2.2.2.2.2] at hv
          cases hv
          rfl
        rw [hv'] at hsv
        simp at hsb' hsv
        omega
      rcases hbs with ⟨hr, hs⟩ | ⟨hr, hs⟩
      · obtain ⟨f, ef⟩ := seq_rank2 hb' (hbr'.trans hr)
        rw [ef, Lti.conj_t2] at hbb
        exact ⟨1, T, Or.inl hs, by simp, fun _ hB hM0 => hT (expand23_shape hbb) hB (by omega), by simp⟩
      · obtain ⟨f, ef⟩ := seq_rank3 hb' (hbr'.trans hr)
        rw [ef, Lti.conj_t3] at hbb
        have := expand33_shape hbb
        exact ⟨R, T, Or.inr ⟨hs, fun _ => this.2, by simp, by simp⟩, by simp, fun _ hB hM0 => hT this.1 hB (by omega), by simp⟩
    · rintro i rfl; exact hc.2.2.2.2.2.2.2.2.2
  | other => cases h

/-- What `lpv.lfilter` with the default backend requires of its arguments. -/
theorem lpvLfilter_ok {lpc : Lpv.Lpc α} {b a x : Tensor α} {zi : Option (Tensor α)} {form : Lti.Form} {u : Option Int}
    {y : Tensor α × Option (Tensor α)} (h : Lpv.lfilter lpc b a x zi form .ssm u = .ok y) :
    ∃ B N K P, 0 < N ∧ ((x.shape = [N] ∧ B = 1) ∨ x.shape = [B, N]) ∧ (a.shape = [N, P] ∨ a.shape = [B, N, P]) ∧
      (∃ R T, (b.shape = [T, K] ∨ b.shape = [R, T, K] ∧ (form = .df1 ∨ form = .tdf1 → R = 1 ∨ R = B) ∧
          (form = .df2 → R = B ∨ R = N) ∧ (form = .tdf2 → R = B ∨ N = 1)) ∧
        (form = .df1 → T = N) ∧ (form = .tdf1 → 0 < B → 0 < max P (K - 1) → T = N) ∧
        (form = .df2 ∨ form = .tdf2 → T = N ∨ T = 1 ∨ N = 1)) ∧ form ≠ .other ∧
      (∀ i, u = some i → 1 ≤ i) ∧ (form = .df2 ∨ form = .tdf2 → ∃ z, InitState B (max P (K - 1)) zi z) := by
  unfold Lpv.lfilter Lpv.lfilterWith at h
  obtain ⟨x2, hx2, h⟩ := ok_bind_inv h
  obtain ⟨hb, h⟩ := ok_check h
  obtain ⟨ha, h⟩ := ok_check h
  obtain ⟨r, hr, _⟩ := ok_bind_inv h
  have hr : Lpv.ssmLfilter b a x2 zi form u = .ok r := hr
  have h1 := (lfilterSignal_ok (B := 0) (N := 0) hx2).1
  obtain ⟨B, N, K, P, hN, hs, hh⟩ := lpvSsmLfilter_ok hb ha h1 hr
  have h2 := (lfilterSignal_ok (B := B) (N := N) hx2).2 hs
  exact ⟨B, N, K, P, hN, h2, hh⟩

omit [StarRing α] in
theorem withBatchAxis_ok {c c' : Tensor α} (h : Lpv.withBatchAxis c = .ok c') :
    ∃ R T K, c'.shape = [R, T, K] ∧ ((c.shape = [T, K] ∧ R = 1) ∨ c.shape = [R, T, K]) := by
  unfold Lpv.withBatchAxis at h
  split_ifs at h with h1 h2
  · obtain ⟨n, m, hs⟩ := shape_rank2 h1
    have := unsqueeze0_shape h
    rw [hs] at this
    exact ⟨1, n, m, this, Or.inl ⟨hs, rfl⟩⟩
  · cases h
    obtain ⟨n, m, k, hs⟩ := shape_rank3 h2
    exact ⟨n, m, k, hs, Or.inr hs⟩

omit [StarRing α] in
theorem torchlpcState_ok {zi : Option (Tensor α)} {B order : Nat} {r : Nat × Tensor α} (h : Lpv.torchlpcState zi B order = .ok r) :
    ∀ z, zi = some z → z.shape = [order] ∨ ∃ R, z.shape = [R, order] ∧ (R = 1 ∨ R = r.1) := by
  rintro z rfl
  unfold Lpv.torchlpcState at h
  dsimp only at h
  split_ifs at h with h1 h2
  · obtain ⟨n, hs⟩ := shape_rank1 h1
    obtain ⟨hc, _⟩ := ok_check h
    simp [size, hs] at hc
    exact Or.inl (by rw [hs, hc])
  · obtain ⟨n, m, hs⟩ := shape_rank2 h2
    obtain ⟨hc, h⟩ := ok_check h
    obtain ⟨z', hz, h⟩ := ok_bind_inv h
    cases h
    simp [size, hs] at hc
    have := (expand2_shape hs hz).2
    exact Or.inr ⟨n, by rw [hs, hc], by rw [or_comm]; exact this⟩

/-- What `lpv.lfilter` with the torchlpc backend requires of its arguments. -/
theorem torchlpcLfilter_ok {lpc : Lpv.Lpc α} {b a x : Tensor α} {zi : Option (Tensor α)} {form : Lti.Form} {u : Option Int}
    {y : Tensor α × Option (Tensor α)} (h : Lpv.lfilter lpc b a x zi form .torchlpc u = .ok y) :
    ∃ B N K P Rb Ra Rx, (Rb = 1 ∨ Rb = B) ∧ (Ra = 1 ∨ Ra = B) ∧ (Rx = 1 ∨ Rx = B) ∧
      ((x.shape = [N] ∧ Rx = 1) ∨ x.shape = [Rx, N]) ∧ ((b.shape = [N, K] ∧ Rb = 1) ∨ b.shape = [Rb, N, K]) ∧
      ((a.shape = [N, P] ∧ Ra = 1) ∨ a.shape = [Ra, N, P]) ∧
      (∀ z, zi = some z → z.shape = [max P (K - 1)] ∨ ∃ R, z.shape = [R, max P (K - 1)] ∧ (R = 1 ∨ R = B)) ∧
      (form = .df2 ∨ form = .df1 ∨ form = .tdf1) := by
  unfold Lpv.lfilter Lpv.lfilterWith at h
  obtain ⟨x2, hx2, h⟩ := ok_bind_inv h
  obtain ⟨_, h⟩ := ok_check h
  obtain ⟨_, h⟩ := ok_check h
  obtain ⟨r, hr, _⟩ := ok_bind_inv h
  have hr : Lpv.torchlpcLfilter lpc b a x2 zi form = .ok r := hr
  unfold Lpv.torchlpcLfilter at hr
  obtain ⟨h2, hr⟩ := ok_check hr
  obtain ⟨b', hb, hr⟩ := ok_bind_inv hr
  obtain ⟨a', ha, hr⟩ := ok_bind_inv hr
  obtain ⟨ht, hr⟩ := ok_check hr
  obtain ⟨Bz, hz, hr⟩ := ok_bind_inv hr
  obtain ⟨bb, hbb, hr⟩ := ok_bind_inv hr
  obtain ⟨ab, hab, hr⟩ := ok_bind_inv hr
  obtain ⟨xb, hxb, hr⟩ := ok_bind_inv hr
  obtain ⟨Rb, T, K, hbs, hb⟩ := withBatchAxis_ok hb
  obtain ⟨Ra, T', P, has, ha⟩ := withBatchAxis_ok ha
  obtain ⟨Rx, N, hxs⟩ := shape_rank2 h2
  have e1 : b'.size 1 = T := by simp [size, hbs]
  have e2 : a'.size 1 = T' := by simp [size, has]
  have e3 : x2.size 1 = N := by simp [size, hxs]
  have e4 : b'.size 2 = K := by simp [size, hbs]
  have e5 : a'.size 2 = P := by simp [size, has]
  rw [e1, e2, e3] at ht
  obtain ⟨rfl, rfl⟩ := ht
  rw [eq_t3 hbs] at hbb
  rw [eq_t3 has] at hab
  rw [e4, e5] at hz
  refine ⟨Bz.1, T, K, P, Rb, Ra, Rx, (expand33_shape hbb).2, (expand33_shape hab).2, (expand2_shape hxs hxb).2.symm,
    (lfilterSignal_ok hx2).2 hxs, hb, ha, torchlpcState_ok hz, ?_⟩
  cases form with
  | df2 => simp
  | df1 => simp
  | tdf1 => simp
  | tdf2 => cases hr
  | other => cases hr

end Phil
