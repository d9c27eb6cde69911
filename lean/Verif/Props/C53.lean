import Verif.Proof.ProtoSosComplex
import Verif.Proof.ProtoUniqueSum
import Verif.Spec.QI

/-!
# C53: `sos2pfe`, partial fractions of a cascade of second-order sections
-/

namespace Props
open Torch Phil.Proto Spec
variable {α : Type} [Field α] [DecidableEq α]

/-- The value at `z` of the cascade. -/
def cascade (sos : List (Section α)) (z : α) : α :=
  (sos.map fun s => (s.b0 * z ^ 2 + s.b1 * z + s.b2) / (s.a0 * z ^ 2 + s.a1 * z + s.a2)).prod

/-- The value at `z` of the expansion returned: every complex pole stands for itself and its conjugate. -/
def expansion [StarRing α] (r : Pfe α) (rr rc : List α) (z : α) : α :=
  r.gain + pfePow rr r.realPoles r.realPowers z + pfePow rc r.cplxPoles r.cplxPowers z +
    pfePow (rc.map star) (r.cplxPoles.map star) r.cplxPowers z

/-- **C53 (partial), real poles**: `K` are the real and `α` the complex numbers.  If no gain is negative, no section has complex poles and
poles are compared exactly, then residues, poles and powers add up to the cascade, and the poles are those of the sections with
multiplicity.  The residues are a vector unless all poles coincide, when they are a column matrix.  Missing: cascades with complex poles
(`C53_complex_partial`, `C53_repeated_complex_raises`, `C53_mixed_negation`), negative gains (`C53_negative_gain`). -/
theorem C53_real_partial [CharZero α] {K : Type} [Field K] (φ : K →+* α) {sqrt re : α → α} {neg : α → Bool} {close : α → α → Bool}
    {order : List α → List Nat} (hre : ∀ x, re (φ x) = φ x) (ho : ∀ l, (order l).Perm (List.range l.length)) {sos : List (Section K)}
    (hne : sos ≠ []) (hb : ∀ s ∈ sos, s.b0 ≠ 0) (ha : ∀ s ∈ sos, s.a0 ≠ 0) (hgain : ∀ s ∈ sos, neg (φ (s.b0 / s.a0)) = false)
    (hdisc : ∀ s ∈ sos, neg (φ (s.a1 / s.a0 * (s.a1 / s.a0) - 4 * (s.a2 / s.a0))) = false ∧
      ∃ q, sqrt (φ (s.a1 / s.a0 * (s.a1 / s.a0) - 4 * (s.a2 / s.a0))) = φ q ∧ q * q = s.a1 / s.a0 * (s.a1 / s.a0) - 4 * (s.a2 / s.a0))
    (hclose : ∀ x y : α, close x y = decide (x = y)) :
    ∃ R r p n, sos2pfe sqrt re neg close order .mean (sos.map (Section.map φ)) =
        .ok ⟨R, .flat [], p, [], n, [], φ (sos.map fun s => s.b0 / s.a0).prod⟩ ∧
      r.length = 2 * sos.length ∧ p.length = 2 * sos.length ∧ n.length = 2 * sos.length ∧ (∀ m ∈ n, 0 < m) ∧
      ((∃ x ∈ p, ∃ y ∈ p, x ≠ y) → R = .flat r) ∧ ((∀ x ∈ p, ∀ y ∈ p, x = y) → R = .rows (r.map fun x => [x])) ∧
      (∀ z, (p.map fun x => z - x).prod = (sos.map fun s => z ^ 2 + φ (s.a1 / s.a0) * z + φ (s.a2 / s.a0)).prod) ∧
      ∀ z, (∀ s ∈ sos, φ s.a0 * z ^ 2 + φ s.a1 * z + φ s.a2 ≠ 0) →
        cascade (sos.map (Section.map φ)) z = φ (sos.map fun s => s.b0 / s.a0).prod + pfePow r p n z := by
  have hdiv : ∀ s : Section K, (s.map φ).disc = φ (s.a1 / s.a0 * (s.a1 / s.a0) - 4 * (s.a2 / s.a0)) := by
    intro s
    simp [Section.disc, Section.na1, Section.na2, Section.map, map_ofNat φ 4]
  have hne' : sos.map (Section.map φ) ≠ [] := by simpa using hne
  have hsq : ∀ s ∈ sos.map (Section.map φ), sqrt s.disc * sqrt s.disc = s.disc := by
    intro s hs
    obtain ⟨t, ht, rfl⟩ := List.mem_map.1 hs
    obtain ⟨q, h1, h2⟩ := (hdisc t ht).2
    rw [hdiv, h1, ← map_mul, h2]
  have hb' : ∀ s ∈ sos.map (Section.map φ), s.b0 ≠ 0 := by
    intro s hs
    obtain ⟨t, ht, rfl⟩ := List.mem_map.1 hs
    exact (map_ne_zero φ).2 (hb t ht)
  have ha' : ∀ s ∈ sos.map (Section.map φ), s.a0 ≠ 0 := by
    intro s hs
    obtain ⟨t, ht, rfl⟩ := List.mem_map.1 hs
    exact (map_ne_zero φ).2 (ha t ht)
  obtain ⟨u, h1, h2, h3, h4, h5, h6, h7⟩ := sos2pfe_step sqrt re neg ho (close := close) hne' (c := false)
    (by
      intro s hs
      obtain ⟨t, ht, rfl⟩ := List.mem_map.1 hs
      have := hgain t ht
      rw [map_div₀] at this
      exact this)
    (by
      intro s hs
      obtain ⟨t, ht, rfl⟩ := List.mem_map.1 hs
      rw [hdiv]
      exact (hdisc t ht).1) (fun x _ y _ => hclose x y)
  obtain ⟨g1, g2, g3⟩ := poleData (φ := φ) hne'
    (by
      intro s hs
      obtain ⟨t, ht, rfl⟩ := List.mem_map.1 hs
      exact ⟨⟨t.b1 / t.b0, map_div₀ _ _ _⟩, ⟨t.b2 / t.b0, map_div₀ _ _ _⟩⟩) (sosRoots_length sqrt _)
    (by
      intro x hx
      obtain ⟨s, hs, hx⟩ := List.mem_flatMap.1 hx
      obtain ⟨t, ht, rfl⟩ := List.mem_map.1 hs
      obtain ⟨q, hq, _⟩ := (hdisc t ht).2
      rw [hdiv, hq] at hx
      rcases List.mem_cons.1 hx with rfl | hx
      · exact ⟨(-(t.a1 / t.a0) + q) / 2, by simp [Section.na1, Section.map, map_ofNat φ 2]⟩
      · rw [List.mem_singleton.1 hx]
        exact ⟨(-(t.a1 / t.a0) - q) / 2, by simp [Section.na1, Section.map, map_ofNat φ 2]⟩) h2 h3 h5 h6
  obtain ⟨r, p, n, e1, e2, e3, e4, e4', e5, e6⟩ := pfeOf_real hre g1 (fun x hx => h4 x (h6.mem_iff.1 hx))
    ((sos.map (Section.map φ)).map fun s => s.b0 / s.a0).prod
  have hG : ((sos.map (Section.map φ)).map fun s => s.b0 / s.a0).prod = φ (sos.map fun s => s.b0 / s.a0).prod := by
    rw [map_list_prod, List.map_map, List.map_map]
    congr 1
    exact List.map_congr_left fun s _ => (map_div₀ φ _ _).symm
  have hD : prodPow (polesOf ((order (u.map fun x => x.1)).map fun i => u.getD i (0, 0, false))) =
      ((sos.map (Section.map φ)).map fun s => Polynomial.X ^ 2 + Polynomial.C s.na1 * Polynomial.X + Polynomial.C s.na2).prod := by
    rw [g3, sosRoots_prod _ _ hsq]
  rw [List.length_map] at e2 e3 e4
  rw [hG] at h7 e1 e6
  generalize (order (u.map fun x => x.1)).map (fun i => u.getD i (0, 0, false)) = l at *
  have hp : ∀ x, x ∈ p ↔ ∃ y ∈ l, y.1 = x := by
    intro x
    rw [e5.mem_iff]
    constructor
    · intro h
      obtain ⟨y, hy, h⟩ := List.mem_flatMap.1 h
      obtain ⟨w, hw, rfl⟩ := List.mem_map.1 hy
      exact ⟨w, hw, (List.mem_replicate.1 h).2.symm⟩
    · rintro ⟨y, hy, rfl⟩
      exact List.mem_flatMap.2 ⟨_, List.mem_map.2 ⟨y, hy, rfl⟩, List.mem_replicate.2 ⟨(g1.pos y hy).ne', rfl⟩⟩
  have hS : sos.length ≠ 0 := fun h => hne (List.length_eq_zero_iff.1 h)
  refine ⟨resArr (l.length = 1) r, r, p, n, h7.trans e1, e2, e3, e4, e4', ?_, ?_, ?_, ?_⟩
  · rintro ⟨x, hx, y, hy, hxy⟩
    unfold resArr
    rw [if_neg]
    intro hl
    obtain ⟨w, rfl⟩ := List.length_eq_one_iff.1 hl
    obtain ⟨a, ha, rfl⟩ := (hp x).1 hx
    obtain ⟨b, hb, rfl⟩ := (hp y).1 hy
    rw [List.mem_singleton.1 ha, List.mem_singleton.1 hb] at hxy
    exact hxy rfl
  · intro hxy
    unfold resArr
    rw [if_pos]
    match l, hp, g1 with
    | [], hp, _ =>
      have : p = [] := List.eq_nil_iff_forall_not_mem.2 fun x hx => by
        obtain ⟨y, hy, _⟩ := (hp x).1 hx
        simp at hy
      rw [this, List.length_nil] at e3
      omega
    | [w], _, _ => rfl
    | a :: b :: t, hp, g1 =>
      have h0 := hxy a.1 ((hp _).2 ⟨a, by simp, rfl⟩) b.1 ((hp _).2 ⟨b, by simp, rfl⟩)
      have := g1.nodup
      simp [h0] at this
  · intro z
    have h8 : (p.map fun x => Polynomial.X - Polynomial.C x).prod = _ := ((e5.map _).prod_eq.trans (prod_repeatPoles _)).trans hD
    have h9 := congrArg (Polynomial.evalRingHom z) h8
    rw [map_list_prod, map_list_prod, List.map_map, List.map_map, List.map_map] at h9
    have e1 : (⇑(Polynomial.evalRingHom z) ∘ fun x => Polynomial.X - Polynomial.C x) = fun x => z - x := by
      funext x; simp
    rw [e1] at h9
    rw [h9]
    congr 1
    refine List.map_congr_left fun s _ => ?_
    simp [Section.na1, Section.na2, Section.map]
  · intro z hz
    have hz' := sosDen_ne _ ha' z (by
      intro s hs
      obtain ⟨t, ht, rfl⟩ := List.mem_map.1 hs
      exact hz t ht)
    have h8 := sosValue_eq _ hb' ha' z
    rw [hG, ← hD] at h8
    rw [← hD] at hz'
    rw [← e6 z hz']
    exact h8

/-- **C53 (partial), complex poles**: if no gain is negative, every section has a pair of complex poles, all poles differ and the sorting
keeps conjugate poles together, then one residue and one pole of each pair are returned and the cascade is their sum with the conjugates. -/
theorem C53_complex_partial [CharZero α] [StarRing α] {sqrt re : α → α} {neg : α → Bool} {close : α → α → Bool}
    {order : List α → List Nat} (ho : ∀ l, (order l).Perm (List.range l.length)) {sos : List (Section α)}
    (hne : sos ≠ []) (hb : ∀ s ∈ sos, s.b0 ≠ 0) (ha : ∀ s ∈ sos, s.a0 ≠ 0)
    (hreal : ∀ s ∈ sos, star s.b0 = s.b0 ∧ star s.b1 = s.b1 ∧ star s.b2 = s.b2 ∧ star s.a0 = s.a0 ∧ star s.a1 = s.a1 ∧ star s.a2 = s.a2)
    (hgain : ∀ s ∈ sos, neg (s.b0 / s.a0) = false)
    (hdisc : ∀ s ∈ sos, neg (s.a1 / s.a0 * (s.a1 / s.a0) - 4 * (s.a2 / s.a0)) = true)
    (hsqrt : ∀ s ∈ sos, sqrt (s.a1 / s.a0 * (s.a1 / s.a0) - 4 * (s.a2 / s.a0)) * sqrt (s.a1 / s.a0 * (s.a1 / s.a0) - 4 * (s.a2 / s.a0)) =
      s.a1 / s.a0 * (s.a1 / s.a0) - 4 * (s.a2 / s.a0))
    (hclose : ∀ x y : α, close x y = decide (x = y)) (hdist : (sosRoots sqrt sos).Nodup)
    (hpair : ∀ k < sos.length, (sosRoots sqrt sos).getD ((order (sosRoots sqrt sos)).getD (2 * k + 1) 0) 0 =
      star ((sosRoots sqrt sos).getD ((order (sosRoots sqrt sos)).getD (2 * k) 0) 0)) :
    ∃ c p, sos2pfe sqrt re neg close order .mean sos =
        .ok ⟨.flat [], .flat c, [], p, [], List.replicate sos.length 1, (sos.map fun s => s.b0 / s.a0).prod⟩ ∧
      c.length = sos.length ∧ p.length = sos.length ∧ (p ++ p.map star).Perm (sosRoots sqrt sos) ∧
      ∀ z, (∀ s ∈ sos, s.a0 * z ^ 2 + s.a1 * z + s.a2 ≠ 0) →
        cascade sos z = (sos.map fun s => s.b0 / s.a0).prod + pfePow c p (List.replicate sos.length 1) z +
          pfePow (c.map star) (p.map star) (List.replicate sos.length 1) z := by
  have h0 : sosRoots sqrt sos ≠ [] := by
    intro h
    have h1 := sosRoots_length sqrt sos
    rw [h, List.length_nil] at h1
    exact hne (List.length_eq_zero_iff.1 (by omega))
  have hu := uniqueRoots_nodup h0 (fun x _ y _ => hclose x y) hdist (sosFlags neg sos)
  obtain ⟨u, h1, h2, h3, h4, h5, h6, h7⟩ := sos2pfe_step sqrt re neg ho (close := close) hne hgain (c := true) hdisc (fun x _ y _ => hclose x y)
  have hu' : u = (List.range (sosRoots sqrt sos).length).map fun j => ((sosRoots sqrt sos).getD j 0, 1, (sosFlags neg sos).getD j false) := by
    rw [hu] at h1
    exact (Except.ok.inj h1).symm
  have hufst : u.map (fun x => x.1) = sosRoots sqrt sos := by
    rw [hu', List.map_map]
    refine List.ext_getElem (by simp) fun i h1 h2 => ?_
    rw [List.getElem_map, List.getElem_range]
    exact List.getD_eq_getElem _ _ h2
  have hul : u.length = 2 * sos.length := by rw [hu', List.length_map, List.length_range, sosRoots_length]
  obtain ⟨g1, g2, g3⟩ := poleData (φ := RingHom.id α) hne (fun s _ => ⟨⟨_, rfl⟩, ⟨_, rfl⟩⟩) (sosRoots_length sqrt sos)
    (fun x _ => ⟨x, rfl⟩) h2 h3 h5 h6
  have hone : ∀ x ∈ (order (u.map fun x => x.1)).map (fun i => u.getD i (0, 0, false)), x.2.1 = 1 := by
    intro x hx
    have := h6.mem_iff.1 hx
    rw [hu'] at this
    obtain ⟨j, _, rfl⟩ := List.mem_map.1 this
    rfl
  have hq : ∀ i < 2 * sos.length, (((order (u.map fun x => x.1)).map fun i => u.getD i (0, 0, false)).getD i (0, 0, false)).1 =
      (sosRoots sqrt sos).getD ((order (sosRoots sqrt sos)).getD i 0) 0 := by
    intro i hi
    have hol : (order (sosRoots sqrt sos)).length = 2 * sos.length := by
      rw [(ho (sosRoots sqrt sos)).length_eq, List.length_range, sosRoots_length]
    rw [hufst, List.getD_eq_getElem _ _ (by rw [List.length_map, hol]; exact hi), List.getElem_map,
      List.getD_eq_getElem (order (sosRoots sqrt sos)) _ (by rw [hol]; exact hi)]
    have hm : (order (sosRoots sqrt sos))[i]'(by rw [hol]; exact hi) < 2 * sos.length := by
      have := (ho (sosRoots sqrt sos)).mem_iff.1 (List.getElem_mem (by rw [hol]; exact hi : i < _))
      rw [List.mem_range, sosRoots_length] at this
      exact this
    generalize (order (sosRoots sqrt sos))[i]'(by rw [hol]; exact hi) = m at hm
    have : u.map (fun x => x.1) = sosRoots sqrt sos := hufst
    have h8 : (u.map fun x => x.1).getD m 0 = (sosRoots sqrt sos).getD m 0 := by rw [this]
    rw [← h8, List.getD_eq_getElem _ _ (by rw [hul]; exact hm), List.getD_eq_getElem _ _ (by rw [List.length_map, hul]; exact hm),
      List.getElem_map]
  have hD : prodPow (polesOf ((order (u.map fun x => x.1)).map fun i => u.getD i (0, 0, false))) =
      (sos.map fun s => Polynomial.X ^ 2 + Polynomial.C s.na1 * Polynomial.X + Polynomial.C s.na2).prod := by
    rw [g3, sosRoots_prod _ _ hsqrt]
  have hfl : ∀ x ∈ (order (u.map fun x => x.1)).map (fun i => u.getD i (0, 0, false)), x.2.2 = true :=
    fun x hx => h4 x (h6.mem_iff.1 hx)
  have hll : ((order (u.map fun x => x.1)).map fun i => u.getD i (0, 0, false)).length = 2 * sos.length := by rw [h6.length_eq, hul]
  clear h6 hu hu' hufst
  generalize (order (u.map fun x => x.1)).map (fun i => u.getD i (0, 0, false)) = l at *
  have hpair' : ∀ k < sos.length, (l.getD (2 * k + 1) (0, 0, false)).1 = star (l.getD (2 * k) (0, 0, false)).1 := by
    intro k hk
    rw [hq _ (by omega), hq _ (by omega)]
    exact hpair k hk
  have hstar : ∀ x y : α, star x = x → star y = y → star (x / y) = x / y := by
    intro x y hx hy
    have := map_div₀ (starRingEnd α) x y
    rw [starRingEnd_apply, starRingEnd_apply, starRingEnd_apply, hx, hy] at this
    exact this
  have hGs : star (sos.map fun s => s.b0 / s.a0).prod = (sos.map fun s => s.b0 / s.a0).prod := by
    have := map_list_prod (starRingEnd α) (sos.map fun s => s.b0 / s.a0)
    rw [starRingEnd_apply] at this
    rw [this, List.map_map]
    congr 1
    refine List.map_congr_left fun s hs => ?_
    obtain ⟨k0, k1, k2, k3, k4, k5⟩ := hreal s hs
    exact hstar _ _ k0 k3
  have hres : ∀ k < sos.length, simpleResidue sos l (2 * k + 1) = star (simpleResidue sos l (2 * k)) := by
    intro k hk
    refine simpleResidue_star ?_ ?_ hone (by omega) (by omega) (hpair' k hk)
    · exact quad_star Section.nb1 Section.nb2 sos
        (fun s hs => by obtain ⟨k0, k1, k2, k3, k4, k5⟩ := hreal s hs; exact hstar _ _ k1 k0)
        (fun s hs => by obtain ⟨k0, k1, k2, k3, k4, k5⟩ := hreal s hs; exact hstar _ _ k2 k0)
    · rw [hD]
      exact quad_star Section.na1 Section.na2 sos
        (fun s hs => by obtain ⟨k0, k1, k2, k3, k4, k5⟩ := hreal s hs; exact hstar _ _ k4 k3)
        (fun s hs => by obtain ⟨k0, k1, k2, k3, k4, k5⟩ := hreal s hs; exact hstar _ _ k5 k3)
  have hpow : ∀ (f g : Nat → α) (z : α), pfePow ((List.range sos.length).map f) ((List.range sos.length).map g)
      (List.replicate sos.length 1) z = ((List.range sos.length).map fun k => f k / (z - g k)).sum := by
    intro f g z
    unfold pfePow
    congr 1
    refine List.ext_getElem (by simp) fun i h1 h2 => ?_
    simp
  refine ⟨(List.range sos.length).map fun k => simpleResidue sos l (2 * k) * (sos.map fun s => s.b0 / s.a0).prod,
    (List.range sos.length).map fun k => (l.getD (2 * k) (0, 0, false)).1, ?_, by simp, by simp, ?_, ?_⟩
  · rw [h7, pfeOf_complex hll hone hfl]
    congr 2
    rw [List.map_const', List.length_range]
  · have e1 : (repeatPoles (polesOf l)).Perm (sosRoots sqrt sos) := g2
    refine List.Perm.trans ?_ e1
    have e2 : repeatPoles (polesOf l) = (List.range (2 * sos.length)).map fun i => (l.getD i (0, 0, false)).1 := by
      rw [← hll, repeatPoles, polesOf, ← map_range_getD l (fun x => (x.1, x.2.1)), List.flatMap_map,
        ← List.flatMap_singleton' ((List.range l.length).map _), List.flatMap_map]
      refine List.flatMap_congr fun i hi => ?_
      simp only
      rw [hone _ (getD_mem_list l (List.mem_range.1 hi))]
      rfl
    have e3 : ∀ (f : Nat → α) (n : Nat), (List.range (2 * n)).map f = (List.range n).flatMap fun k => [f (2 * k)] ++ [f (2 * k + 1)] := by
      intro f n
      induction n with
      | zero => rfl
      | succ n ih =>
        rw [show 2 * (n + 1) = 2 * n + 1 + 1 by omega, List.range_succ, List.range_succ, List.range_succ, List.map_append, List.map_append,
          ih, List.flatMap_append]
        simp
    rw [e2, e3]
    refine List.Perm.trans (List.Perm.of_eq ?_) (List.flatMap_append_perm _ _ _)
    rw [List.map_map, ← List.flatMap_singleton' ((List.range sos.length).map fun k => (l.getD (2 * k) (0, 0, false)).1), List.flatMap_map,
      ← List.flatMap_singleton' ((List.range sos.length).map _), List.flatMap_map]
    congr 1
    refine List.flatMap_congr fun k hk => ?_
    rw [hpair' k (List.mem_range.1 hk)]; rfl
  · intro z hz
    have hz' := sosDen_ne _ ha z hz
    have h8 := sosValue_eq _ hb ha z
    rw [← hD] at h8 hz'
    have h9 := g1.expansion (fun i => [simpleResidue sos l i]) (fun i hi => by
      obtain ⟨m1, m2⟩ := g1.others hi
      have m3 := hone _ (getD_mem_list l hi)
      refine ⟨by rw [m3]; rfl, ?_⟩
      rw [m3, pow_one, shiftPoly_cons, show shiftPoly _ ([] : List α) = 0 by simp [shiftPoly], zero_mul, add_zero]
      have hroot : (numerPoly sos - othersPoly l i * Polynomial.C (simpleResidue sos l i)).IsRoot (l.getD i (0, 0, false)).1 := by
        rw [Polynomial.IsRoot.def, Polynomial.eval_sub, Polynomial.eval_mul, Polynomial.eval_C, simpleResidue_eq, mul_div_cancel₀ _ m1, sub_self]
      obtain ⟨Q, hQ⟩ := Polynomial.dvd_iff_isRoot.2 hroot
      exact ⟨Q, by linear_combination hQ⟩) z hz'
    have h10 : cascade sos z = _ := h8
    rw [h10, h9, hpow, List.map_map, List.map_map, hll, sum_pairs]
    rw [show (star ∘ fun k => simpleResidue sos l (2 * k) * (sos.map fun s => s.b0 / s.a0).prod) =
      fun k => star (simpleResidue sos l (2 * k) * (sos.map fun s => s.b0 / s.a0).prod) from rfl,
      show (star ∘ fun k => (l.getD (2 * k) (0, 0, false)).1) = fun k => star (l.getD (2 * k) (0, 0, false)).1 from rfl, hpow,
      mul_add, mul_one, add_assoc, ← List.sum_map_add, ← List.sum_map_mul_left]
    congr 2
    refine List.map_congr_left fun k hk => ?_
    have hk := List.mem_range.1 hk
    have hs1 : ∀ i, Polynomial.eval z (shiftPoly (l.getD i (0, 0, false)).1 [simpleResidue sos l i]) = simpleResidue sos l i := by
      intro i
      rw [shiftPoly_cons, show shiftPoly _ ([] : List α) = 0 by simp [shiftPoly]]
      simp
    rw [hs1, hs1, hone _ (getD_mem_list l (by omega)), hone _ (getD_mem_list l (by omega)), pow_one, pow_one, hres k hk, hpair' k hk, star_mul', hGs]
    ring

/-! ## Where the code does not return an expansion -/

/-- A repeated pole in a cascade of complex sections always raises: `torch.stack` of the (empty) list of real residues. -/
theorem C53_repeated_complex_raises [CharZero α] {sqrt re : α → α} {neg : α → Bool} {close : α → α → Bool} {order : List α → List Nat}
    (ho : ∀ l, (order l).Perm (List.range l.length)) {sos : List (Section α)}
    (hdisc : ∀ s ∈ sos, neg (s.a1 / s.a0 * (s.a1 / s.a0) - 4 * (s.a2 / s.a0)) = true)
    (hclose : ∀ x y : α, close x y = decide (x = y)) (hrep : ¬ (sosRoots sqrt sos).Nodup) :
    Fails (sos2pfe sqrt re neg close order .mean sos) := by
  by_cases hgain : ∀ s ∈ sos, neg (s.b0 / s.a0) = false
  · have hne : sos ≠ [] := by
      rintro rfl
      exact hrep List.nodup_nil
    obtain ⟨u, h1, h2, h3, h4, h5, h6, h7⟩ := sos2pfe_step sqrt re neg ho (close := close) hne hgain (c := true) hdisc
      (fun x _ y _ => hclose x y)
    rw [h7]
    have hfl : ∀ x ∈ (order (u.map fun x => x.1)).map (fun i => u.getD i (0, 0, false)), x.2.2 = true :=
      fun x hx => h4 x (h6.mem_iff.1 hx)
    refine pfeOf_fails _ _ _ ?_ fun i hi => hfl _ (getD_mem_list _ (repeatedAt_lt hi))
    intro h0
    apply hrep
    have hone : ∀ x ∈ u, x.2.1 = 1 := by
      intro x hx
      have hx' := h6.mem_iff.2 hx
      obtain ⟨i, hi, rfl⟩ := List.getElem_of_mem hx'
      have h8 := List.filter_eq_nil_iff.1 h0 i (List.mem_range.2 hi)
      rw [List.getD_eq_getElem _ _ hi] at h8
      have h9 := h3 _ hx
      simp only [decide_eq_true_eq] at h8
      omega
    refine h5.nodup_iff.1 ?_
    have : repeatPoles (polesOf u) = u.map fun x => x.1 := by
      rw [repeatPoles, polesOf, List.flatMap_map, ← List.flatMap_singleton' (u.map _), List.flatMap_map]
      refine List.flatMap_congr fun x hx => ?_
      simp only
      rw [hone x hx]; rfl
    rw [this]
    exact h2
  · unfold sos2pfe
    exact fails_check fun h => (hgain h).elim

/-- A negative gain gives NaN, even if the product of the gains is positive. -/
theorem C53_negative_gain (sqrt re : α → α) (neg : α → Bool) (close : α → α → Bool) (order : List α → List Nat) (rtype : RType)
    {sos : List (Section α)} {s : Section α} (hs : s ∈ sos) (hn : neg (s.b0 / s.a0) = true) :
    Fails (sos2pfe sqrt re neg close order rtype sos) := by
  unfold sos2pfe
  refine fails_check fun h => ?_
  have := h s hs
  rw [hn] at this
  cases this

/-- `rtype="min"` and `"max"` always raise. -/
theorem C53_rtype_raises (sqrt re : α → α) (neg : α → Bool) (close : α → α → Bool) (order : List α → List Nat) {rtype : RType}
    (h : rtype ≠ .mean) (sos : List (Section α)) : Fails (sos2pfe sqrt re neg close order rtype sos) := by
  unfold sos2pfe
  exact fails_check fun _ => fails_left (uniqueRoots_fails close h _ _)

example (sqrt : ℚ → ℚ) := C53_rtype_raises sqrt id (fun x => decide (x < 0)) (fun x y => decide (x = y)) (fun l => List.range l.length)
  (rtype := .min) (by decide) [⟨1, 0, 1, 1, -(5 / 6), 1 / 6⟩]

omit [DecidableEq α] in
/-- The flags handed to `unique_roots` belong to the roots only if all sections are of the same kind: the roots are listed section by
section, the flags twice in the order of the sections. -/
theorem C53_flags (neg : α → Bool) (sos : List (Section α)) :
    (sosFlags neg sos = sos.flatMap fun s => [neg s.disc, neg s.disc]) ↔ ∀ s ∈ sos, ∀ t ∈ sos, neg s.disc = neg t.disc := by
  have hget : ∀ (L : List (Section α)) (k : Nat), (L.flatMap fun s => [neg s.disc, neg s.disc])[k]? = (L.map fun s => neg s.disc)[k / 2]? := by
    intro L
    induction L with
    | nil => intro k; simp
    | cons s L ih =>
      intro k
      match k with
      | 0 => simp
      | 1 => simp
      | k + 2 =>
        rw [show (k + 2) / 2 = k / 2 + 1 by omega, List.map_cons, List.getElem?_cons_succ, ← ih k]
        simp
  constructor
  · intro h
    have hk : ∀ k < sos.length, (sos.map fun s => neg s.disc)[k]? = (sos.map fun s => neg s.disc)[k / 2]? := by
      intro k hk
      have h1 := congrArg (fun l => l[k]?) h
      have h1 : (sosFlags neg sos)[k]? = _ := h1
      rw [hget, sosFlags, List.getElem?_append_left (by simpa using hk)] at h1
      exact h1
    have h0 : ∀ k < sos.length, (sos.map fun s => neg s.disc)[k]? = (sos.map fun s => neg s.disc)[0]? := by
      intro k
      induction k using Nat.strong_induction_on with
      | _ k ih =>
        intro hkl
        by_cases hz : k = 0
        · rw [hz]
        · rw [hk k hkl, ih (k / 2) (by omega) (by omega)]
    intro s hs t ht
    obtain ⟨i, hi, rfl⟩ := List.getElem_of_mem hs
    obtain ⟨j, hj, rfl⟩ := List.getElem_of_mem ht
    have h1 := h0 i hi
    rw [← h0 j hj, List.getElem?_map, List.getElem?_map, List.getElem?_eq_getElem hi, List.getElem?_eq_getElem hj] at h1
    exact Option.some.inj h1
  · intro h
    cases sos with
    | nil => rfl
    | cons s L =>
      have e : ∀ t ∈ s :: L, neg t.disc = neg s.disc := fun t ht => h t ht s (by simp)
      have e1 : (s :: L).map (fun t => neg t.disc) = List.replicate (s :: L).length (neg s.disc) := by
        rw [← List.map_const']
        exact List.map_congr_left e
      refine List.ext_getElem? fun k => ?_
      rw [hget, sosFlags, e1, List.replicate_append_replicate, List.getElem?_replicate, List.getElem?_replicate]
      by_cases hk : k < (s :: L).length + (s :: L).length
      · rw [if_pos hk, if_pos (by omega)]
      · rw [if_neg hk, if_neg (by omega)]

/-! ## Concrete cases -/

/-- A square root of the numbers used below. -/
def sqrtQI (x : QI) : QI :=
  if x = ⟨-4, 0⟩ then ⟨0, 2⟩ else if x = ⟨-1, 0⟩ then ⟨0, 1⟩ else if x = ⟨1 / 36, 0⟩ then ⟨1 / 6, 0⟩ else
    if x = ⟨1 / 16, 0⟩ then ⟨1 / 4, 0⟩ else if x = ⟨-(64 / 25), 0⟩ then ⟨0, 8 / 5⟩ else 0

/-- `x < 0`. -/
def negQI (x : QI) : Bool := decide (x.re < 0)

/-- The real part. -/
def reQI (x : QI) : QI := ⟨x.re, 0⟩

/-- The squared modulus. -/
def normQI (x : QI) : ℚ := x.re * x.re + x.im * x.im

/-- `z² / (z² + 1)` and `z² / ((z - 1/2) (z - 1/3))`. -/
def mixedSos : List (Section QI) := [⟨1, 0, 0, 1, 0, 1⟩, ⟨1, 0, 0, 1, ⟨-(5 / 6), 0⟩, ⟨1 / 6, 0⟩⟩]

/-- A cascade of a section with complex and one with real poles: the expansion returned is not the cascade. -/
theorem C53_mixed_negation : ∃ r rr rc, sos2pfe sqrtQI reQI negQI (fun x y => decide (x = y)) (fun l => List.range l.length) .mean mixedSos = .ok r ∧
    r.realRes = .flat rr ∧ r.cplxRes = .flat rc ∧ expansion r rr rc 2 ≠ cascade mixedSos 2 := by
  have h : (match sos2pfe sqrtQI reQI negQI (fun x y => decide (x = y)) (fun l => List.range l.length) .mean mixedSos with
    | .ok r => match r.realRes, r.cplxRes with
      | .flat rr, .flat rc => decide (expansion r rr rc 2 ≠ cascade mixedSos 2)
      | _, _ => false
    | .error _ => false) = true := by decide +kernel
  split at h
  · rename_i r hr
    split at h
    · rename_i rr rc h1 h2
      exact ⟨r, rr, rc, hr, h1, h2, of_decide_eq_true h⟩
    · cases h
  · cases h

/-- `z² / (z² + 1)` and `z² / (z² - 6/5 z + 1)`: all poles have modulus one. -/
def unitSos : List (Section QI) := [⟨1, 0, 0, 1, 0, 1⟩, ⟨1, 0, 0, 1, ⟨-(6 / 5), 0⟩, 1⟩]

/-- An order that exchanges the second and third of four. -/
def swapOrder (l : List QI) : List Nat := if l.length = 4 then [0, 2, 1, 3] else List.range l.length

/-- Conjugate pairs of equal modulus need not stay together when sorted by modulus; then the expansion returned is not the cascade. -/
theorem C53_order_negation : (∀ l, (swapOrder l).Perm (List.range l.length)) ∧
    ((swapOrder (sosRoots sqrtQI unitSos)).map fun i => normQI ((sosRoots sqrtQI unitSos).getD i 0)) = [1, 1, 1, 1] ∧
    ∃ r rr rc, sos2pfe sqrtQI reQI negQI (fun x y => decide (x = y)) swapOrder .mean unitSos = .ok r ∧
    r.realRes = .flat rr ∧ r.cplxRes = .flat rc ∧ expansion r rr rc 2 ≠ cascade unitSos 2 := by
  refine ⟨fun l => ?_, by decide +kernel, ?_⟩
  · unfold swapOrder
    by_cases h : l.length = 4
    · rw [if_pos h, h]; decide
    · rw [if_neg h]
  have h : (match sos2pfe sqrtQI reQI negQI (fun x y => decide (x = y)) swapOrder .mean unitSos with
    | .ok r => match r.realRes, r.cplxRes with
      | .flat rr, .flat rc => decide (expansion r rr rc 2 ≠ cascade unitSos 2)
      | _, _ => false
    | .error _ => false) = true := by decide +kernel
  split at h
  · rename_i r hr
    split at h
    · rename_i rr rc h1 h2
      exact ⟨r, rr, rc, hr, h1, h2, of_decide_eq_true h⟩
    · cases h
  · cases h

/-- `(z² + 1) / ((z - 1/2) (z - 1/3))` and `2 z² / ((z - 1/2) (z - 1/4))`. -/
def realSos : List (Section ℚ) := [⟨1, 0, 1, 1, -(5 / 6), 1 / 6⟩, ⟨2, 0, 0, 1, -(3 / 4), 1 / 8⟩]

/-- The real numbers of the concrete cases. -/
def ofRat : ℚ →+* QI where
  toFun x := ⟨x, 0⟩
  map_zero' := rfl
  map_one' := rfl
  map_add' x y := by ext <;> simp
  map_mul' x y := by ext <;> simp

/-- Non-vacuity of `C53_real_partial`: a double pole and two simple ones. -/
example : ∃ R, ∃ r : List QI, ∃ p n, sos2pfe sqrtQI reQI negQI (fun x y => decide (x = y)) (fun l => List.range l.length) .mean (realSos.map (Section.map ofRat)) =
    .ok ⟨R, .flat [], p, [], n, [], ofRat (realSos.map fun s => s.b0 / s.a0).prod⟩ ∧ r.length = 2 * realSos.length := by
  have hd : ∀ s ∈ realSos, ∃ q, (q = (1 : ℚ) / 6 ∨ q = 1 / 4) ∧ q * q = s.a1 / s.a0 * (s.a1 / s.a0) - 4 * (s.a2 / s.a0) := by
    intro s hs
    simp only [realSos, List.mem_cons, List.not_mem_nil, or_false] at hs
    rcases hs with rfl | rfl
    · exact ⟨1 / 6, Or.inl rfl, by norm_num⟩
    · exact ⟨1 / 4, Or.inr rfl, by norm_num⟩
  obtain ⟨R, r, p, n, h1, h2, _⟩ := C53_real_partial ofRat (sqrt := sqrtQI) (re := reQI) (neg := negQI) (close := fun x y => decide (x = y))
    (order := fun l => List.range l.length) (fun x => rfl) (fun l => List.Perm.refl _) (sos := realSos) (by decide) (by decide +kernel) (by decide +kernel)
    (by decide +kernel) (by
      intro s hs
      obtain ⟨q, h1, h2⟩ := hd s hs
      rw [← h2]
      rcases h1 with rfl | rfl
      · exact ⟨by decide +kernel, 1 / 6, by decide +kernel, rfl⟩
      · exact ⟨by decide +kernel, 1 / 4, by decide +kernel, rfl⟩) (fun _ _ => rfl)
  exact ⟨R, r, p, n, h1, h2⟩

/-- `z² / (z² + 1)` and `z² / (z² + 1/4)`. -/
def complexSos : List (Section QI) := [⟨1, 0, 0, 1, 0, 1⟩, ⟨1, 0, 0, 1, 0, ⟨1 / 4, 0⟩⟩]

/-- Non-vacuity of `C53_complex_partial`. -/
example : ∃ c p, sos2pfe sqrtQI reQI negQI (fun x y => decide (x = y)) (fun l => List.range l.length) .mean complexSos =
    .ok ⟨.flat [], .flat c, [], p, [], List.replicate complexSos.length 1, (complexSos.map fun s => s.b0 / s.a0).prod⟩ ∧
    c.length = complexSos.length := by
  obtain ⟨c, p, h1, h2, _⟩ := C53_complex_partial (sqrt := sqrtQI) (re := reQI) (neg := negQI) (close := fun x y => decide (x = y))
    (order := fun l => List.range l.length) (fun l => List.Perm.refl _) (sos := complexSos) (by decide) (by decide +kernel) (by decide +kernel)
    (by decide +kernel) (by decide +kernel) (by decide +kernel) (by decide +kernel) (fun _ _ => rfl) (by decide +kernel) (by decide +kernel)
  exact ⟨c, p, h1, h2⟩

/-- Non-vacuity of `C53_repeated_complex_raises`: `z² / (z² + 1)` twice. -/
example : Fails (sos2pfe sqrtQI reQI negQI (fun x y => decide (x = y)) (fun l => List.range l.length) .mean
    [⟨1, 0, 0, 1, 0, 1⟩, ⟨1, 0, 0, 1, 0, 1⟩]) :=
  C53_repeated_complex_raises (fun l => List.Perm.refl _) (by decide +kernel) (fun _ _ => rfl) (by decide +kernel)

/-- Non-vacuity of `C53_negative_gain`: the product of the gains is one. -/
example : Fails (sos2pfe sqrtQI reQI negQI (fun x y => decide (x = y)) (fun l => List.range l.length) .mean
    [⟨-1, 0, 0, 1, 0, 1⟩, ⟨-1, 0, 0, 1, 0, ⟨1 / 4, 0⟩⟩]) :=
  C53_negative_gain _ _ _ _ _ _ (List.mem_cons_self ..) (by decide +kernel)

end Props
