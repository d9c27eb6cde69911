import Verif.Proof.CastFilter
import Verif.Model.LpvRecur
import Verif.Model.LpvFiltering

/-!
# Time-varying recursions, state-space models and filters commute with a change of numbers
-/

namespace Phil.Lpv
open Torch Torch.Tensor Phil.Mat
open Spec (LpcNatural)
open Phil.Lti (firstComponent_cast pick_cast pick featuresOf_cast initialState_cast shiftedStates_cast padOrders_cast outputCoefs_cast Form)
variable {α β : Type} [CommRing α] [CommRing β] (φ : α →+* β)

theorem scanM_zip_cast (step : Tensor α → Tensor α × Tensor α → Res (Tensor α)) (step' : Tensor β → Tensor β × Tensor β → Res (Tensor β))
    (h : ∀ s a b, step' (cast φ s) (cast φ a, cast φ b) = Except.map (cast φ) (step s (a, b))) (s : Tensor α) (as bs : List (Tensor α)) :
    scanM step' (cast φ s) ((as.map (cast φ)).zip (bs.map (cast φ))) = Except.map (List.map (cast φ)) (scanM step s (as.zip bs)) := by
  have e : (as.map (cast φ)).zip (bs.map (cast φ)) = (as.zip bs).map (Prod.map (cast φ) (cast φ)) := by
    rw [List.zip_map]
  rw [e]
  exact scanM_cast _ _ _ _ (fun s t => h s t.1 t.2) s (as.zip bs)

theorem recursionLoop_cast (A zi x : Tensor α) (out : Option Int) :
    recursionLoop (cast φ A) (cast φ zi) (cast φ x) out = Except.map (cast φ) (recursionLoop A zi x out) := by
  have h1 : ∀ (zi : Tensor α) (xs As : List (Tensor α)),
      scanM (fun h (p : Tensor β × Tensor β) => addmm p.1 h p.2) (cast φ zi) ((xs.map (cast φ)).zip (As.map (cast φ))) =
      Except.map (List.map (cast φ)) (scanM (fun h (p : Tensor α × Tensor α) => addmm p.1 h p.2) zi (xs.zip As)) :=
    fun zi xs As => scanM_zip_cast φ _ _ (fun s a b => cast_addmm φ a s b) zi xs As
  have h2 : ∀ (zi : Tensor α) (xs As : List (Tensor α)),
      scanM (fun h (p : Tensor β × Tensor β) => do let x1 ← unsqueeze p.1 1; baddbmm x1 h p.2) (cast φ zi)
        ((xs.map (cast φ)).zip (As.map (cast φ))) =
      Except.map (List.map (cast φ)) (scanM (fun h (p : Tensor α × Tensor α) => do let x1 ← unsqueeze p.1 1; baddbmm x1 h p.2) zi
        (xs.zip As)) :=
    fun zi xs As => scanM_zip_cast φ _ _ (fun s a b => by pulls []) zi xs As
  have h3 : ∀ (d : Int) (hs : List (Tensor α)), (hs.map (cast φ)).mapM (pick out d) =
      Except.map (List.map (cast φ)) (hs.mapM (pick out d)) :=
    fun d hs => mapM_cast φ _ _ _ (fun h => pick_cast φ out d h) hs
  pulls [recursionLoop, firstComponent_cast, h1, h2, h3]

theorem ssrCums_cast (A : Tensor α) : ssrCums (cast φ A) = Except.map (cast φ) (ssrCums A) := by
  pulls [ssrCums, matricesCumdot_cast]

theorem ssrLastCum_cast (c A : Tensor α) : ssrLastCum (cast φ c) (cast φ A) = Except.map (cast φ) (ssrLastCum c A) := by
  pulls [ssrLastCum]

theorem ssrCumsPlusI_cast (c : Tensor α) (M : Nat) : ssrCumsPlusI (cast φ c) M = Except.map (cast φ) (ssrCumsPlusI c M) := by
  pulls [ssrCumsPlusI, cast_eye φ]

theorem ssrMat1_cast (c : Tensor α) (n : Nat) : ssrMat1 (cast φ c) n = Except.map (cast φ) (ssrMat1 c n) := by
  pulls [ssrMat1]

theorem ssrInnerA_cast (c : Tensor α) (n : Nat) : ssrInnerA (cast φ c) n = Except.map (cast φ) (ssrInnerA c n) := by
  pulls [ssrInnerA]

theorem ssrAssemble_cast (o i : Tensor α) (out : Option Int) :
    ssrAssemble (cast φ o) (cast φ i) out = Except.map (cast φ) (ssrAssemble o i out) := by
  cases out <;> pulls [ssrAssemble]

theorem ssrBlocked_cast (lp : Tensor α → Tensor α → Tensor α → Option Int → Res (Tensor α))
    (lp' : Tensor β → Tensor β → Tensor β → Option Int → Res (Tensor β))
    (hl : ∀ A zi x out, lp' (cast φ A) (cast φ zi) (cast φ x) out = Except.map (cast φ) (lp A zi x out))
    (r : Tensor α → Tensor α → Tensor α → Res (Tensor α)) (r' : Tensor β → Tensor β → Tensor β → Res (Tensor β))
    (hr : ∀ A zi x, r' (cast φ A) (cast φ zi) (cast φ x) = Except.map (cast φ) (r A zi x)) (A zi x : Tensor α) (u N M : Nat)
    (out : Option Int) :
    ssrBlocked lp' r' (cast φ A) (cast φ zi) (cast φ x) u N M out = Except.map (cast φ) (ssrBlocked lp r A zi x u N M out) := by
  pulls [ssrBlocked, ssrCums_cast, ssrLastCum_cast, ssrCumsPlusI_cast, ssrMat1_cast, ssrInnerA_cast, ssrAssemble_cast, hr, hl]

theorem stateSpaceRecursionAux_cast (lp : Tensor α → Tensor α → Tensor α → Option Int → Res (Tensor α))
    (lp' : Tensor β → Tensor β → Tensor β → Option Int → Res (Tensor β))
    (hl : ∀ A zi x out, lp' (cast φ A) (cast φ zi) (cast φ x) out = Except.map (cast φ) (lp A zi x out)) (u : Int) (k : Nat)
    (A zi x : Tensor α) (out : Option Int) :
    stateSpaceRecursionAux lp' u k (cast φ A) (cast φ zi) (cast φ x) out =
      Except.map (cast φ) (stateSpaceRecursionAux lp u k A zi x out) := by
  induction k generalizing A zi x out with
  | zero => rfl
  | succ k ih =>
    have hB := ssrBlocked_cast φ lp lp' hl (fun A zi x => stateSpaceRecursionAux lp u k A zi x none)
      (fun A zi x => stateSpaceRecursionAux lp' u k A zi x none) (fun A zi x => ih A zi x none)
    pulls [stateSpaceRecursionAux, hl, hB]

theorem stateSpaceRecursion_cast (A zi x : Tensor α) (u : Int) (out : Option Int) :
    stateSpaceRecursion (cast φ A) (cast φ zi) (cast φ x) u out = Except.map (cast φ) (stateSpaceRecursion A zi x u out) :=
  stateSpaceRecursionAux_cast φ _ _ (recursionLoop_cast φ) u _ A zi x out

theorem scalarRecursionLoop_cast (a init x : Tensor α) :
    scalarRecursionLoop (cast φ a) (cast φ init) (cast φ x) = Except.map (cast φ) (scalarRecursionLoop a init x) := by
  have h1 : ∀ (zi : Tensor α) (as xs : List (Tensor α)),
      scanM (fun h (p : Tensor β × Tensor β) => addcmul p.2 h p.1) (cast φ zi) ((as.map (cast φ)).zip (xs.map (cast φ))) =
      Except.map (List.map (cast φ)) (scanM (fun h (p : Tensor α × Tensor α) => addcmul p.2 h p.1) zi (as.zip xs)) :=
    fun zi as xs => scanM_zip_cast φ _ _ (fun s a b => cast_addcmul φ b s a) zi as xs
  pulls [scalarRecursionLoop, h1]

variable [StarRing α] [StarRing β] (hφ : ∀ a, φ (star a) = star (φ a))
include hφ

theorem linearRecurrenceAux_cast (u : Int) (k : Nat) (a init x : Tensor α) :
    linearRecurrenceAux u k (cast φ a) (cast φ init) (cast φ x) = Except.map (cast φ) (linearRecurrenceAux u k a init x) := by
  induction k generalizing a init x with
  | zero => rfl
  | succ k ih => pulls [linearRecurrenceAux, scalarRecursionLoop_cast, ih, cast_conj φ hφ, cast_vecdot φ hφ]

theorem linearRecurrence_cast (a init x : Tensor α) (u : Int) :
    linearRecurrence (cast φ a) (cast φ init) (cast φ x) u = Except.map (cast φ) (linearRecurrence a init x u) := by
  unfold linearRecurrence
  rw [cast_size]
  exact linearRecurrenceAux_cast φ hφ u _ a init x

theorem inputTerm_cast (B x : Tensor α) (n N M : Nat) (f : Int) :
    inputTerm (cast φ B) (cast φ x) n N M f = Except.map (cast φ) (inputTerm B x n N M f) := by
  unfold inputTerm
  rw [cast_shape]
  split <;> first | rfl | pulls [cast_conj φ hφ, cast_vecdot φ hφ]

theorem feedTerm_cast (D x : Tensor α) (n N : Nat) (f : Int) :
    feedTerm (cast φ D) (cast φ x) n N f = Except.map (cast φ) (feedTerm D x n N f) := by
  unfold feedTerm
  rw [cast_shape]
  split <;> first | rfl | pulls [cast_conj φ hφ, cast_vecdot φ hφ]

theorem outputTerm_cast (C h : Tensor α) (n N M : Nat) :
    outputTerm (cast φ C) (cast φ h) n N M = Except.map (cast φ) (outputTerm C h n N M) := by
  unfold outputTerm
  rw [cast_shape]
  split <;> first | rfl | pulls [cast_conj φ hφ, cast_vecdot φ hφ]

theorem ssmCD_cast (h x : Tensor α) (C D : Option (Tensor α)) (n N M : Nat) :
    ssmCD (cast φ h) (cast φ x) (C.map (cast φ)) (D.map (cast φ)) n N M = Except.map (cast φ) (ssmCD h x C D n N M) := by
  cases C <;> cases D <;>
    pulls [ssmCD, Option.map_none, Option.map_some, featuresOf_cast, feedTerm_cast φ hφ, outputTerm_cast φ hφ, pure_bind, bind_assoc]

theorem stateSpaceWith_cast (r : Tensor α → Tensor α → Tensor α → Int → Option Int → Res (Tensor α))
    (r' : Tensor β → Tensor β → Tensor β → Int → Option Int → Res (Tensor β))
    (hr : ∀ A zi x u out, r' (cast φ A) (cast φ zi) (cast φ x) u out = Except.map (cast φ) (r A zi x u out)) (A x : Tensor α)
    (B C D zi : Option (Tensor α)) (u out : Option Int) :
    stateSpaceWith r' (cast φ A) (cast φ x) (B.map (cast φ)) (C.map (cast φ)) (D.map (cast φ)) (zi.map (cast φ)) u out =
      Except.map (castP φ) (stateSpaceWith r A x B C D zi u out) := by
  have h1 := fun h x => ssmCD_cast φ hφ h x C D
  have h2 := initialState_cast φ zi
  have h3 := shiftedStates_cast φ r r' hr
  have h4 : (C.map (cast φ) = none) = (C = none) := by simp
  cases B <;>
    pulls [stateSpaceWith, h4, h1, h2, h3, featuresOf_cast, inputTerm_cast φ hφ, Option.map_none, Option.map_some, pure_bind]

theorem stateSpace_cast (A x : Tensor α) (B C D zi : Option (Tensor α)) (u out : Option Int) :
    stateSpace (cast φ A) (cast φ x) (B.map (cast φ)) (C.map (cast φ)) (D.map (cast φ)) (zi.map (cast φ)) u out =
      Except.map (castP φ) (stateSpace A x B C D zi u out) :=
  stateSpaceWith_cast φ hφ _ _ (stateSpaceRecursion_cast φ) A x B C D zi u out

omit [StarRing α] [StarRing β] hφ in
theorem diagShift_cast (c : Tensor α) (k : Nat) (d : Bool) : diagShift (cast φ c) k d = Except.map (cast φ) (diagShift c k d) := by
  pulls [diagShift]

omit [StarRing α] [StarRing β] hφ in
theorem isNone_cast (z : Option (Tensor α)) : (z.map (cast φ)).isNone = z.isNone := by cases z <;> rfl

theorem firTransposed_cast (b x : Tensor α) (zi : Option (Tensor α)) :
    firTransposed (cast φ b) (cast φ x) (zi.map (cast φ)) = Except.map (castP φ) (firTransposed b x zi) := by
  cases zi <;> pulls [firTransposed, Option.map_none, Option.map_some, Option.isNone_none, Option.isNone_some, diagShift_cast,
    cast_vecdot φ hφ]

theorem firDirect_cast (b x z : Tensor α) (r : Bool) :
    firDirect (cast φ b) (cast φ x) (cast φ z) r = Except.map (castP φ) (firDirect b x z r) := by
  pulls [firDirect, cast_conj φ hφ, cast_vecdot φ hφ]

theorem fir_cast (b x : Tensor α) (zi : Option (Tensor α)) (t : Bool) :
    fir (cast φ b) (cast φ x) (zi.map (cast φ)) t = Except.map (castP φ) (fir b x zi t) := by
  have h0 : (zi.map (cast φ) = none) = (zi = none) := by simp
  have h1 : (∀ z, zi.map (cast φ) = some z → z.rank = 2) = (∀ z, zi = some z → z.rank = 2) := by
    cases zi <;> simp [cast_rank]
  have h2 : (∀ z, zi.map (cast φ) = some z → z.size 0 = x.size 0) = (∀ z, zi = some z → z.size 0 = x.size 0) := by
    cases zi <;> simp [cast_size]
  have h3 : (∀ z, zi.map (cast φ) = some z → (z.size 1 : Int) = (b.size 2 : Int) - 1) =
      (∀ z, zi = some z → (z.size 1 : Int) = (b.size 2 : Int) - 1) := by
    cases zi <;> simp [cast_size]
  have h4 : ∀ s, (zi.map (cast φ)).getD (zeros s) = cast φ (zi.getD (zeros s)) := by
    intro s
    cases zi <;> simp [← cast_zeros φ]
  pulls [fir, h0, h1, h2, h3, h4, firTransposed_cast φ hφ, firDirect_cast φ hφ]

variable (lpc : Lpc α) (lpc' : Lpc β) (hl : LpcNatural φ lpc lpc')
include hl

theorem allpoleTransposed_cast (a x z : Tensor α) (r : Bool) :
    allpoleTransposed lpc' (cast φ a) (cast φ x) (cast φ z) r = Except.map (castP φ) (allpoleTransposed lpc a x z r) := by
  have h1 : ∀ x a, lpc' (cast φ x) (cast φ a) none = Except.map (Prod.map (cast φ) (cast φ)) (lpc x a none) := fun x a => hl x a none
  have h2 : ∀ x1 x2 : Tensor α, cat ([cast φ x1, cast φ x2] ++ if r then [zeros z.shape] else []) 1 =
      Except.map (cast φ) (cat ([x1, x2] ++ if r then [zeros z.shape] else []) 1) := by
    intro x1 x2
    rw [← cast_cat]
    cases r <;> simp [← cast_zeros φ]
  pulls [allpoleTransposed, cast_conj φ hφ, diagShift_cast, h1, h2]

theorem allpole_cast (a x : Tensor α) (zi : Option (Tensor α)) (t : Bool) :
    allpole lpc' (cast φ a) (cast φ x) (zi.map (cast φ)) t = Except.map (castP φ) (allpole lpc a x zi t) := by
  have h1 : (∀ z, zi.map (cast φ) = some z → z.rank = 2) = (∀ z, zi = some z → z.rank = 2) := by
    cases zi <;> simp [cast_rank]
  have h2 : (∀ z, zi.map (cast φ) = some z → z.size 0 = x.size 0) = (∀ z, zi = some z → z.size 0 = x.size 0) := by
    cases zi <;> simp [cast_size]
  have h3 : (∀ z, zi.map (cast φ) = some z → z.size 1 = a.size 2) = (∀ z, zi = some z → z.size 1 = a.size 2) := by
    cases zi <;> simp [cast_size]
  have h4 : ∀ s, (zi.map (cast φ)).getD (zeros s) = cast φ (zi.getD (zeros s)) := by
    intro s
    cases zi <;> simp [← cast_zeros φ]
  have h5 : ∀ x a z, lpc' (cast φ x) (cast φ a) (some (cast φ z)) = Except.map (Prod.map (cast φ) (cast φ)) (lpc x a (some z)) :=
    fun x a z => hl x a (some z)
  have h6 : ∀ r : Tensor α × Tensor α, (pure (cast φ r.1, if zi.isSome = true then some (cast φ r.2) else none) : Res _) =
      Except.map (castP φ) (pure (r.1, if zi.isSome = true then some r.2 else none)) := by
    intro r
    cases zi <;> rfl
  pulls [allpole, h1, h2, h3, h4, h5, h6, allpoleTransposed_cast φ hφ lpc lpc' hl]

omit [StarRing α] [StarRing β] hφ hl in
theorem withBatchAxis_cast (c : Tensor α) : withBatchAxis (cast φ c) = Except.map (cast φ) (withBatchAxis c) := by
  pulls [withBatchAxis]

omit [StarRing α] [StarRing β] hφ hl in
theorem torchlpcState_cast (zi : Option (Tensor α)) (B o : Nat) :
    torchlpcState (zi.map (cast φ)) B o = Except.map (Prod.map id (cast φ)) (torchlpcState zi B o) := by
  have h : ∀ (n : Nat) (z : Tensor α), (pure (n, cast φ z) : Res _) = Except.map (Prod.map id (cast φ)) (pure (n, z)) := fun _ _ => rfl
  cases zi <;> pulls [torchlpcState, Option.map_none, Option.map_some, cast_zeros φ, h]

theorem torchlpcForms_cast (b a x z : Tensor α) (r : Bool) (form : Form) :
    torchlpcForms lpc' (cast φ b) (cast φ a) (cast φ x) (cast φ z) r form = Except.map (castP φ) (torchlpcForms lpc b a x z r form) := by
  have f0 : ∀ (b x : Tensor α) t, fir (cast φ b) (cast φ x) none t = Except.map (castP φ) (fir b x none t) :=
    fun b x t => fir_cast φ hφ b x none t
  have f1 : ∀ (b x z : Tensor α) t, fir (cast φ b) (cast φ x) (some (cast φ z)) t = Except.map (castP φ) (fir b x (some z) t) :=
    fun b x z t => fir_cast φ hφ b x (some z) t
  have p0 : ∀ (b x : Tensor α) t, allpole lpc' (cast φ b) (cast φ x) none t = Except.map (castP φ) (allpole lpc b x none t) :=
    fun b x t => allpole_cast φ hφ lpc lpc' hl b x none t
  have p1 : ∀ (b x z : Tensor α) t, allpole lpc' (cast φ b) (cast φ x) (some (cast φ z)) t =
      Except.map (castP φ) (allpole lpc b x (some z) t) :=
    fun b x z t => allpole_cast φ hφ lpc lpc' hl b x (some z) t
  cases form with
  | df2 =>
    simp only [torchlpcForms, cast_slice, cast_size, map_bind_cast, p1, f1, castP_fst]
    simp only [← bind_pull]
    refine bind_congr fun za => bind_congr fun zb => bind_congr fun w => bind_congr fun y => ?_
    obtain ⟨w1, w2⟩ := w
    obtain ⟨y1, y2⟩ := y
    cases w2 with
    | none => rfl
    | some w2 =>
      cases y2 with
      | none => rfl
      | some y2 =>
        cases r with
        | false => rfl
        | true =>
          show (pure _ : Res _) = Except.map _ (pure _)
          simp only [if_true, cast_size]
          split_ifs <;> rfl
  | tdf2 => rfl
  | df1 => pulls [torchlpcForms, f0, p0]
  | tdf1 => pulls [torchlpcForms, f0, p0]
  | other => rfl

theorem torchlpcLfilter_cast (b a x : Tensor α) (zi : Option (Tensor α)) (form : Form) :
    torchlpcLfilter lpc' (cast φ b) (cast φ a) (cast φ x) (zi.map (cast φ)) form =
      Except.map (castP φ) (torchlpcLfilter lpc b a x zi form) := by
  pulls [torchlpcLfilter, withBatchAxis_cast, torchlpcState_cast, torchlpcForms_cast φ hφ lpc lpc' hl, id]

omit hl in
theorem ssmLfilter_cast (b a x : Tensor α) (zi : Option (Tensor α)) (form : Form) (u : Option Int) :
    ssmLfilter (cast φ b) (cast φ a) (cast φ x) (zi.map (cast φ)) form u = Except.map (castP φ) (ssmLfilter b a x zi form u) := by
  have h1 : ∀ A x C D : Tensor α, stateSpace (cast φ A) (cast φ x) none (some (cast φ C)) (some (cast φ D)) (zi.map (cast φ)) u none =
      Except.map (castP φ) (stateSpace A x none (some C) (some D) zi u none) :=
    fun A x C D => stateSpace_cast φ hφ A x none (some C) (some D) zi u none
  have h2 : ∀ A x B D : Tensor α, stateSpace (cast φ A) (cast φ x) (some (cast φ B)) none (some (cast φ D)) (zi.map (cast φ)) u (some 0) =
      Except.map (castP φ) (stateSpace A x (some B) none (some D) zi u (some 0)) :=
    fun A x B D => stateSpace_cast φ hφ A x (some B) none (some D) zi u (some 0)
  have h3 : ∀ (b x : Tensor α) t, fir (cast φ b) (cast φ x) none t = Except.map (castP φ) (fir b x none t) :=
    fun b x t => fir_cast φ hφ b x none t
  have h5 : ∀ (r : Res (Tensor α)) (e : String), (do let _ ← r; .error e : Res (Tensor β × Option (Tensor β))) =
      Except.map (castP φ) (do let _ ← r; .error e) := by
    intro r e; cases r <;> rfl
  cases form <;> pulls [ssmLfilter, padOrders_cast, outputCoefs_cast, companion_cast, h1, h2, h3, h5,
    cast_conj φ hφ, cast_zeros φ, stateSpaceRecursion_cast]

omit [StarRing α] [StarRing β] hφ hl in
theorem lfilterWith_cast (bk : Tensor α → Tensor α → Tensor α → Option (Tensor α) → Res (Tensor α × Option (Tensor α)))
    (bk' : Tensor β → Tensor β → Tensor β → Option (Tensor β) → Res (Tensor β × Option (Tensor β)))
    (h : ∀ b a x zi, bk' (cast φ b) (cast φ a) (cast φ x) (zi.map (cast φ)) = Except.map (castP φ) (bk b a x zi))
    (b a x : Tensor α) (zi : Option (Tensor α)) :
    lfilterWith bk' (cast φ b) (cast φ a) (cast φ x) (zi.map (cast φ)) = Except.map (castP φ) (lfilterWith bk b a x zi) := by
  have h1 : (∀ z, zi.map (cast φ) = some z → z.rank = 1) = (∀ z, zi = some z → z.rank = 1) := by
    cases zi <;> simp [cast_rank]
  simp only [lfilterWith, cast_rank, cast_unsqueeze, cast_pure, ite_pull, ite_pull_error, map_bind_cast, h, h1]
  simp only [← bind_pull]
  refine bind_congr fun v => bind_congr fun _ => bind_congr fun _ => bind_congr fun r => ?_
  obtain ⟨y, z⟩ := r
  split_ifs
  · cases z <;> pulls [Option.map_none, Option.map_some]
  · rfl

theorem lfilter_cast (b a x : Tensor α) (zi : Option (Tensor α)) (form : Form) (bk : Backend) (u : Option Int) :
    lfilter lpc' (cast φ b) (cast φ a) (cast φ x) (zi.map (cast φ)) form bk u = Except.map (castP φ) (lfilter lpc b a x zi form bk u) := by
  refine lfilterWith_cast φ _ _ (fun b a x zi => ?_) b a x zi
  cases bk with
  | ssm => exact ssmLfilter_cast φ hφ b a x zi form u
  | torchlpc => exact torchlpcLfilter_cast φ hφ lpc lpc' hl b a x zi form
  | other => rfl

end Phil.Lpv
