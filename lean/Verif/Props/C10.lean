import Verif.Proof.Stream
import Verif.Props.C09

/-!
# C10: state-space streaming

`stream` and `Chunks` are defined in Spec/Stream.lean.  The chunks may have different lengths and unroll factors.  The
full claim covers every documented argument shape; the restriction to the layout relations is the one of C08 and C09
(hence `_partial`).
-/

namespace Props
open Torch Torch.Tensor Spec Phil
variable {α : Type} [CommRing α] [StarRing α]

/-- **C10, time-invariant.**  Calling `lti.state_space` chunk by chunk, with the final state of each call as initial state
of the next, gives the output and the final state of one call on the whole signal.  A chunk is a signal with an unroll
factor; `LtiInput … fun b t => v b (s + t)` says that the chunk starting at time `s` is that part of the whole. -/
theorem C10_lti_stream_partial {B N M : Nat} {A x zi : Tensor α} {Bm C D : Option (Tensor α)} {k : Option Nat}
    {Av v d : Nat → Nat → Nat → α} {r : Nat → (Nat → α) → Nat → α} {z : Nat → Nat → α} {u : Option Int}
    {chunks : List (Tensor α × Option Int)}
    (hA : MatVals B M M A Av) (hB : LtiInput B N M Bm x v) (hC : LtiReadout B M C k r) (hD : LtiFeed B N D x k d)
    (hz : InitState B M (some zi) z) (hM : 0 < M) (hu : ∀ i, u = some i → 1 ≤ i)
    (hc : Chunks (fun s n c => LtiInput B n M Bm c.1 (fun b t => v b (s + t)) ∧
      LtiFeed B n D c.1 k (fun b t => d b (s + t)) ∧ ∀ i, c.2 = some i → 1 ≤ i) 0 chunks N) :
    ∃ y zf, Lti.stateSpace A x Bm C D (some zi) u none = .ok (y, some zf) ∧
      stream 1 (chunks.map fun c zi => Lti.stateSpace A c.1 Bm C D zi c.2 none) (some zi) = .ok (y, some zf) := by
  refine ⟨_, _, Lti.stateSpace_eq hA hB hC hD hz hM hc.lt hu, ?_⟩
  refine stream_chunks zi (fun s => t2 B M fun b m => vecRec M (fun _ => Av b) (z b) (v b) s m)
    (fun b t p => r b (vecRec M (fun _ => Av b) (z b) (v b) t) p + d b t p) _ hc ?_
  rintro s n c hn ⟨h1, h2, h3⟩ z' hz'
  have key : InitState B M (some z') fun b => vecRec M (fun _ => Av b) (z b) (v b) s := by
    rcases hz' with rfl | ⟨rfl, rfl⟩
    · exact .full _
    · exact hz
  rw [Lti.stateSpace_eq hA h1 hC h2 key hM hn h3]
  simp only [vecRec_add, Option.isSome_some, if_true]

/-- The chunks made by slicing: cutting `x[:, :n]` and `x[:, n:n+n']` from the signal. -/
theorem C10_lti_split_partial {B n n' M : Nat} {A x zi x₁ x₂ : Tensor α} {Bm C D : Option (Tensor α)} {k : Option Nat}
    {Av v d : Nat → Nat → Nat → α} {r : Nat → (Nat → α) → Nat → α} {z : Nat → Nat → α} {u u₁ u₂ : Option Int}
    (hA : MatVals B M M A Av) (hB : LtiInput B (n + n') M Bm x v) (hC : LtiReadout B M C k r)
    (hD : LtiFeed B (n + n') D x k d) (hz : InitState B M (some zi) z) (hM : 0 < M) (hn : 0 < n) (hn' : 0 < n')
    (hu : ∀ i, u = some i → 1 ≤ i) (hu₁ : ∀ i, u₁ = some i → 1 ≤ i) (hu₂ : ∀ i, u₂ = some i → 1 ≤ i)
    (h₁ : slice x 1 (some ((0 : Nat) : Int)) (some ((0 + n : Nat) : Int)) = .ok x₁)
    (h₂ : slice x 1 (some (n : Int)) (some ((n + n' : Nat) : Int)) = .ok x₂) :
    ∃ y zf y₁ zf₁ y₂, Lti.stateSpace A x Bm C D (some zi) u none = .ok (y, some zf) ∧
      Lti.stateSpace A x₁ Bm C D (some zi) u₁ none = .ok (y₁, some zf₁) ∧
      Lti.stateSpace A x₂ Bm C D (some zf₁) u₂ none = .ok (y₂, some zf) ∧ cat2 y₁ y₂ 1 = .ok y := by
  obtain ⟨_, e₁, i₁⟩ := Lti.LtiInput_slice hB 0 n (by omega)
  obtain ⟨_, e₂, i₂⟩ := Lti.LtiInput_slice hB n n' (by omega)
  cases h₁.symm.trans e₁
  cases h₂.symm.trans e₂
  refine ⟨_, _, _, _, signal k B n' fun b t p => r b (vecRec M (fun _ => Av b) (z b) (v b) (n + t)) p + d b (n + t) p,
    Lti.stateSpace_eq hA hB hC hD hz hM (by omega) hu,
    Lti.stateSpace_eq hA i₁ hC (Lti.LtiFeed_slice hD 0 n (by omega) h₁) hz hM hn hu₁, ?_, ?_⟩
  · refine (Lti.stateSpace_eq hA i₂ hC (Lti.LtiFeed_slice hD n n' (by omega) h₂) (.full _) hM hn' hu₂).trans ?_
    simp only [vecRec_add, Option.isSome_some, if_true, Nat.zero_add]
  · refine (cat2_signal _ _ _ _ _ _).trans (congrArg Except.ok (signal_congr rfl fun b t p _ _ => ?_))
    by_cases ht : t < n
    · simp [ht]
    · simp only [ht, if_false]; rw [show n + (t - n) = t by omega]

example := C10_lti_split_partial (B := 3) (n := 2) (n' := 3) (M := 2) (u := none) (u₁ := some 2) (u₂ := some 1)
  (MatVals.shared fun i k => (i : ℤ) - k) (LtiInput.none (Drive.scalar fun b t => (b : ℤ) * t)) LtiReadout.none (LtiFeed.none _ _)
  (InitState.shared fun k => (k : ℤ)) (by decide) (by decide) (by decide) (by simp) (by simp) (by simp) rfl rfl

/-- The arguments of one call of `lpv.state_space` on a chunk; all time-varying arguments are cut as well. -/
structure LpvChunk (α : Type) [Zero α] where
  A : Tensor α
  x : Tensor α
  B : Option (Tensor α)
  C : Option (Tensor α)
  D : Option (Tensor α)
  u : Option Int

/-- **C10, time-varying.** -/
theorem C10_lpv_stream_partial {B N M : Nat} {A x zi : Tensor α} {Bm C D : Option (Tensor α)} {k : Option Nat}
    {Av : Nat → Nat → Nat → Nat → α} {v d : Nat → Nat → Nat → α} {r : Nat → Nat → (Nat → α) → Nat → α}
    {z : Nat → Nat → α} {u : Option Int} {chunks : List (LpvChunk α)}
    (hA : MatSeq B N M M A Av) (hB : LpvInput B N M Bm x v) (hC : LpvReadout B N M C k r) (hD : LpvFeed B N D x k d)
    (hz : InitState B M (some zi) z) (hB0 : 0 < B) (hM : 0 < M) (hu : FilterUnroll M N u)
    (hc : Chunks (fun s n c => MatSeq B n M M c.A (fun b t => Av b (s + t)) ∧
      LpvInput B n M c.B c.x (fun b t => v b (s + t)) ∧ LpvReadout B n M c.C k (fun b t => r b (s + t)) ∧
      LpvFeed B n c.D c.x k (fun b t => d b (s + t)) ∧ FilterUnroll M n c.u) 0 chunks N) :
    ∃ y zf, Lpv.stateSpace A x Bm C D (some zi) u none = .ok (y, some zf) ∧
      stream 1 (chunks.map fun c zi => Lpv.stateSpace c.A c.x c.B c.C c.D zi c.u none) (some zi) = .ok (y, some zf) := by
  refine ⟨_, _, Lpv.stateSpace_filter hA hB hC hD hz hB0 hM hc.lt hu, ?_⟩
  refine stream_chunks zi (fun s => t2 B M fun b m => vecRec M (Av b) (z b) (v b) s m)
    (fun b t p => r b t (vecRec M (Av b) (z b) (v b) t) p + d b t p) _ hc ?_
  rintro s n c hn ⟨h0, h1, h2, h3, h4⟩ z' hz'
  have key : InitState B M (some z') fun b => vecRec M (Av b) (z b) (v b) s := by
    rcases hz' with rfl | ⟨rfl, rfl⟩
    · exact .full _
    · exact hz
  rw [Lpv.stateSpace_filter h0 h1 h2 h3 key hB0 hM hn h4]
  simp only [vecRec_add, Option.isSome_some, if_true]

/-- Non-vacuity: a length-5 signal in chunks of 1, 3 and 1 samples with different unroll factors. -/
example : ∃ y zf, Lti.stateSpace (t2 2 2 fun i j => (i : ℤ) + 2 * j) (t2 3 5 fun b t => (b : ℤ) - t)
      (some (t1 2 fun i => (i : ℤ) + 1)) none none (some (t1 2 fun i => (i : ℤ))) none none = .ok (y, some zf) ∧
    stream 1 ([(t2 3 1 fun b t => (b : ℤ) - ((0 + t : Nat) : ℤ), none), (t2 3 3 fun b t => (b : ℤ) - ((0 + 1 + t : Nat) : ℤ), some 2),
        (t2 3 1 fun b t => (b : ℤ) - ((0 + 1 + 3 + t : Nat) : ℤ), some 7)].map fun c zi =>
      Lti.stateSpace (t2 2 2 fun i j => (i : ℤ) + 2 * j) c.1 (some (t1 2 fun i => (i : ℤ) + 1)) none none zi c.2 none)
      (some (t1 2 fun i => (i : ℤ))) = .ok (y, some zf) :=
  C10_lti_stream_partial (MatVals.shared _) (LtiInput.vec _ _) LtiReadout.none (LtiFeed.none _ _) (InitState.shared _)
    (by decide) (by simp)
    (.cons (n := 1) (by decide) ⟨.vec (fun i => (i : ℤ) + 1) (fun b t => (b : ℤ) - ((0 + t : Nat) : ℤ)), .none _ _, by simp⟩
      (.cons (n := 3) (by decide) ⟨.vec (fun i => (i : ℤ) + 1) (fun b t => (b : ℤ) - ((0 + 1 + t : Nat) : ℤ)), .none _ _, by simp⟩
        (.last (n := 1) (by decide) ⟨.vec (fun i => (i : ℤ) + 1) (fun b t => (b : ℤ) - ((0 + 1 + 3 + t : Nat) : ℤ)), .none _ _, by simp⟩)))

/-- Non-vacuity, time-varying: five samples in chunks of 2 and 3. -/
example : ∃ y zf, Lpv.stateSpace (t3 5 2 2 fun t i j => (i : ℤ) + t * j) (t2 3 5 fun b t => (b : ℤ) - t) none none none
      (some (t1 2 fun i => (i : ℤ))) none none = .ok (y, some zf) ∧
    stream 1 ([(⟨t3 2 2 2 fun t i j => (i : ℤ) + (0 + t : Nat) * j, t2 3 2 fun b t => (b : ℤ) - (0 + t : Nat), none, none, none, none⟩ : LpvChunk ℤ),
        ⟨t3 3 2 2 fun t i j => (i : ℤ) + (0 + 2 + t : Nat) * j, t2 3 3 fun b t => (b : ℤ) - (0 + 2 + t : Nat), none, none, none, some 2⟩].map
        fun c zi => Lpv.stateSpace c.A c.x c.B c.C c.D zi c.u none) (some (t1 2 fun i => (i : ℤ))) = .ok (y, some zf) :=
  C10_lpv_stream_partial (.shared _) (.none (.scalar _)) .none (.none _ _) (.shared _) (by decide) (by decide)
    (Or.inl (by unfold GoodUnroll; decide +kernel))
    (.cons (n := 2) (by decide) ⟨.shared (fun t i j => (i : ℤ) + (0 + t : Nat) * j), .none (.scalar fun b t => (b : ℤ) - (0 + t : Nat)), .none, .none _ _, Or.inl (by unfold GoodUnroll; decide +kernel)⟩
      (.last (n := 3) (by decide) ⟨.shared (fun t i j => (i : ℤ) + (0 + 2 + t : Nat) * j), .none (.scalar fun b t => (b : ℤ) - (0 + 2 + t : Nat)), .none, .none _ _, Or.inl (by unfold GoodUnroll; decide +kernel)⟩))

end Props
