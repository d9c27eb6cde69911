import Verif.Spec.Stream
import Verif.Proof.StateSpace

/-! # Streaming lemmas -/

namespace Spec
open Torch Torch.Tensor
variable {α : Type} [CommRing α]

theorem Chunks.lt {T : Type} {P : Nat → Nat → T → Prop} {s e : Nat} {cs : List T} (h : Chunks P s cs e) : s < e := by
  induction h with
  | last hn h => omega
  | cons hn h hr ih => omega

theorem Chunks.imp {T : Type} {P Q : Nat → Nat → T → Prop} (hPQ : ∀ s n c, 0 < n → P s n c → Q s n c) {s e : Nat}
    {cs : List T} (h : Chunks P s cs e) : Chunks Q s cs e := by
  induction h with
  | last hn h => exact .last hn (hPQ _ _ _ hn h)
  | cons hn h hr ih => exact .cons hn (hPQ _ _ _ hn h) ih

theorem Chunks.map {T T' : Type} {P : Nat → Nat → T → Prop} {Q : Nat → Nat → T' → Prop} (f : T → T')
    (hPQ : ∀ s n c, 0 < n → P s n c → Q s n (f c)) {s e : Nat}
    {cs : List T} (h : Chunks P s cs e) : Chunks Q s (cs.map f) e := by
  induction h with
  | last hn h => exact .last hn (hPQ _ _ _ hn h)
  | cons hn h hr ih => exact .cons hn (hPQ _ _ _ hn h) ih

theorem cat2_signal (k : Option Nat) (B n n' : Nat) (y y' : Nat → Nat → Nat → α) :
    cat2 (signal k B n y) (signal k B n' y') 1 =
      .ok (signal k B (n + n') fun b t p => if t < n then y b t p else y' b (t - n) p) := by
  cases k with
  | none => simp only [signal]; rw [cat2_t2_1]
  | some P => simp only [signal]; rw [cat2_t3_1]

theorem signal_congr {k : Option Nat} {B n n' : Nat} {y y' : Nat → Nat → Nat → α} (hn : n = n')
    (h : ∀ b t p, b < B → t < n → y b t p = y' b t p) : signal k B n y = signal k B n' y' := by
  subst hn
  cases k with
  | none => exact t2_congr rfl rfl fun b t hb ht => h b t 0 hb ht
  | some P => exact t3_congr rfl rfl rfl fun b t p hb ht _ => h b t p hb ht

/-- If each call, started from the state at its start time, returns its part of the output and the state at its end, then
the chain of calls returns the whole output and the last state.  `O s n` is the part of the output from `s` to `s + n`; the
first state may have another layout. -/
theorem stream_parts {d : Int} {O : Nat → Nat → Tensor α}
    (hO : ∀ s n n', cat2 (O s n) (O (s + n) n') d = .ok (O s (n + n'))) (Z : Nat → Tensor α) {s e : Nat}
    {calls : List (Option (Tensor α) → Res (Tensor α × Option (Tensor α)))} (z : Tensor α)
    (h : Chunks (fun s' n c => ∀ z', z' = Z s' ∨ s' = s ∧ z' = z → c (some z') = .ok (O s' n, some (Z (s' + n)))) s calls e) :
    stream d calls (some z) = .ok (O s (e - s), some (Z e)) := by
  have key : ∀ {s e calls}, Chunks (fun s n c => c (some (Z s)) = .ok (O s n, some (Z (s + n)))) s calls e →
      stream d calls (some (Z s)) = .ok (O s (e - s), some (Z e)) := by
    intro s e calls h
    induction h with
    | @last s n c hn h => rw [stream, h]; simp
    | @cons s n c c' cs e hn h hr ih =>
      have := hr.lt
      rw [stream, h]
      refine bind_step rfl ?_
      refine bind_step ih ?_
      refine bind_step (hO _ _ _) ?_
      rw [show n + (e - (s + n)) = e - s by omega]
      rfl
  cases h with
  | @last _ n c hn h => rw [stream, h z (Or.inr ⟨rfl, rfl⟩)]; simp
  | @cons _ n c c' cs _ hn h hr =>
    have := hr.lt
    rw [stream, h z (Or.inr ⟨rfl, rfl⟩)]
    refine bind_step rfl ?_
    refine bind_step (key (hr.imp fun s n c _ h => h _ (Or.inl rfl))) ?_
    refine bind_step (hO _ _ _) ?_
    rw [show n + (e - (s + n)) = e - s by omega]
    rfl

theorem signal_parts (k : Option Nat) (B : Nat) (Y : Nat → Nat → Nat → α) (s n n' : Nat) :
    cat2 (signal k B n fun b t p => Y b (s + t) p) (signal k B n' fun b t p => Y b (s + n + t) p) 1 =
      .ok (signal k B (n + n') fun b t p => Y b (s + t) p) := by
  rw [cat2_signal]
  refine congrArg Except.ok (signal_congr rfl fun b t p _ _ => ?_)
  by_cases ht : t < n
  · simp [ht]
  · simp only [ht, if_false]; congr 1; omega

/-- `stream` on chunks mapped through a call function, any kind of output. -/
theorem stream_parts_map {T : Type} {d : Int} {O : Nat → Nat → Tensor α} {P : Nat → Nat → T → Prop}
    (hO : ∀ s n n', cat2 (O s n) (O (s + n) n') d = .ok (O s (n + n'))) (z : Tensor α)
    (Z : Nat → Tensor α) {e : Nat} {cs : List T}
    (call : T → Option (Tensor α) → Res (Tensor α × Option (Tensor α))) (h : Chunks P 0 cs e)
    (hc : ∀ s n c, 0 < n → P s n c → ∀ z', z' = Z s ∨ s = 0 ∧ z' = z → call c (some z') = .ok (O s n, some (Z (s + n)))) :
    stream d (cs.map call) (some z) = .ok (O 0 e, some (Z e)) := by
  rw [stream_parts hO Z z (h.map call fun s n c hn hP => hc s n c hn hP)]
  simp

/-- `stream` on chunks mapped through a call function. -/
theorem stream_chunks {T : Type} {k : Option Nat} {B : Nat} {P : Nat → Nat → T → Prop} (z : Tensor α)
    (Z : Nat → Tensor α) (Y : Nat → Nat → Nat → α) {e : Nat} {cs : List T}
    (call : T → Option (Tensor α) → Res (Tensor α × Option (Tensor α))) (h : Chunks P 0 cs e)
    (hc : ∀ s n c, 0 < n → P s n c → ∀ z', z' = Z s ∨ s = 0 ∧ z' = z → call c (some z') =
      .ok (signal k B n fun b t p => Y b (s + t) p, some (Z (s + n)))) :
    stream 1 (cs.map call) (some z) = .ok (signal k B e Y, some (Z e)) := by
  rw [stream_parts_map (O := fun s n => signal k B n fun b t p => Y b (s + t) p) (signal_parts k B Y) z Z call h hc]
  simp

end Spec

namespace Phil.Lti
open Torch Torch.Tensor Spec
variable {α : Type} [CommRing α] [StarRing α]

theorem stateSpace_eq {B N M : Nat} {A x : Tensor α} {Bm C D zi : Option (Tensor α)} {k : Option Nat}
    {Av v d : Nat → Nat → Nat → α} {r : Nat → (Nat → α) → Nat → α} {z : Nat → Nat → α} {u : Option Int}
    (hA : MatVals B M M A Av) (hB : LtiInput B N M Bm x v) (hC : LtiReadout B M C k r) (hD : LtiFeed B N D x k d)
    (hz : InitState B M zi z) (hM : 0 < M) (hN : 0 < N) (hu : ∀ i, u = some i → 1 ≤ i) :
    Lti.stateSpace A x Bm C D zi u none =
        .ok (signal k B N fun b t p => r b (vecRec M (fun _ => Av b) (z b) (v b) t) p + d b t p,
          if zi.isSome then some (t2 B M fun b m => vecRec M (fun _ => Av b) (z b) (v b) N m) else none) := by
  refine Lti.stateSpaceWith_eq hA hB hC hD hz hN (fun b => vecRec M (fun _ => Av b) (z b) (v b)) (fun _ _ => rfl)
    fun Bx hBx => ?_
  refine Lti.stateSpaceRecursion_layout hA hBx z _ none trivial hM hN ?_
  cases u with
  | none => have := Lti.roundSqrt_pos hN; simp only [Option.getD_none]; omega
  | some i => exact hu i rfl

omit [StarRing α] in
/-- The state dimension of a readout given by a matrix does not matter outside `0..M`. -/
theorem readout_congr {B M : Nat} {C : Option (Tensor α)} {k : Option Nat} {r : Nat → (Nat → α) → Nat → α}
    (hC : LtiReadout B M C k r) {h h' : Nat → α} (hh : ∀ m, m < M → h m = h' m) (b p : Nat)
    (hp : ∀ P, k = some P → p < P) : r b h p = r b h' p := by
  cases hC with
  | none => exact hh p (hp _ rfl)
  | vec c => exact Finset.sum_congr rfl fun m hm => by rw [hh m (Finset.mem_range.1 hm)]
  | batchVec c => exact Finset.sum_congr rfl fun m hm => by rw [hh m (Finset.mem_range.1 hm)]
  | mat P c h => exact Finset.sum_congr rfl fun m hm => by rw [hh m (Finset.mem_range.1 hm)]
  | batchMat P c => exact Finset.sum_congr rfl fun m hm => by rw [hh m (Finset.mem_range.1 hm)]

omit [StarRing α] in
theorem LtiInput_slice {B N M : Nat} {Bm : Option (Tensor α)} {x : Tensor α} {v : Nat → Nat → Nat → α}
    (h : LtiInput B N M Bm x v) (s n : Nat) (hs : s + n ≤ N) :
    ∃ x', slice x 1 (some (s : Int)) (some ((s + n : Nat) : Int)) = .ok x' ∧
      LtiInput B n M Bm x' fun b t => v b (s + t) := by
  have e1 : pyStart N (some (s : Int)) = s := by simp only [pyStart, pyBound]; split <;> omega
  have e2 : pyStop N (some ((s + n : Nat) : Int)) = s + n := by simp only [pyStop, pyBound]; split <;> omega
  have e3 : s + n - s = n := by omega
  cases h with
  | none h =>
    cases h with
    | full x => exact ⟨_, by rw [slice_t3_1, e1, e2, e3], by simpa only [Nat.add_comm s] using LtiInput.none (.full _)⟩
    | scalar x => exact ⟨_, by rw [slice_t2_1, e1, e2, e3], by simpa only [Nat.add_comm s] using LtiInput.none (.scalar _)⟩
  | vec g x => exact ⟨_, by rw [slice_t2_1, e1, e2, e3], by simpa only [Nat.add_comm s] using LtiInput.vec _ _⟩
  | batchVec g x => exact ⟨_, by rw [slice_t2_1, e1, e2, e3], by simpa only [Nat.add_comm s] using LtiInput.batchVec _ _⟩
  | mat F g x h => exact ⟨_, by rw [slice_t3_1, e1, e2, e3], by simpa only [Nat.add_comm s] using LtiInput.mat _ _ _ h⟩
  | batchMat F g x => exact ⟨_, by rw [slice_t3_1, e1, e2, e3], by simpa only [Nat.add_comm s] using LtiInput.batchMat _ _ _⟩

omit [StarRing α] in
theorem LtiFeed_slice {B N : Nat} {D : Option (Tensor α)} {k : Option Nat} {x x' : Tensor α} {v : Nat → Nat → Nat → α}
    (h : LtiFeed B N D x k v) (s n : Nat) (hs : s + n ≤ N)
    (hx : slice x 1 (some (s : Int)) (some ((s + n : Nat) : Int)) = .ok x') :
      LtiFeed B n D x' k fun b t => v b (s + t) := by
  have e1 : pyStart N (some (s : Int)) = s := by simp only [pyStart, pyBound]; split <;> omega
  have e2 : pyStop N (some ((s + n : Nat) : Int)) = s + n := by simp only [pyStop, pyBound]; split <;> omega
  have e3 : s + n - s = n := by omega
  cases h with
  | none x k => exact LtiFeed.none _ _
  | scalar d x => rw [slice_t2_1, e1, e2, e3] at hx; cases hx; simpa only [Nat.add_comm s] using LtiFeed.scalar _ _
  | scalarFull d F x => rw [slice_t3_1, e1, e2, e3] at hx; cases hx; simpa only [Nat.add_comm s] using LtiFeed.scalarFull _ _ _
  | one d x => rw [slice_t2_1, e1, e2, e3] at hx; cases hx; simpa only [Nat.add_comm s] using LtiFeed.one _ _
  | oneFull d F x h h' => rw [slice_t3_1, e1, e2, e3] at hx; cases hx; simpa only [Nat.add_comm s] using LtiFeed.oneFull _ _ _ h h'
  | batch d x => rw [slice_t2_1, e1, e2, e3] at hx; cases hx; simpa only [Nat.add_comm s] using LtiFeed.batch _ _
  | column P d x h h' => rw [slice_t2_1, e1, e2, e3] at hx; cases hx; simpa only [Nat.add_comm s] using LtiFeed.column _ _ _ h h'
  | row F d x => rw [slice_t3_1, e1, e2, e3] at hx; cases hx; simpa only [Nat.add_comm s] using LtiFeed.row _ _ _
  | batchRow F d x => rw [slice_t3_1, e1, e2, e3] at hx; cases hx; simpa only [Nat.add_comm s] using LtiFeed.batchRow _ _ _
  | batchColumn P d x => rw [slice_t2_1, e1, e2, e3] at hx; cases hx; simpa only [Nat.add_comm s] using LtiFeed.batchColumn _ _ _
  | mat P F d x h => rw [slice_t3_1, e1, e2, e3] at hx; cases hx; simpa only [Nat.add_comm s] using LtiFeed.mat _ _ _ _ h
  | batchMat P F d x => rw [slice_t3_1, e1, e2, e3] at hx; cases hx; simpa only [Nat.add_comm s] using LtiFeed.batchMat _ _ _ _

end Phil.Lti

namespace Phil.Lpv
open Torch Torch.Tensor Spec
variable {α : Type} [CommRing α] [StarRing α]

theorem stateSpace_eq {B N M : Nat} {A x : Tensor α} {Bm C D zi : Option (Tensor α)} {k : Option Nat}
    {Av : Nat → Nat → Nat → Nat → α} {v d : Nat → Nat → Nat → α} {r : Nat → Nat → (Nat → α) → Nat → α}
    {z : Nat → Nat → α} {u : Option Int} (hA : MatSeq B N M M A Av) (hB : LpvInput B N M Bm x v)
    (hC : LpvReadout B N M C k r) (hD : LpvFeed B N D x k d)
    (hz : InitState B M zi z) (hB0 : 0 < B) (hM : 0 < M) (hN : 0 < N) (hu : 1 ≤ u.getD (roundSqrt N))
    (hP : u.getD (roundSqrt N) ≤ 2 ∨ (N : Int) ≤ u.getD (roundSqrt N) ∨ ((u.getD (roundSqrt N)).toNat - 1).Prime) :
      Lpv.stateSpace A x Bm C D zi u none =
        .ok (signal k B N fun b t p => r b t (vecRec M (Av b) (z b) (v b) t) p + d b t p,
          if zi.isSome then some (t2 B M fun b m => vecRec M (Av b) (z b) (v b) N m) else none) := by
  refine Lpv.stateSpaceWith_eq hA hB hC hD hz hN (fun b => vecRec M (Av b) (z b) (v b)) (fun _ _ => rfl) fun Bx hBx => ?_
  exact Lpv.stateSpaceRecursion_layout hA hBx z _ none trivial hB0 hM hN hu hP

end Phil.Lpv
