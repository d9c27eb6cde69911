import Verif.Proof.TvStream
import Verif.Proof.LtiComb

/-!
# C18: streaming the filters

Full claim: calling a filter chunk by chunk and handing over the state gives the result of one call, for `lti.lfilter`
(`df2`, `tdf2`), `lti.fir`, `lti.comb_filter`, `lpv.fir` and `lpv.allpole`.
-/

namespace Props
open Torch Torch.Tensor Spec Phil Phil.Lti
variable {α : Type} [CommRing α] [StarRing α]

/-- **C18, `lfilter` in direct form II.**  A chunk is a signal with an unroll factor; chunk and whole signal are of the same
rank. -/
theorem C18_lfilter_df2 {B N K P : Nat} {b a X zi : Tensor α} {bv av x z : Nat → Nat → α} {u : Option Int}
    {chunks : List (Tensor α × Option Int)}
    (hb : Rows B K b bv) (ha : Rows B P a av) (hx : Sig N B X x) (hz : InitState B (max P (K - 1)) (some zi) z)
    (hK : 0 < K) (hM : 0 < max P (K - 1)) (hu : ∀ i, u = some i → 1 ≤ i)
    (hc : Chunks (fun s n c => Sig n B c.1 (fun i t => x i (s + t)) ∧ c.1.rank = X.rank ∧ ∀ i, c.2 = some i → 1 ≤ i)
      0 chunks N) :
    ∃ y zf, lfilter b a X (some zi) .df2 u = .ok (y, some zf) ∧
      stream (-1) (chunks.map fun c zi => lfilter b a c.1 zi .df2 c.2) (some zi) = .ok (y, some zf) := by
  refine ⟨_, _, lfilter_df2 hb ha hx hz hK hM hc.lt hu, ?_⟩
  refine (stream_parts_map (packed_parts (allFlat X b a (some zi)) B fun i t =>
    taps K (bv i) (dfSignal (max P (K - 1)) (zext P (av i)) (z i) (x i)) t) zi
    (fun s => packed (allFlat X b a (some zi)) B (max P (K - 1)) fun i m =>
          dfSignal (max P (K - 1)) (zext P (av i)) (z i) (x i) ((s : Int) - 1 - m)) _ hc ?_).trans ?_
  · rintro s n c hn ⟨h1, h2, h3⟩ z' hz'
    have hf := flat_one (b := b) (a := a) (zi := zi) hx
    rcases hz' with rfl | ⟨rfl, rfl⟩
    · obtain ⟨w, hw, ew⟩ := packed_init (M := max P (K - 1)) hf fun i m =>
          dfSignal (max P (K - 1)) (zext P (av i)) (z i) (x i) ((s : Int) - 1 - m)
      rw [lfilter_df2 hb ha h1 hw hK hM hn h3, allFlat_next h2]
      refine ok_pair (packed_congr hf fun i t hi ht => ?_) (congrArg some (packed_congr hf fun i m hi hm => ?_))
      · rw [ew i hi, df_out_shift hM (by omega)]
      · rw [ew i hi, df_state_shift _ _ _ _ _ hm]
    · have h0 : allFlat c.1 b a (some z') = allFlat X b a (some z') := by unfold allFlat; rw [h2]
      rw [lfilter_df2 hb ha h1 hz hK hM hn h3, h0]
      simp only [Nat.zero_add]
  · simp only [Nat.zero_add]

example := C18_lfilter_df2 (B := 1) (N := 5) (K := 4) (P := 2) (x := fun _ t => (t : ℤ)) (u := none) (.shared fun j => (j : ℤ) + 1)
  (.shared fun k => (k : ℤ)) (.flat fun t => (t : ℤ)) (.shared fun m => (m : ℤ)) (by decide) (by decide) (by simp)
  (.cons (n := 2) (c := (_, none)) (by decide) ⟨.flat fun t => ((0 + t : Nat) : ℤ), rfl, by simp⟩
    (.last (n := 3) (c := (_, some 2)) (by decide) ⟨.flat fun t => ((0 + 2 + t : Nat) : ℤ), rfl, by simp⟩))

/-- **C18, `lfilter` in transposed direct form II.** -/
theorem C18_lfilter_tdf2 {B N K P : Nat} {b a X zi : Tensor α} {bv av x z : Nat → Nat → α} {u : Option Int}
    {chunks : List (Tensor α × Option Int)}
    (hb : Rows B K b bv) (ha : Rows B P a av) (hx : Sig N B X x) (hz : InitState B (max P (K - 1)) (some zi) z)
    (hK : 0 < K) (hM : 0 < max P (K - 1)) (hu : ∀ i, u = some i → 1 ≤ i)
    (hc : Chunks (fun s n c => Sig n B c.1 (fun i t => x i (s + t)) ∧ c.1.rank = X.rank ∧ ∀ i, c.2 = some i → 1 ≤ i)
      0 chunks N) :
    ∃ y zf, lfilter b a X (some zi) .tdf2 u = .ok (y, some zf) ∧
      stream (-1) (chunks.map fun c zi => lfilter b a c.1 zi .tdf2 c.2) (some zi) = .ok (y, some zf) := by
  refine ⟨_, _, lfilter_tdf2 hb ha hx hz hK hM hc.lt hu, ?_⟩
  refine (stream_parts_map (packed_parts (allFlat X b a (some zi)) B fun i t =>
    tdf2Out (max P (K - 1)) (fun k => star (zext K (bv i) k)) (fun k => star (zext P (av i) k)) (z i) (x i) t) zi
    (fun s => packed (allFlat X b a (some zi)) B (max P (K - 1)) fun i m =>
      tdf2State (max P (K - 1)) (fun k => star (zext K (bv i) k)) (fun k => star (zext P (av i) k)) (z i) (x i) s m)
    _ hc ?_).trans ?_
  · rintro s n c hn ⟨h1, h2, h3⟩ z' hz'
    have hf := flat_one (b := b) (a := a) (zi := zi) hx
    rcases hz' with rfl | ⟨rfl, rfl⟩
    · obtain ⟨w, hw, ew⟩ := packed_init (M := max P (K - 1)) hf fun i m =>
          tdf2State (max P (K - 1)) (fun k => star (zext K (bv i) k)) (fun k => star (zext P (av i) k)) (z i) (x i) s m
      rw [lfilter_tdf2 hb ha h1 hw hK hM hn h3, allFlat_next h2]
      refine ok_pair (packed_congr hf fun i t hi ht => ?_) (congrArg some (packed_congr hf fun i m hi hm => ?_))
      · rw [ew i hi]; exact tdf2Out_shift _ _ _ _ _ _
      · rw [ew i hi]; exact congrFun (tdf2State_shift _ _ _ _ _ _) m
    · have h0 : allFlat c.1 b a (some z') = allFlat X b a (some z') := by unfold allFlat; rw [h2]
      rw [lfilter_tdf2 hb ha h1 hz hK hM hn h3, h0]
      simp only [Nat.zero_add]
  · simp only [Nat.zero_add]

/-- **C18 (partial), `lti.fir`, direct form.**  Any chunk lengths; missing: one tap (see C17). -/
theorem C18_fir_direct_partial {B M N : Nat} (b x z : Nat → Nat → α) {chunks : List (Tensor α)} (hB : 0 < B) (hM : 0 < M)
    (hc : Chunks (fun s n c => c = t2 B n fun i t => x i (s + t)) 0 chunks N) :
    ∃ y zf, fir (t2 B (M + 1) b) (t2 B N x) (some (t2 B M z)) false = .ok (y, some zf) ∧
      stream (-1) (chunks.map fun c zi => fir (t2 B (M + 1) b) c zi false) (some (t2 B M z)) = .ok (y, some zf) := by
  refine ⟨_, _, fir_direct_some b x z hB hM hc.lt, ?_⟩
  refine (stream_parts_map (packed_parts false B fun i t => taps (M + 1) (b i) (withPast (z i) (x i)) t) (t2 B M z)
    (fun s => t2 B M fun i m => withPast (z i) (x i) ((s : Int) - 1 - m)) _ hc ?_).trans ?_
  · rintro s n c hn rfl z' hz'
    have hz2 : z' = t2 B M fun i m => withPast (z i) (x i) ((s : Int) - 1 - m) := by
      rcases hz' with rfl | ⟨rfl, rfl⟩
      · rfl
      · refine t2_congr rfl rfl fun i m _ _ => ?_
        rw [withPast, if_pos (by push_cast; omega)]; congr 1; push_cast; omega
    rw [hz2, fir_direct_some b _ _ hB hM hn, packed_false]
    refine ok_pair (t2_congr rfl rfl fun i t hi ht => ?_) (congrArg some (t2_congr rfl rfl fun i m hi hm => ?_))
    · unfold taps
      refine Finset.sum_congr rfl fun j _ => ?_
      rw [withPast_shift]; congr 2; push_cast; ring
    · rw [withPast_shift]; congr 1; push_cast; ring
  · simp only [Nat.zero_add]; rfl

/-- **C18 (partial), `lti.fir`, transposed form.**  Missing: one tap and chunks shorter than the delay line (see C17). -/
theorem C18_fir_transposed_partial {B M N : Nat} (b x z : Nat → Nat → α) {chunks : List (Tensor α)} (hB : 0 < B)
    (hM : 0 < M) (hMN : M ≤ N) (hc : Chunks (fun s n c => M ≤ n ∧ c = t2 B n fun i t => x i (s + t)) 0 chunks N) :
    ∃ y zf, fir (t2 B (M + 1) b) (t2 B N x) (some (t2 B M z)) true = .ok (y, some zf) ∧
      stream (-1) (chunks.map fun c zi => fir (t2 B (M + 1) b) c zi true) (some (t2 B M z)) = .ok (y, some zf) := by
  have key : ∀ (x z : Nat → Nat → α) n, M ≤ n → fir (t2 B (M + 1) b) (t2 B n x) (some (t2 B M z)) true =
      .ok (t2 B n fun i t => star (b i 0) * x i t + delayLine M (fun k => star (b i k)) (z i) (x i) t 0,
        some (t2 B M fun i m => delayLine M (fun k => star (b i k)) (z i) (x i) n m)) := by
    intro x z n hn
    rw [fir_transpose_some b x z hB hM hn]
    refine ok_pair (t2_congr rfl rfl fun i n hi hn => ?_) (congrArg some (t2_congr rfl rfl fun i m hi hm => ?_))
    · exact (delayLine_out hM (fun k => star (b i k)) (z i) (x i) n).symm
    · exact (delayLine_final _ (z i) (x i) hn hm).symm
  refine ⟨_, _, key x z N hMN, ?_⟩
  refine (stream_parts_map (packed_parts false B fun i t =>
    star (b i 0) * x i t + delayLine M (fun k => star (b i k)) (z i) (x i) t 0) (t2 B M z)
    (fun s => t2 B M fun i m => delayLine M (fun k => star (b i k)) (z i) (x i) s m) _ hc ?_).trans ?_
  · rintro s n c hn ⟨hMn, rfl⟩ z' hz'
    have hz2 : z' = t2 B M fun i m => delayLine M (fun k => star (b i k)) (z i) (x i) s m := by
      rcases hz' with rfl | ⟨rfl, rfl⟩
      · rfl
      · rfl
    rw [hz2, key _ _ n hMn, packed_false]
    refine ok_pair (t2_congr rfl rfl fun i t hi ht => ?_) (congrArg some (t2_congr rfl rfl fun i m hi hm => ?_))
    · exact congrArg (star (b i 0) * x i (s + t) + ·) (congrFun (delayLine_shift _ _ _ _ _) 0)
    · exact congrFun (delayLine_shift _ _ _ _ _) m
  · simp only [Nat.zero_add]; rfl

example := C18_fir_transposed_partial (B := 2) (M := 2) (N := 5) (fun i j => (i : ℤ) + j) (fun i t => (i : ℤ) + t) (fun i m => (i : ℤ) - m)
  (by decide) (by decide) (by decide) (.cons (n := 2) (by decide) ⟨by decide, rfl⟩ (.last (n := 3) (by decide) ⟨by decide, rfl⟩))

/-- **C18 (partial), `lti.comb_filter`.**  Missing: delay one, chunks shorter than the delay, no extension (see C19). -/
theorem C18_comb_partial {B N D : Nat} {a zi : Tensor α} {av : Nat → α} {x z : Nat → Nat → α} {u : Int}
    {chunks : List (Tensor α × Int)} (ha : PerItem B a av) (hz : Past B D (some zi) z) (hD : 2 ≤ D) (hN : D ≤ N) (hu : 1 ≤ u)
    (hc : Chunks (fun s n c => D ≤ n ∧ c.1 = (t2 B n fun i t => x i (s + t)) ∧ 1 ≤ c.2) 0 chunks N) :
    ∃ y zf, combFilter true a D (t2 B N x) (some zi) u = .ok (y, some zf) ∧
      stream (-1) (chunks.map fun c zi => combFilter true a D c.1 zi c.2) (some zi) = .ok (y, some zf) := by
  refine ⟨_, _, combFilter_eq x ha hz hD (by omega) hu, ?_⟩
  refine (stream_parts_map (packed_parts false B fun i t => combSig D (av i) (z i) (x i) t) zi
    (fun s => t2 B D fun i m => combSig D (av i) (z i) (x i) ((s : Int) - 1 - m)) _ hc ?_).trans ?_
  · rintro s n ⟨c, v⟩ hn ⟨hDn, h1, hv⟩ z' hz'
    dsimp only at h1 hv ⊢
    subst h1
    rcases hz' with rfl | ⟨rfl, rfl⟩
    · rw [combFilter_eq _ ha (.batched _) hD hn hv, min_eq_left hDn, packed_false]
      refine ok_pair (t2_congr rfl rfl fun i t hi ht => ?_) (congrArg some (t2_congr rfl rfl fun i m hi hm => ?_))
      · rw [combSig_shift (by omega)]; push_cast; rfl
      · have := combSig_shift (D := D) (by omega) (av i) (z i) (x i) s (n - 1 - m)
        rw [show ((n - 1 - m : Nat) : Int) = (n : Int) - 1 - m by omega] at this
        rw [this]; congr 1; push_cast; ring
    · rw [combFilter_eq _ ha hz hD hn hv, min_eq_left hDn, packed_false]
      refine ok_pair (t2_congr rfl rfl fun i t hi ht => ?_) (congrArg some (t2_congr rfl rfl fun i m hi hm => ?_))
      · simp only [Nat.zero_add]
      · simp only [Nat.zero_add]
  · rw [min_eq_left hN]; simp only [Nat.zero_add]; rfl

/-! ## Time-varying filters -/

/-- The arguments of one call of a time-varying filter on a chunk: the coefficients are cut like the signal. -/
structure TvChunk (α : Type) [Zero α] where
  b : Tensor α
  a : Tensor α
  x : Tensor α
  u : Option Int

/-- **C18, `lpv.fir`, direct form.**  Any number of taps and any chunk lengths. -/
theorem C18_lpv_fir_direct {B M N : Nat} (b : Nat → Nat → Nat → α) (x z : Nat → Nat → α)
    {chunks : List (Tensor α × Tensor α)}
    (hc : Chunks (fun s n c => c.1 = (t3 B n (M + 1) fun i t => b i (s + t)) ∧ c.2 = t2 B n fun i t => x i (s + t))
      0 chunks N) :
    ∃ y zf, Lpv.fir (t3 B N (M + 1) b) (t2 B N x) (some (t2 B M z)) false = .ok (y, some zf) ∧
      stream (-1) (chunks.map fun c zi => Lpv.fir c.1 c.2 zi false) (some (t2 B M z)) = .ok (y, some zf) := by
  refine ⟨_, _, Lpv.fir_direct_some b x z hc.lt, ?_⟩
  refine (stream_parts_map (packed_parts false B fun i t => taps (M + 1) (b i t) (withPast (z i) (x i)) t) (t2 B M z)
    (fun s => t2 B M fun i m => withPast (z i) (x i) ((s : Int) - 1 - m)) _ hc ?_).trans ?_
  · rintro s n ⟨c, c'⟩ hn ⟨h1, h2⟩ z' hz'
    dsimp only at h1 h2 ⊢
    subst h1 h2
    have hz2 : z' = t2 B M fun i m => withPast (z i) (x i) ((s : Int) - 1 - m) := by
      rcases hz' with rfl | ⟨rfl, rfl⟩
      · rfl
      · refine t2_congr rfl rfl fun i m _ _ => ?_
        rw [withPast, if_pos (by push_cast; omega)]; congr 1; push_cast; omega
    rw [hz2, Lpv.fir_direct_some _ _ _ hn, packed_false]
    refine ok_pair (t2_congr rfl rfl fun i t hi ht => ?_) (congrArg some (t2_congr rfl rfl fun i m hi hm => ?_))
    · unfold taps
      refine Finset.sum_congr rfl fun j _ => ?_
      rw [withPast_shift]; congr 2; push_cast; ring
    · rw [withPast_shift]; congr 1; push_cast; ring
  · simp only [Nat.zero_add]; rfl

/-- Three taps in chunks of one and four samples. -/
example := C18_lpv_fir_direct (B := 2) (M := 2) (N := 5) (fun i t j => (i : ℤ) + j * t) (fun i t => (i : ℤ) + t) (fun i m => (i : ℤ) - m)
  (.cons (n := 1) (c := (_, _)) (by decide) ⟨rfl, rfl⟩ (.last (n := 4) (c := (_, _)) (by decide) ⟨rfl, rfl⟩))

/-- **C18 (partial), `lpv.fir`, transposed form.**  Missing: chunks shorter than the delay line (see C27). -/
theorem C18_lpv_fir_transposed_partial {B M N : Nat} (b : Nat → Nat → Nat → α) (x z : Nat → Nat → α)
    {chunks : List (Tensor α × Tensor α)} (hMN : M ≤ N)
    (hc : Chunks (fun s n c => M ≤ n ∧ c.1 = (t3 B n (M + 1) fun i t => b i (s + t)) ∧
      c.2 = t2 B n fun i t => x i (s + t)) 0 chunks N) :
    ∃ y zf, Lpv.fir (t3 B N (M + 1) b) (t2 B N x) (some (t2 B M z)) true = .ok (y, some zf) ∧
      stream (-1) (chunks.map fun c zi => Lpv.fir c.1 c.2 zi true) (some (t2 B M z)) = .ok (y, some zf) := by
  have key : ∀ (b : Nat → Nat → Nat → α) (x z : Nat → Nat → α) n, 0 < n → M ≤ n →
      Lpv.fir (t3 B n (M + 1) b) (t2 B n x) (some (t2 B M z)) true =
      .ok (t2 B n fun i t => star (b i t 0) * x i t +
          if 0 < M then tvDelay M (fun n j => star (b i n j)) (z i) (x i) t 0 else 0,
        some (t2 B M fun i m => tvDelay M (fun n j => star (b i n j)) (z i) (x i) n m)) := by
    intro b x z n hn hM
    rw [Lpv.fir_transposed_some b x z hn hM]
    refine ok_pair (t2_congr rfl rfl fun i n hi hn => ?_) (congrArg some (t2_congr rfl rfl fun i m hi hm => ?_))
    · exact (tvDelay_out (fun n j => star (b i n j)) (z i) (x i) hn).symm
    · exact (tvDelay_final (fun n j => star (b i n j)) (z i) (x i) hM hm).symm
  refine ⟨_, _, key b x z N hc.lt hMN, ?_⟩
  refine (stream_parts_map (packed_parts false B fun i t => star (b i t 0) * x i t +
      if 0 < M then tvDelay M (fun n j => star (b i n j)) (z i) (x i) t 0 else 0) (t2 B M z)
    (fun s => t2 B M fun i m => tvDelay M (fun n j => star (b i n j)) (z i) (x i) s m) _ hc ?_).trans ?_
  · rintro s n ⟨c, c'⟩ hn ⟨h0, h1, h2⟩ z' hz'
    dsimp only at h1 h2 ⊢
    subst h1 h2
    have hz2 : z' = t2 B M fun i m => tvDelay M (fun n j => star (b i n j)) (z i) (x i) s m := by
      rcases hz' with rfl | ⟨rfl, rfl⟩
      · rfl
      · rfl
    rw [hz2, key _ _ _ n hn h0, packed_false]
    have h := fun i t => tvDelay_shift (M := M) (fun n j => star (b i n j)) (z i) (x i) s t
    refine ok_pair (t2_congr rfl rfl fun i t hi ht => ?_) (congrArg some (t2_congr rfl rfl fun i m hi hm => ?_))
    · rw [← h]
    · rw [← h]
  · simp only [Nat.zero_add]; rfl

example := C18_lpv_fir_transposed_partial (B := 2) (M := 2) (N := 5) (fun i t j => (i : ℤ) + j * t) (fun i t => (i : ℤ) + t)
  (fun i m => (i : ℤ) - m) (by decide)
  (.cons (n := 2) (c := (_, _)) (by decide) ⟨by decide, rfl, rfl⟩ (.last (n := 3) (c := (_, _)) (by decide) ⟨by decide, rfl, rfl⟩))

/-- **C18 (partial), `lpv.allpole`, direct form.**  Missing: chunks shorter than the order (see C28). -/
theorem C18_lpv_allpole_direct_partial {B M N : Nat} {lpc : Lpv.Lpc α} (hl : IsLpc lpc) (a : Nat → Nat → Nat → α)
    (x z : Nat → Nat → α) {chunks : List (Tensor α × Tensor α)} (hM : 0 < M) (hMN : M ≤ N)
    (hc : Chunks (fun s n c => M ≤ n ∧ c.1 = (t3 B n M fun i t => a i (s + t)) ∧
      c.2 = t2 B n fun i t => x i (s + t)) 0 chunks N) :
    ∃ y zf, Lpv.allpole lpc (t3 B N M a) (t2 B N x) (some (t2 B M z)) false = .ok (y, some zf) ∧
      stream (-1) (chunks.map fun c zi => Lpv.allpole lpc c.1 c.2 zi false) (some (t2 B M z)) = .ok (y, some zf) := by
  refine ⟨_, _, Lpv.allpole_direct_state hl a x z hM hMN, ?_⟩
  refine (stream_parts_map (packed_parts false B fun i t => tvSignal M (a i) (z i) (x i) t) (t2 B M z)
    (fun s => t2 B M fun i m => tvSignal M (a i) (z i) (x i) ((s : Int) - 1 - m)) _ hc ?_).trans ?_
  · rintro s n ⟨c, c'⟩ hn ⟨h0, h1, h2⟩ z' hz'
    dsimp only at h1 h2 ⊢
    subst h1 h2
    have hz2 : z' = t2 B M fun i m => tvSignal M (a i) (z i) (x i) ((s : Int) - 1 - m) := by
      rcases hz' with rfl | ⟨rfl, rfl⟩
      · rfl
      · refine t2_congr rfl rfl fun i m _ _ => ?_
        rw [tvSignal, withPast, if_pos (by push_cast; omega)]; congr 1; push_cast; omega
    rw [hz2, Lpv.allpole_direct_state hl _ _ _ hM h0, packed_false]
    refine ok_pair (t2_congr rfl rfl fun i t hi ht => ?_) (congrArg some (t2_congr rfl rfl fun i m hi hm => ?_))
    · rw [tvSignal_shift hM]; push_cast; rfl
    · rw [tvSignal_shift hM]; congr 1; push_cast; ring
  · simp only [Nat.zero_add]; rfl

example := C18_lpv_allpole_direct_partial (B := 2) (M := 2) (N := 5) Lpv.refLpc_isLpc (fun i t j => (i : ℤ) + j * t) (fun i t => (i : ℤ) + t)
  (fun i m => (i : ℤ) - m) (by decide) (by decide)
  (.cons (n := 2) (c := (_, _)) (by decide) ⟨by decide, rfl, rfl⟩ (.last (n := 3) (c := (_, _)) (by decide) ⟨by decide, rfl, rfl⟩))

/-- **C18 (partial), `lpv.allpole`, transposed form.**  Missing: chunks shorter than the order (see C28). -/
theorem C18_lpv_allpole_transposed_partial {B M N : Nat} {lpc : Lpv.Lpc α} (hl : IsLpc lpc) (a : Nat → Nat → Nat → α)
    (x z : Nat → Nat → α) {chunks : List (Tensor α × Tensor α)} (hM : 0 < M) (hMN : M ≤ N)
    (hc : Chunks (fun s n c => M ≤ n ∧ c.1 = (t3 B n M fun i t => a i (s + t)) ∧
      c.2 = t2 B n fun i t => x i (s + t)) 0 chunks N) :
    ∃ y zf, Lpv.allpole lpc (t3 B N M a) (t2 B N x) (some (t2 B M z)) true = .ok (y, some zf) ∧
      stream (-1) (chunks.map fun c zi => Lpv.allpole lpc c.1 c.2 zi true) (some (t2 B M z)) = .ok (y, some zf) := by
  refine ⟨_, _, Lpv.allpole_transposed_state hl a x z hM hMN, ?_⟩
  refine (stream_parts_map (packed_parts false B fun i t => tvTdf2Out M unitTaps (fun t k => star (a i t k)) (z i) (x i) t)
    (t2 B M z) (fun s => t2 B M fun i m => tvTdf2State M unitTaps (fun t k => star (a i t k)) (z i) (x i) s m)
    _ hc ?_).trans ?_
  · rintro s n ⟨c, c'⟩ hn ⟨h0, h1, h2⟩ z' hz'
    dsimp only at h1 h2 ⊢
    subst h1 h2
    have hz2 : z' = t2 B M fun i m => tvTdf2State M unitTaps (fun t k => star (a i t k)) (z i) (x i) s m := by
      rcases hz' with rfl | ⟨rfl, rfl⟩
      · rfl
      · rfl
    rw [hz2, Lpv.allpole_transposed_state hl _ _ _ hM h0, packed_false]
    refine ok_pair (t2_congr rfl rfl fun i t hi ht => ?_) (congrArg some (t2_congr rfl rfl fun i m hi hm => ?_))
    · exact tvTdf2Out_shift unitTaps (fun t k => star (a i t k)) (z i) (x i) s t
    · exact congrFun (tvTdf2State_shift unitTaps (fun t k => star (a i t k)) (z i) (x i) s n) m
  · simp only [Nat.zero_add]; rfl

/-- **C18 (partial), `lpv.lfilter` in direct form II with `ssm`.**  Missing: as C30. -/
theorem C18_lpv_lfilter_df2_partial {B N K P : Nat} {b a X zi : Tensor α} {bv av : Nat → Nat → Nat → α}
    {x z : Nat → Nat → α} {u : Option Int} {chunks : List (TvChunk α)} (lpc : Lpv.Lpc α)
    (hb : MatVals B N K b bv) (ha : MatVals B N P a av) (hx : Sig N B X x) (hz : InitState B (max P (K - 1)) (some zi) z)
    (hBN : b.rank = 2 ∧ a.rank = 2 ∨ B ≠ N) (hB : 0 < B) (hK : 0 < K) (hM : 0 < max P (K - 1))
    (hu : FilterUnroll (max P (K - 1)) N u)
    (hc : Chunks (fun s n c => (MatVals B n K c.b (fun i t => bv i (s + t)) ∧ c.b.rank = b.rank) ∧
      (MatVals B n P c.a (fun i t => av i (s + t)) ∧ c.a.rank = a.rank) ∧
      (Sig n B c.x (fun i t => x i (s + t)) ∧ c.x.rank = X.rank) ∧
      (b.rank = 2 ∧ a.rank = 2 ∨ B ≠ n) ∧ FilterUnroll (max P (K - 1)) n c.u) 0 chunks N) :
    ∃ y zf, Lpv.lfilter lpc b a X (some zi) .df2 .ssm u = .ok (y, some zf) ∧
      stream (-1) (chunks.map fun c zi => Lpv.lfilter lpc c.b c.a c.x zi .df2 .ssm c.u) (some zi) = .ok (y, some zf) := by
  have key : ∀ {b a X zi : Tensor α} {bv av : Nat → Nat → Nat → α} {x z : Nat → Nat → α} {u : Option Int} {n : Nat},
      MatVals B n K b bv → MatVals B n P a av → Sig n B X x → InitState B (max P (K - 1)) (some zi) z →
      (b.rank = 2 ∧ a.rank = 2 ∨ B ≠ n) → 0 < n → FilterUnroll (max P (K - 1)) n u →
      Lpv.lfilter lpc b a X (some zi) .df2 .ssm u = .ok (packed (allFlatTv X b a (some zi)) B n fun i t =>
          taps K (bv i t) (tvSignal (max P (K - 1)) (fun t => zext P (av i t)) (z i) (x i)) t,
        some (packed (allFlatTv X b a (some zi)) B (max P (K - 1)) fun i m =>
          tvSignal (max P (K - 1)) (fun t => zext P (av i t)) (z i) (x i) ((n : Int) - 1 - m))) :=
    fun hb ha hx hz hBN hn hu => Lpv.lfilterWith_seq (c := true) hb ha hx
      (Lpv.ssmLfilter_tvdf2_of hb ha _ hz hBN hK hM hn (Lpv.recOn_filter _ _ hB hM hn hu))
  have hf := Lpv.flatTv_one (b := b) (a := a) (zi := zi) hx
  refine ⟨_, _, key hb ha hx hz hBN hc.lt hu, ?_⟩
  refine (stream_parts_map (packed_parts (allFlatTv X b a (some zi)) B fun i t =>
    taps K (bv i t) (tvSignal (max P (K - 1)) (fun t => zext P (av i t)) (z i) (x i)) t) zi
    (fun s => packed (allFlatTv X b a (some zi)) B (max P (K - 1)) fun i m =>
      tvSignal (max P (K - 1)) (fun t => zext P (av i t)) (z i) (x i) ((s : Int) - 1 - m)) _ hc ?_).trans ?_
  · rintro s n c hn ⟨⟨h1, h1'⟩, ⟨h2, h2'⟩, ⟨h3, h3'⟩, h4, h5⟩ z' hz'
    have h4' : c.b.rank = 2 ∧ c.a.rank = 2 ∨ B ≠ n := by rw [h1', h2']; exact h4
    rcases hz' with rfl | ⟨rfl, rfl⟩
    · obtain ⟨w, hw, ew⟩ := packed_init (M := max P (K - 1)) hf fun i m =>
          tvSignal (max P (K - 1)) (fun t => zext P (av i t)) (z i) (x i) ((s : Int) - 1 - m)
      rw [key h1 h2 h3 hw h4' hn h5, Lpv.allFlatTv_next h3' h1' h2']
      refine ok_pair (Spec.packed_congr hf fun i t hi ht => ?_) (congrArg some (Spec.packed_congr hf fun i m hi hm => ?_))
      · rw [ew i hi]
        unfold taps
        refine Finset.sum_congr rfl fun j _ => ?_
        rw [tvSignal_shift hM (fun t => zext P (av i t))]
        congr 2; push_cast; ring
      · rw [ew i hi, tvSignal_shift hM (fun t => zext P (av i t))]
        congr 1; push_cast; ring
    · have h0 : allFlatTv c.x c.b c.a (some z') = allFlatTv X b a (some z') := by unfold allFlatTv; rw [h1', h2', h3']
      rw [key h1 h2 h3 hz h4' hn h5, h0]
      simp only [Nat.zero_add]
  · simp only [Nat.zero_add]

example := C18_lpv_lfilter_df2_partial (B := 1) (N := 5) (K := 3) (P := 2) (x := fun _ t => (t : ℤ)) (u := none) Lpv.refLpc
  (.shared fun t j => (t : ℤ) + j) (.shared fun t k => (t : ℤ) - k) (.flat fun t => (t : ℤ)) (.shared fun m => (m : ℤ))
  (Or.inl ⟨rank_t2 _ _ _, rank_t2 _ _ _⟩) (by decide) (by decide) (by decide) (Or.inl (by unfold GoodUnroll; decide +kernel))
  (.cons (n := 2) (c := (⟨_, _, _, none⟩ : TvChunk ℤ)) (by decide) ⟨⟨.shared fun t j => ((0 + t : Nat) : ℤ) + j, rfl⟩,
      ⟨.shared fun t k => ((0 + t : Nat) : ℤ) - k, rfl⟩, ⟨.flat fun t => ((0 + t : Nat) : ℤ), rfl⟩,
      Or.inl ⟨rank_t2 _ _ _, rank_t2 _ _ _⟩, Or.inl (by unfold GoodUnroll; decide +kernel)⟩
    (.last (n := 3) (c := (⟨_, _, _, some 2⟩ : TvChunk ℤ)) (by decide) ⟨⟨.shared fun t j => ((0 + 2 + t : Nat) : ℤ) + j, rfl⟩,
      ⟨.shared fun t k => ((0 + 2 + t : Nat) : ℤ) - k, rfl⟩, ⟨.flat fun t => ((0 + 2 + t : Nat) : ℤ), rfl⟩,
      Or.inl ⟨rank_t2 _ _ _, rank_t2 _ _ _⟩, Or.inl (by unfold GoodUnroll; decide +kernel)⟩))

/-- **C18 (partial), `lpv.lfilter` in transposed direct form II with `ssm`.**  Missing: as C30. -/
theorem C18_lpv_lfilter_tdf2_partial {B N K P : Nat} {b a X zi : Tensor α} {bv av : Nat → Nat → Nat → α}
    {x z : Nat → Nat → α} {u : Option Int} {chunks : List (TvChunk α)} (lpc : Lpv.Lpc α)
    (hb : MatVals B N K b bv) (ha : MatVals B N P a av) (hx : Sig N B X x) (hz : InitState B (max P (K - 1)) (some zi) z)
    (hBN : b.rank = 2 ∨ B ≠ N) (hB : 0 < B) (hK : 0 < K) (hM : 0 < max P (K - 1))
    (hu : FilterUnroll (max P (K - 1)) N u)
    (hc : Chunks (fun s n c => (MatVals B n K c.b (fun i t => bv i (s + t)) ∧ c.b.rank = b.rank) ∧
      (MatVals B n P c.a (fun i t => av i (s + t)) ∧ c.a.rank = a.rank) ∧
      (Sig n B c.x (fun i t => x i (s + t)) ∧ c.x.rank = X.rank) ∧
      (b.rank = 2 ∨ B ≠ n) ∧ FilterUnroll (max P (K - 1)) n c.u) 0 chunks N) :
    ∃ y zf, Lpv.lfilter lpc b a X (some zi) .tdf2 .ssm u = .ok (y, some zf) ∧
      stream (-1) (chunks.map fun c zi => Lpv.lfilter lpc c.b c.a c.x zi .tdf2 .ssm c.u) (some zi) = .ok (y, some zf) := by
  have key : ∀ {b a X zi : Tensor α} {bv av : Nat → Nat → Nat → α} {x z : Nat → Nat → α} {u : Option Int} {n : Nat},
      MatVals B n K b bv → MatVals B n P a av → Sig n B X x → InitState B (max P (K - 1)) (some zi) z →
      (b.rank = 2 ∨ B ≠ n) → 0 < n → FilterUnroll (max P (K - 1)) n u →
      Lpv.lfilter lpc b a X (some zi) .tdf2 .ssm u = .ok (packed (allFlatTv X b a (some zi)) B n fun i t =>
          tvTdf2Out (max P (K - 1)) (fun t k => star (zext K (bv i t) k)) (fun t k => star (zext P (av i t) k)) (z i) (x i) t,
        some (packed (allFlatTv X b a (some zi)) B (max P (K - 1)) fun i m =>
          tvTdf2State (max P (K - 1)) (fun t k => star (zext K (bv i t) k)) (fun t k => star (zext P (av i t) k))
            (z i) (x i) n m)) :=
    fun hb ha hx hz hBN hn hu => Lpv.lfilterWith_seq (c := true) hb ha hx
      (Lpv.ssmLfilter_tvtdf2_of hb ha _ hz hBN hK hM hn (Lpv.recOn_filter _ _ hB hM hn hu))
  have hf := Lpv.flatTv_one (b := b) (a := a) (zi := zi) hx
  refine ⟨_, _, key hb ha hx hz hBN hc.lt hu, ?_⟩
  refine (stream_parts_map (packed_parts (allFlatTv X b a (some zi)) B fun i t =>
      tvTdf2Out (max P (K - 1)) (fun t k => star (zext K (bv i t) k)) (fun t k => star (zext P (av i t) k)) (z i) (x i) t) zi
    (fun s => packed (allFlatTv X b a (some zi)) B (max P (K - 1)) fun i m =>
      tvTdf2State (max P (K - 1)) (fun t k => star (zext K (bv i t) k)) (fun t k => star (zext P (av i t) k))
        (z i) (x i) s m) _ hc ?_).trans ?_
  · rintro s n c hn ⟨⟨h1, h1'⟩, ⟨h2, h2'⟩, ⟨h3, h3'⟩, h4, h5⟩ z' hz'
    have h4' : c.b.rank = 2 ∨ B ≠ n := by rw [h1']; exact h4
    rcases hz' with rfl | ⟨rfl, rfl⟩
    · obtain ⟨w, hw, ew⟩ := packed_init (M := max P (K - 1)) hf fun i m =>
          tvTdf2State (max P (K - 1)) (fun t k => star (zext K (bv i t) k)) (fun t k => star (zext P (av i t) k))
            (z i) (x i) s m
      rw [key h1 h2 h3 hw h4' hn h5, Lpv.allFlatTv_next h3' h1' h2']
      refine ok_pair (Spec.packed_congr hf fun i t hi ht => ?_) (congrArg some (Spec.packed_congr hf fun i m hi hm => ?_))
      · rw [ew i hi]
        exact tvTdf2Out_shift (fun t k => star (zext K (bv i t) k)) (fun t k => star (zext P (av i t) k)) (z i) (x i) s t
      · rw [ew i hi]
        exact congrFun (tvTdf2State_shift (fun t k => star (zext K (bv i t) k)) (fun t k => star (zext P (av i t) k))
          (z i) (x i) s n) m
    · have h0 : allFlatTv c.x c.b c.a (some z') = allFlatTv X b a (some z') := by unfold allFlatTv; rw [h1', h2', h3']
      rw [key h1 h2 h3 hz h4' hn h5, h0]
      simp only [Nat.zero_add]
  · simp only [Nat.zero_add]

/-- **C18 (partial), `lpv.lfilter` in direct form II with `torchlpc`.**  Missing: chunks shorter than the order of `a`
(see C28). -/
theorem C18_lpv_lfilter_torchlpc_partial {B N K P : Nat} {b a X zi : Tensor α} {bv av : Nat → Nat → Nat → α}
    {x z : Nat → Nat → α} {u : Option Int} {chunks : List (TvChunk α)} {lpc : Lpv.Lpc α} (hl : IsLpc lpc)
    (hb : MatVals B N K b bv) (ha : MatVals B N P a av) (hx : Sig N B X x) (hz : InitState B (max P (K - 1)) (some zi) z)
    (hB : 0 < B) (hK : 0 < K) (hP : 0 < P) (hPN : P ≤ N)
    (hc : Chunks (fun s n c => (MatVals B n K c.b (fun i t => bv i (s + t)) ∧ c.b.rank = b.rank) ∧
      (MatVals B n P c.a (fun i t => av i (s + t)) ∧ c.a.rank = a.rank) ∧
      (Sig n B c.x (fun i t => x i (s + t)) ∧ c.x.rank = X.rank) ∧ P ≤ n) 0 chunks N) :
    ∃ y zf, Lpv.lfilter lpc b a X (some zi) .df2 .torchlpc u = .ok (y, some zf) ∧
      stream (-1) (chunks.map fun c zi => Lpv.lfilter lpc c.b c.a c.x zi .df2 .torchlpc c.u) (some zi) =
        .ok (y, some zf) := by
  have key : ∀ {b a X zi : Tensor α} {bv av : Nat → Nat → Nat → α} {x z : Nat → Nat → α} {u : Option Int} {n : Nat},
      MatVals B n K b bv → MatVals B n P a av → Sig n B X x → InitState B (max P (K - 1)) (some zi) z →
      0 < n → P ≤ n →
      Lpv.lfilter lpc b a X (some zi) .df2 .torchlpc u = .ok (packed (allFlatTv X b a (some zi)) B n fun i t =>
          taps K (bv i t) (tvSignal P (av i) (z i) (x i)) t,
        some (packed (allFlatTv X b a (some zi)) B (max P (K - 1)) fun i m =>
          tvSignal P (av i) (z i) (x i) ((n : Int) - 1 - m))) := by
    intro b a X zi bv av x z u n hb ha hx hz hn hPn
    obtain ⟨w, zf, hw, hzf, e⟩ := Lpv.torchlpc_df2 (B := B) (K := K) hl bv av x z true hK hP hn
    have hwt : ∀ i (m : Int), m < n → withPast (z i) (w i) m = tvSignal P (av i) (z i) (x i) m := by
      intro i m hm
      rw [tvSignal_eq]
      unfold withPast
      by_cases h : m < 0
      · rw [if_pos h, if_pos h]
      · rw [if_neg h, if_neg h]
        exact allPole_unique (hw i) (tv_allPole hP (av i) (z i) (x i) n) (fun _ _ _ _ => rfl) (fun _ _ => rfl)
          (fun _ _ => rfl) (by omega)
    refine Lpv.lfilterWith_seq (c := true) hb ha hx ((Lpv.torchlpcLfilter_eq lpc hb ha x hz hB .df2).trans
      (e.trans (ok_pair (t2_congr rfl rfl fun i t hi ht => ?_) (congrArg some ?_))))
    · unfold taps
      exact Finset.sum_congr rfl fun j _ => by rw [hwt i _ (by omega)]
    · rw [hzf hPn]
      exact t2_congr rfl rfl fun i m hi hm => by rw [hwt i _ (by omega)]
  have hf := Lpv.flatTv_one (b := b) (a := a) (zi := zi) hx
  refine ⟨_, _, key hb ha hx hz hc.lt hPN, ?_⟩
  refine (stream_parts_map (packed_parts (allFlatTv X b a (some zi)) B fun i t =>
    taps K (bv i t) (tvSignal P (av i) (z i) (x i)) t) zi
    (fun s => packed (allFlatTv X b a (some zi)) B (max P (K - 1)) fun i m =>
      tvSignal P (av i) (z i) (x i) ((s : Int) - 1 - m)) _ hc ?_).trans ?_
  · rintro s n c hn ⟨⟨h1, h1'⟩, ⟨h2, h2'⟩, ⟨h3, h3'⟩, h4⟩ z' hz'
    rcases hz' with rfl | ⟨rfl, rfl⟩
    · obtain ⟨w, hw, ew⟩ := packed_init (M := max P (K - 1)) hf fun i m =>
          tvSignal P (av i) (z i) (x i) ((s : Int) - 1 - m)
      rw [key h1 h2 h3 hw hn h4, Lpv.allFlatTv_next h3' h1' h2']
      refine ok_pair (Spec.packed_congr hf fun i t hi ht => ?_) (congrArg some (Spec.packed_congr hf fun i m hi hm => ?_))
      · rw [ew i hi]
        unfold taps
        refine Finset.sum_congr rfl fun j _ => ?_
        rw [tvSignal_shift hP (av i)]
        congr 2; push_cast; ring
      · rw [ew i hi, tvSignal_shift hP (av i)]
        congr 1; push_cast; ring
    · have h0 : allFlatTv c.x c.b c.a (some z') = allFlatTv X b a (some z') := by unfold allFlatTv; rw [h1', h2', h3']
      rw [key h1 h2 h3 hz hn h4, h0]
      simp only [Nat.zero_add]
  · simp only [Nat.zero_add]

example := C18_lpv_lfilter_torchlpc_partial (B := 1) (N := 5) (K := 3) (P := 2) (x := fun _ t => (t : ℤ)) (u := none) Lpv.refLpc_isLpc
  (.shared fun t j => (t : ℤ) + j) (.shared fun t k => (t : ℤ) - k) (.flat fun t => (t : ℤ)) (.shared fun m => (m : ℤ))
  (by decide) (by decide) (by decide) (by decide)
  (.cons (n := 2) (c := (⟨_, _, _, none⟩ : TvChunk ℤ)) (by decide) ⟨⟨.shared fun t j => ((0 + t : Nat) : ℤ) + j, rfl⟩,
      ⟨.shared fun t k => ((0 + t : Nat) : ℤ) - k, rfl⟩, ⟨.flat fun t => ((0 + t : Nat) : ℤ), rfl⟩, by decide⟩
    (.last (n := 3) (c := (⟨_, _, _, some 2⟩ : TvChunk ℤ)) (by decide) ⟨⟨.shared fun t j => ((0 + 2 + t : Nat) : ℤ) + j, rfl⟩,
      ⟨.shared fun t k => ((0 + 2 + t : Nat) : ℤ) - k, rfl⟩, ⟨.flat fun t => ((0 + 2 + t : Nat) : ℤ), rfl⟩, by decide⟩))

/-- Non-vacuity: a flat signal of 5 samples in chunks of 2 and 3, third-order filter. -/
example : ∃ y zf, lfilter (t1 4 fun j => (j : ℤ) + 1) (t1 2 fun k => (k : ℤ)) (t1 5 fun t => (t : ℤ)) (some (t1 3 fun m => (m : ℤ)))
      .tdf2 none = .ok (y, some zf) ∧
    stream (-1) ([(t1 2 fun t => ((0 + t : Nat) : ℤ), none), (t1 3 fun t => ((0 + 2 + t : Nat) : ℤ), some 2)].map
      fun c zi => lfilter (t1 4 fun j => (j : ℤ) + 1) (t1 2 fun k => (k : ℤ)) c.1 zi .tdf2 c.2) (some (t1 3 fun m => (m : ℤ))) =
      .ok (y, some zf) :=
  C18_lfilter_tdf2 (B := 1) (K := 4) (P := 2) (x := fun _ t => (t : ℤ)) (.shared _) (.shared _) (.flat _) (.shared _)
    (by decide) (by decide) (by simp)
    (.cons (n := 2) (by decide) ⟨.flat fun t => ((0 + t : Nat) : ℤ), by simp, by simp⟩
      (.last (n := 3) (by decide) ⟨.flat fun t => ((0 + 2 + t : Nat) : ℤ), by simp, by simp⟩))

/-- Non-vacuity: four taps, chunks of one and two samples (shorter than the delay line). -/
example : ∃ y zf, fir (t2 1 4 fun _ j => (j : ℤ) + 1) (t2 1 3 fun _ t => (t : ℤ)) (some (t2 1 3 fun _ m => (m : ℤ))) false =
      .ok (y, some zf) ∧
    stream (-1) ([t2 1 1 fun _ t => ((0 + t : Nat) : ℤ), t2 1 2 fun _ t => ((0 + 1 + t : Nat) : ℤ)].map
      fun c zi => fir (t2 1 4 fun _ j => (j : ℤ) + 1) c zi false) (some (t2 1 3 fun _ m => (m : ℤ))) = .ok (y, some zf) :=
  C18_fir_direct_partial (fun _ j => (j : ℤ) + 1) (fun _ t => (t : ℤ)) (fun _ m => (m : ℤ)) (by decide) (by decide)
    (.cons (n := 1) (by decide) rfl (.last (n := 2) (by decide) rfl))

/-- Non-vacuity: a comb of delay 2, chunks of 2 and 3 samples. -/
example : ∃ y zf, combFilter true (t0 (3 : ℤ)) (2 : Nat) (t2 1 5 fun _ t => (t : ℤ)) (some (t1 2 fun m => (m : ℤ))) 1 = .ok (y, some zf) ∧
    stream (-1) ([(t2 1 2 fun _ t => ((0 + t : Nat) : ℤ), 1), (t2 1 3 fun _ t => ((0 + 2 + t : Nat) : ℤ), 2)].map
      fun c zi => combFilter true (t0 (3 : ℤ)) (2 : Nat) c.1 zi c.2) (some (t1 2 fun m => (m : ℤ))) = .ok (y, some zf) :=
  C18_comb_partial (x := fun _ t => (t : ℤ)) (.scalar 3) (.shared _) (by decide) (by decide) (by decide)
    (.cons (n := 2) (by decide) ⟨by decide, rfl, by decide⟩ (.last (n := 3) (by decide) ⟨by decide, rfl, by decide⟩))

/-- Non-vacuity, time-varying: five samples of a second-order filter in chunks of 2 and 3. -/
example : ∃ y zf, Lpv.lfilter Lpv.refLpc (t2 5 3 fun t j => (t : ℤ) + j) (t2 5 2 fun t k => (t : ℤ) - k) (t1 5 fun t => (t : ℤ))
      (some (t1 2 fun m => (m : ℤ))) .tdf2 .ssm none = .ok (y, some zf) ∧
    stream (-1) ([(⟨t2 2 3 fun t j => ((0 + t : Nat) : ℤ) + j, t2 2 2 fun t k => ((0 + t : Nat) : ℤ) - k,
        t1 2 fun t => ((0 + t : Nat) : ℤ), none⟩ : TvChunk ℤ),
        ⟨t2 3 3 fun t j => ((0 + 2 + t : Nat) : ℤ) + j, t2 3 2 fun t k => ((0 + 2 + t : Nat) : ℤ) - k,
          t1 3 fun t => ((0 + 2 + t : Nat) : ℤ), some 2⟩].map
        fun c zi => Lpv.lfilter Lpv.refLpc c.b c.a c.x zi .tdf2 .ssm c.u) (some (t1 2 fun m => (m : ℤ))) = .ok (y, some zf) :=
  C18_lpv_lfilter_tdf2_partial (B := 1) (K := 3) (P := 2) (x := fun _ t => (t : ℤ)) Lpv.refLpc (.shared _) (.shared _) (.flat _)
    (.shared _) (Or.inl (rank_t2 _ _ _)) (by decide) (by decide) (by decide) (Or.inl (by unfold GoodUnroll; decide +kernel))
    (.cons (n := 2) (by decide) ⟨⟨.shared fun t j => ((0 + t : Nat) : ℤ) + j, by simp⟩,
        ⟨.shared fun t k => ((0 + t : Nat) : ℤ) - k, by simp⟩, ⟨.flat fun t => ((0 + t : Nat) : ℤ), by simp⟩,
        Or.inl (rank_t2 _ _ _), Or.inl (by unfold GoodUnroll; decide +kernel)⟩
      (.last (n := 3) (by decide) ⟨⟨.shared fun t j => ((0 + 2 + t : Nat) : ℤ) + j, by simp⟩,
        ⟨.shared fun t k => ((0 + 2 + t : Nat) : ℤ) - k, by simp⟩, ⟨.flat fun t => ((0 + 2 + t : Nat) : ℤ), by simp⟩,
        Or.inl (rank_t2 _ _ _), Or.inl (by unfold GoodUnroll; decide +kernel)⟩))

/-- Non-vacuity: the transposed all-pole filter of order 2 in chunks of 2 and 3. -/
example : ∃ y zf, Lpv.allpole Lpv.refLpc (t3 1 5 2 fun _ t k => (t : ℤ) - k) (t2 1 5 fun _ t => (t : ℤ)) (some (t2 1 2 fun _ m => (m : ℤ)))
      true = .ok (y, some zf) ∧
    stream (-1) ([(t3 1 2 2 fun _ t k => ((0 + t : Nat) : ℤ) - k, t2 1 2 fun _ t => ((0 + t : Nat) : ℤ)),
        (t3 1 3 2 fun _ t k => ((0 + 2 + t : Nat) : ℤ) - k, t2 1 3 fun _ t => ((0 + 2 + t : Nat) : ℤ))].map
        fun c zi => Lpv.allpole Lpv.refLpc c.1 c.2 zi true) (some (t2 1 2 fun _ m => (m : ℤ))) = .ok (y, some zf) :=
  C18_lpv_allpole_transposed_partial Lpv.refLpc_isLpc (fun _ t k => (t : ℤ) - k) (fun _ t => (t : ℤ)) (fun _ m => (m : ℤ))
    (by decide) (by decide)
    (.cons (n := 2) (by decide) ⟨by decide, rfl, rfl⟩ (.last (n := 3) (by decide) ⟨by decide, rfl, rfl⟩))

end Props
