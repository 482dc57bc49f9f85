import Verif.Props.PMP4Tables
import Verif.Props.PMP4Chunks
import Verif.Props.PMP4Order
import Verif.Props.PMP4Hostile

/-!
# C66: MP4 presentations survive a round trip

The boxes that `Presentation.Marshal` writes, given to `Presentation.Unmarshal`, restore tracks and samples, and the payloads that are
read from the file are those that were written.
-/

namespace Verif.Props
open PMP4 SampleTables
open Bits (toInt32 wrapInt32)

/-! ## Reading the tables -/

theorem pmp4_read_stts (l : List (Run Nat)) :
    ∀ s : List RSample, s.length + (expand (runPairs l)).length ≤ maxSamples →
      readSTTS l s = .ok (s ++ (expand (runPairs l)).map fun d => { duration := d }) := by
  induction l with
  | nil => intro s _; simp [readSTTS, runPairs, expand]
  | cons e l ih =>
    intro s h
    have he : expand (runPairs (e :: l)) = List.replicate e.count e.value ++ expand (runPairs l) := rfl
    rw [he, List.length_append, List.length_replicate] at h
    unfold readSTTS
    rw [if_neg (by generalize maxSamples = m at *; omega), ih _ (by
      rw [List.length_append, List.length_replicate]
      generalize maxSamples = m at *; omega), he]
    simp

theorem pmp4_sumRead (ds : List Nat) :
    ∀ acc, sumRead acc (ds.map fun d => { duration := d }) = sumDurations acc (ds.map fun d => { duration := d }) := by
  induction ds with
  | nil => intro acc; rfl
  | cons d ds ih => intro acc; simp only [List.map_cons, sumRead, sumDurations]; exact ih _

theorem pmp4_sumDurations_congr (a : List Sample) :
    ∀ (b : List Sample) (acc : Nat), a.map (·.duration) = b.map (·.duration) → sumDurations acc a = sumDurations acc b := by
  induction a with
  | nil => intro b acc h; cases b with
    | nil => rfl
    | cons x b => cases h
  | cons x a ih =>
    intro b acc h
    cases b with
    | nil => cases h
    | cons y b =>
      simp only [List.map_cons, List.cons.injEq] at h
      unfold sumDurations
      rw [h.1]
      exact ih b _ h.2

theorem pmp4_sumDurations_lt (a : List Sample) : ∀ acc, acc < 2 ^ 32 → sumDurations acc a < 2 ^ 32 := by
  induction a with
  | nil => intro acc h; exact h
  | cons x a ih => intro acc _; exact ih _ (Nat.mod_lt _ (by decide))

theorem pmp4_read_stss (l : List Sample) :
    ∀ (pre s : List RSample), pre.length + l.length < 2 ^ 32 → s.length = l.length →
      readSTSS (stssNumbers pre.length l) (pre ++ s.map fun sa => { sa with isNonSync := true }) =
        .ok (pre ++ List.zipWith (fun (sa : RSample) (x : Sample) => { sa with isNonSync := x.isNonSync }) s l) := by
  induction l with
  | nil =>
    intro pre s _ hs
    have : s = [] := List.eq_nil_of_length_eq_zero hs
    subst this; rfl
  | cons x l ih =>
    intro pre s hlen hs
    cases s with
    | nil => cases hs
    | cons a s =>
      simp only [List.length_cons] at hlen hs
      unfold stssNumbers
      have key := fun (b : RSample) => ih (pre ++ [b]) s (by simp; omega) (by omega)
      simp only [List.length_append, List.length_cons, List.length_nil, Nat.zero_add, List.append_assoc, List.singleton_append] at key
      cases hx : x.isNonSync with
      | true =>
        simp only [if_true, List.map_cons, List.zipWith_cons_cons, hx]
        exact key _
      | false =>
        simp only [Bool.false_eq_true, if_false, List.map_cons, List.zipWith_cons_cons, hx]
        unfold readSTSS
        have hi : ((pre.length + 1) % 2 ^ 32 + 2 ^ 32 - 1) % 2 ^ 32 = pre.length := by omega
        dsimp only
        rw [hi, if_neg (by simp), idx_of_lt (by simp), Res.bind_ok]
        have hset : ∀ v : RSample, (pre ++ ({ a with isNonSync := true } : RSample) :: s.map fun sa => { sa with isNonSync := true }).set
            pre.length v = pre ++ v :: s.map fun sa => { sa with isNonSync := true } := by
          intro v; rw [List.set_append_right _ _ (Nat.le_refl _), Nat.sub_self]; rfl
        rw [hset]
        simp only [List.getElem_append_right (Nat.le_refl _), Nat.sub_self, List.getElem_cons_zero]
        exact key _

theorem pmp4_set_offsets (v : Int) (k : Nat) :
    ∀ (pre s post : List RSample), s.length = k →
      setOffsets v k pre.length (pre ++ (s ++ post)) = .ok (pre ++ (s.map (fun sa => { sa with ptsOffset := v }) ++ post)) := by
  induction k with
  | zero =>
    intro pre s post hs
    have : s = [] := List.eq_nil_of_length_eq_zero hs
    subst this; rfl
  | succ k ih =>
    intro pre s post hs
    cases s with
    | nil => cases hs
    | cons a s =>
      unfold setOffsets
      rw [idx_of_lt (by simp), Res.bind_ok]
      have hset : ∀ w : RSample, (pre ++ (a :: s ++ post)).set pre.length w = pre ++ [w] ++ (s ++ post) := by
        intro w; rw [List.set_append_right _ _ (Nat.le_refl _), Nat.sub_self]; simp
      rw [hset]
      have := ih (pre ++ [{ (pre ++ (a :: s ++ post))[pre.length]'(by simp) with ptsOffset := v }]) s post (by simpa using hs)
      rw [List.length_append] at this
      rw [show pre.length + 1 = pre.length + [({ (pre ++ (a :: s ++ post))[pre.length]'(by simp) with ptsOffset := v } : RSample)].length from rfl,
        this]
      simp

theorem pmp4_read_ctts (l : List (Run Int)) :
    ∀ (pre s : List RSample), s.length = (expand (runPairs l)).length →
      readCTTS l pre.length (pre ++ s) =
        .ok (pre ++ List.zipWith (fun (sa : RSample) (v : Int) => { sa with ptsOffset := wrapInt32 v }) s (expand (runPairs l))) := by
  induction l with
  | nil =>
    intro pre s hs
    have : s = [] := List.eq_nil_of_length_eq_zero hs
    subst this; rfl
  | cons e l ih =>
    intro pre s hs
    have he : expand (runPairs (e :: l)) = List.replicate e.count e.value ++ expand (runPairs l) := rfl
    rw [he, List.length_append, List.length_replicate] at hs
    unfold readCTTS
    rw [if_neg (by simp; omega)]
    have h1 := pmp4_set_offsets (wrapInt32 e.value) e.count pre (s.take e.count) (s.drop e.count) (by simp; omega)
    rw [List.take_append_drop] at h1
    rw [h1, Res.bind_ok, ← List.append_assoc]
    have h2 := ih (pre ++ (s.take e.count).map fun sa => { sa with ptsOffset := wrapInt32 e.value }) (s.drop e.count) (by simp; omega)
    rw [List.length_append, List.length_map, List.length_take, Nat.min_eq_left (by omega)] at h2
    rw [h2, he, List.append_assoc]
    congr 2
    have hz : ∀ (n : Nat) (a : List RSample), n ≤ a.length → ∀ (b : List Int),
        List.zipWith (fun (sa : RSample) (v : Int) => { sa with ptsOffset := wrapInt32 v }) a (List.replicate n e.value ++ b) =
          (a.take n).map (fun sa => { sa with ptsOffset := wrapInt32 e.value }) ++
            List.zipWith (fun (sa : RSample) (v : Int) => { sa with ptsOffset := wrapInt32 v }) (a.drop n) b := by
      intro n
      induction n with
      | zero => intro a _ b; simp
      | succ n ihn =>
        intro a ha b
        cases a with
        | nil => simp at ha
        | cons x a =>
          simp only [List.replicate_succ, List.cons_append, List.zipWith_cons_cons, List.take_succ_cons, List.map_cons, List.drop_succ_cons]
          rw [ihn a (by simpa using ha) b]
    exact (hz e.count s (by omega) _).symm

theorem pmp4_add_chunks (total spc k : Nat) :
    ∀ sc ch, sc + k * spc ≤ total → addChunks total spc k sc ch = .ok (sc + k * spc, ch ++ List.replicate k spc) := by
  induction k with
  | zero => intro sc ch _; simp [addChunks]
  | succ k ih =>
    intro sc ch h
    rw [Nat.succ_mul] at h
    unfold addChunks
    rw [if_neg (by omega), ih _ _ (by omega), Nat.succ_mul, List.append_assoc]
    congr 2
    omega

theorem pmp4_read_stsc (total : Nat) (l : List StscEntry) :
    ∀ (f : Nat) (c : List Nat) (sc : Nat) (ch : List Nat), Describes f l c → (∀ x ∈ c, 0 < x) → sc + c.sum = total →
      f + c.length < 2 ^ 32 → ch.length + c.length ≤ maxSamples → readSTSC total l sc ch = .ok (ch ++ c) := by
  induction l with
  | nil => intro f c sc ch h _ _ _ _; cases h; simp [readSTSC]
  | cons e l ih =>
    intro f c sc ch h hpos hsum hf hmax
    cases h with
    | @cons _ k s _ c hk h =>
      have hs : 0 < s := hpos s (List.mem_append_left _ (by simp; omega))
      rw [List.sum_append, List.sum_replicate_nat] at hsum
      rw [List.length_append, List.length_replicate] at hf hmax
      have hcount : chunkCount total sc ⟨f, s⟩ l = .ok k := by
        cases h with
        | nil =>
          unfold chunkCount
          simp only [List.sum_nil] at hsum
          rw [if_neg (by simp only; omega)]
          simp only
          rw [show total - sc = k * s by omega, Nat.mul_mod_left, if_neg (by simp), Nat.mul_div_cancel _ hs]
          rw [Nat.mod_eq_of_lt (by omega)]
        | cons hk2 h2 =>
          unfold chunkCount
          simp only
          congr 1
          omega
      unfold readSTSC
      rw [hcount, Res.bind_ok, if_neg (by generalize maxSamples = m at *; omega), if_neg (by simp only; omega),
        pmp4_add_chunks _ _ _ _ _ (by simp only; omega), Res.bind_ok]
      show readSTSC total l (sc + k * s) (ch ++ List.replicate k s) = _
      rw [ih (f + k) c (sc + k * s) (ch ++ List.replicate k s) h (fun x hx => hpos x (List.mem_append_right _ hx)) (by omega) (by omega) (by
        rw [List.length_append, List.length_replicate]
        generalize maxSamples = m at *; omega), List.append_assoc]

/-- The location and the size of a sample are written. -/
def setLocation (sa : RSample) (l : Nat × Nat) : RSample := { sa with payloadSize := l.2, location := some l }

theorem pmp4_locate_chunk (k : Nat) :
    ∀ (off : Nat) (spre sizes : List Nat) (pre s post : List RSample), spre.length = pre.length → s.length = k → k ≤ sizes.length →
      off + (sizes.take k).sum < 2 ^ 32 →
      locateChunk (spre ++ sizes) k off pre.length (pre ++ (s ++ post)) =
        .ok (pre.length + k, pre ++ (List.zipWith setLocation s (chunkLocations off (sizes.take k)) ++ post)) := by
  induction k with
  | zero =>
    intro off spre sizes pre s post _ hs _ _
    have : s = [] := List.eq_nil_of_length_eq_zero hs
    subst this; rfl
  | succ k ih =>
    intro off spre sizes pre s post hsp hs hk hoff
    cases s with
    | nil => cases hs
    | cons a s =>
      cases sizes with
      | nil => cases hk
      | cons z sizes =>
        simp only [List.take_succ_cons, List.sum_cons] at hoff
        unfold locateChunk
        rw [idx_of_lt (by simp; omega), Res.bind_ok, idx_of_lt (by simp), Res.bind_ok]
        have hz : (spre ++ z :: sizes)[pre.length]'(by simp; omega) = z := by simp [← hsp]
        have ha : (pre ++ (a :: s ++ post))[pre.length]'(by simp) = a := by simp
        rw [hz, ha, Nat.mod_eq_of_lt (by omega)]
        have hset : ∀ w : RSample, (pre ++ (a :: s ++ post)).set pre.length w = (pre ++ [w]) ++ (s ++ post) := by
          intro w; rw [List.set_append_right _ _ (Nat.le_refl _), Nat.sub_self]; simp
        rw [hset]
        have := ih (off + z) (spre ++ [z]) sizes (pre ++ [setLocation a (off, z)]) s post (by simp; omega) (by simpa using hs)
          (by simpa using hk) (by omega)
        simp only [List.length_append, List.length_cons, List.length_nil, Nat.zero_add, List.append_assoc, List.singleton_append] at this ⊢
        rw [show ({ a with payloadSize := z, location := some (off, z) } : RSample) = setLocation a (off, z) from rfl, this]
        simp only [List.take_succ_cons, chunkLocations, List.zipWith_cons_cons, List.cons_append]
        congr 2
        omega

theorem pmp4_chunkLocations_length (sizes : List Nat) : ∀ off, (chunkLocations off sizes).length = sizes.length := by
  induction sizes with
  | nil => intro off; rfl
  | cons z sizes ih => intro off; simp [chunkLocations, ih]

theorem pmp4_chunkLocations_sum (sizes : List Nat) :
    ∀ off, (∀ x ∈ chunkLocations off sizes, x.1 + x.2 < 2 ^ 32) → off < 2 ^ 32 → off + sizes.sum < 2 ^ 32 := by
  induction sizes with
  | nil => intro off _ h; simpa using h
  | cons z sizes ih =>
    intro off h _
    have h1 := h (off, z) List.mem_cons_self
    have := ih (off + z) (fun x hx => h x (List.mem_cons_of_mem _ hx)) h1
    simp only [List.sum_cons]; omega

theorem pmp4_locate_all (ch : List (Nat × Nat)) :
    ∀ (spre sizes : List Nat) (pre s : List RSample), spre.length = pre.length → s.length = sizes.length →
      (ch.map (·.1)).sum = sizes.length → (∀ x ∈ ch, x.2 < 2 ^ 32) → (∀ x ∈ locations ch sizes, x.1 + x.2 < 2 ^ 32) →
      locate (spre ++ sizes) ch pre.length (pre ++ s) = .ok (pre ++ List.zipWith setLocation s (locations ch sizes)) := by
  induction ch with
  | nil =>
    intro spre sizes pre s _ hs hsum _ _
    have h0 : s.length = 0 := by rw [hs]; simpa using hsum.symm
    have : s = [] := List.eq_nil_of_length_eq_zero h0
    subst this; rfl
  | cons x ch ih =>
    obtain ⟨k, off⟩ := x
    intro spre sizes pre s hsp hs hsum hoffs hlocs
    simp only [List.map_cons, List.sum_cons] at hsum
    simp only [locations] at hlocs ⊢
    have hoff : off + (sizes.take k).sum < 2 ^ 32 :=
      pmp4_chunkLocations_sum _ _ (fun y hy => hlocs y (List.mem_append_left _ hy)) (hoffs (k, off) List.mem_cons_self)
    unfold locate
    have h1 := pmp4_locate_chunk k off spre sizes pre (s.take k) (s.drop k) hsp (by simp; omega) (by omega) hoff
    rw [List.take_append_drop] at h1
    rw [h1, Res.bind_ok]
    have hl : (List.zipWith setLocation (s.take k) (chunkLocations off (sizes.take k))).length = k := by
      rw [List.length_zipWith, pmp4_chunkLocations_length]; simp; omega
    have h2 := ih (spre ++ sizes.take k) (sizes.drop k) (pre ++ List.zipWith setLocation (s.take k) (chunkLocations off (sizes.take k)))
      (s.drop k) (by rw [List.length_append, List.length_append, hl, List.length_take]; omega) (by simp; omega) (by simp; omega)
      (fun y hy => hoffs y (List.mem_cons_of_mem _ hy)) (fun y hy => hlocs y (List.mem_append_right _ hy))
    rw [List.length_append, hl, List.append_assoc, List.append_assoc, List.take_append_drop] at h2
    show locate (spre ++ sizes) ch (pre.length + k) _ = _
    rw [h2]
    rw [List.append_assoc, ← List.zipWith_append (by rw [pmp4_chunkLocations_length]; simp; omega), List.take_append_drop]

theorem pmp4_chunkLocations_shift (d : Nat) (sizes : List Nat) :
    ∀ off, chunkLocations (off + d) sizes = (chunkLocations off sizes).map fun x => (x.1 + d, x.2) := by
  induction sizes with
  | nil => intro off; rfl
  | cons z sizes ih =>
    intro off
    simp only [chunkLocations, List.map_cons]
    rw [← ih (off + z), show off + d + z = off + z + d by omega]

theorem pmp4_locations_shift (d : Nat) (c : List Nat) :
    ∀ (offs sizes : List Nat), locations (List.zip c (offs.map (· + d))) sizes =
      (locations (List.zip c offs) sizes).map fun x => (x.1 + d, x.2) := by
  induction c with
  | nil => intro offs sizes; rfl
  | cons k c ih =>
    intro offs sizes
    cases offs with
    | nil => rfl
    | cons o offs =>
      simp only [List.map_cons, List.zip_cons_cons, locations, List.map_append]
      rw [pmp4_chunkLocations_shift, ih]

/-! ## A track -/

/-- What is read for a sample that was written. -/
def readSample (d : Nat) (sa : Sample) : RSample :=
  ⟨sa.duration, sa.ptsOffset, sa.isNonSync, sa.payloadSize, some (sa.offset + d, sa.payloadSize)⟩

theorem pmp4_groupOffsets_mem (l : List Sample) : ∀ off, ∀ o ∈ groupOffsets l off, ∃ sa ∈ l, sa.offset = o := by
  induction l with
  | nil => intro off o h; cases h
  | cons sa l ih =>
    intro off o h
    unfold groupOffsets at h
    split at h
    · obtain ⟨x, hx, h⟩ := ih _ o h; exact ⟨x, List.mem_cons_of_mem _ hx, h⟩
    · rcases List.mem_cons.mp h with h | h
      · exact ⟨sa, List.mem_cons_self, h.symm⟩
      · obtain ⟨x, hx, h⟩ := ih _ o h; exact ⟨x, List.mem_cons_of_mem _ hx, h⟩

theorem pmp4_length_le_sum (c : List Nat) (h : ∀ x ∈ c, 0 < x) : c.length ≤ c.sum := by
  induction c with
  | nil => simp
  | cons x c ih =>
    have := h x List.mem_cons_self
    have := ih (fun y hy => h y (List.mem_cons_of_mem _ hy))
    simp only [List.length_cons, List.sum_cons]; omega

theorem pmp4_readBoxes_append (x : List Box) :
    ∀ (y : List Box) (r : Reader), readBoxes (x ++ y) r = (readBoxes x r >>= fun r => readBoxes y r) := by
  induction x with
  | nil => intro y r; rfl
  | cons z x ih =>
    intro y r
    show (readBox r z >>= fun r => readBoxes (x ++ y) r) = ((readBox r z >>= fun r => readBoxes x r) >>= fun r => readBoxes y r)
    rw [bind_assoc]
    congr 1
    funext r1
    exact ih y r1

/-- The tables that are written for samples restore them. -/
theorem pmp4_tables (dataOffset : Nat) (samples : List Sample) (dur : Nat) (hmax : samples.length ≤ maxSamples)
    (hpts : ∀ sa ∈ samples, -(2 ^ 31) ≤ sa.ptsOffset ∧ sa.ptsOffset < 2 ^ 31)
    (hb : ∀ sa ∈ samples, sa.offset + sa.payloadSize + dataOffset < 2 ^ 32) :
    ∃ boxes r, writeBoxes dataOffset samples = .ok boxes ∧ boxes ≠ [] ∧ readBoxes boxes { trackDuration := dur } = .ok r ∧
      r.samples = samples.map (readSample dataOffset) ∧ r.props = true ∧
      r.timeOffset = wrapInt32 (toInt32 dur - toInt32 (sumDurations 0 samples)) := by
  have hlen1 : samples.length + 1 < 2 ^ 32 := by
    have : maxSamples + 1 < 2 ^ 32 := by decide
    generalize maxSamples = m at *; omega
  have hlen : samples.length < 2 ^ 32 := by omega
  obtain ⟨stts, hs1, hs2, _, _⟩ := C45_stts samples hlen
  obtain ⟨ctts, hc1, hc2, _, _⟩ := C45_ctts samples hlen
  obtain ⟨stsc, c, hd1, hd2, hd3, hd4, hd5⟩ : ∃ stsc c, marshalSTSC samples = .ok stsc ∧ Describes 1 stsc c ∧ (∀ x ∈ c, 0 < x) ∧
      c.sum = samples.length ∧ c.length = (marshalSTCO samples).length ∧ True := by
    cases samples with
    | nil => exact ⟨[], [], rfl, .nil 1, by simp, rfl, rfl, trivial⟩
    | cons first l =>
      obtain ⟨r, h1, h2, _⟩ := pmp4_marshalSTSC first l hlen
      refine ⟨r, _, h1, h2, pmp4_groupSizes_pos l 1 _ (by omega), ?_, ?_, trivial⟩
      · rw [pmp4_groupSizes_sum]; simp; omega
      · show _ = (stcoLoop l first.end [first.offset]).length
        rw [pmp4_stcoLoop, pmp4_groupSizes_length]; simp
  have hd5 := hd5.1
  have hlocs : locations (List.zip c (marshalSTCO samples)) (marshalSTSZ samples) = samples.map fun sa => (sa.offset, sa.payloadSize) := by
    obtain ⟨stsc', h1, h2⟩ := C46_tables samples hlen (fun sa h => by have := hb sa h; omega)
    rw [hd1] at h1; cases h1
    unfold tableLocations at h2
    rw [← hd5, pmp4_samplesInChunk_list _ _ hd2] at h2
    exact h2
  have hstcoMem : ∀ o ∈ marshalSTCO samples, ∃ sa ∈ samples, sa.offset = o := by
    cases samples with
    | nil => intro o h; cases h
    | cons first l =>
      intro o h
      have h : o ∈ stcoLoop l first.end [first.offset] := h
      rw [pmp4_stcoLoop] at h
      rcases List.mem_append.mp h with h | h
      · exact ⟨first, List.mem_cons_self, (List.mem_singleton.mp h).symm⟩
      · obtain ⟨x, hx, hxo⟩ := pmp4_groupOffsets_mem _ _ _ h
        exact ⟨x, List.mem_cons_of_mem _ hx, hxo⟩
  have hshift : shiftChunks dataOffset (marshalSTCO samples) = (marshalSTCO samples).map (· + dataOffset) := by
    unfold shiftChunks
    apply List.map_congr_left
    intro o ho
    obtain ⟨sa, hsa, rfl⟩ := hstcoMem o ho
    have := hb sa hsa
    rw [Nat.mod_eq_of_lt (show dataOffset < 2 ^ 32 by omega), Nat.mod_eq_of_lt (by omega)]
  refine ⟨[.stts stts] ++ ((marshalSTSS samples).map Box.stss).toList ++
      [.ctts ctts, .stsc stsc, .stsz (marshalSTSZ samples), .stco (shiftChunks dataOffset (marshalSTCO samples))],
    ⟨true, dur, _, samples.map (readSample dataOffset), c, marshalSTSZ samples⟩, ?_, ?_, ?_, rfl, rfl, rfl⟩
  · unfold writeBoxes
    rw [hs1, Res.bind_ok, hc1, Res.bind_ok, hd1, Res.bind_ok]
  · simp
  · rw [List.append_assoc, pmp4_readBoxes_append]
    have hstts : readBoxes [.stts stts] { trackDuration := dur } =
        .ok ⟨true, dur, wrapInt32 (toInt32 dur - toInt32 (sumDurations 0 samples)), samples.map (fun sa => { duration := sa.duration }), [], []⟩ := by
      unfold readBoxes readBox
      simp only [Bool.false_eq_true, if_false]
      rw [pmp4_read_stts stts [] (by rw [hs2]; simpa using hmax), Res.bind_ok, Res.bind_ok, hs2]
      simp only [List.nil_append]
      rw [pmp4_sumRead, pmp4_sumDurations_congr _ samples 0 (by simp)]
      simp only [List.map_map, readBoxes]
      rfl
    rw [hstts, Res.bind_ok, pmp4_readBoxes_append]
    have hstss : readBoxes ((marshalSTSS samples).map Box.stss).toList
        ⟨true, dur, wrapInt32 (toInt32 dur - toInt32 (sumDurations 0 samples)), samples.map (fun sa => { duration := sa.duration }), [], []⟩ =
        .ok ⟨true, dur, wrapInt32 (toInt32 dur - toInt32 (sumDurations 0 samples)),
          samples.map (fun sa => { duration := sa.duration, isNonSync := sa.isNonSync }), [], []⟩ := by
      unfold marshalSTSS
      split
      · rename_i hall
        simp only [Option.map_none, Option.toList_none, readBoxes]
        congr 2
        apply List.map_congr_left
        intro sa hsa
        rw [(pmp4_allSync samples).mp hall sa hsa]
      · simp only [Option.map_some, Option.toList_some, readBoxes, readBox, if_true]
        have := pmp4_read_stss samples [] (samples.map (fun sa => { duration := sa.duration })) (by simpa using hlen) (by simp)
        simp only [List.length_nil, List.nil_append] at this
        rw [this, Res.bind_ok, Res.bind_ok]
        congr 2
        rw [List.zipWith_map_left, List.zipWith_self]
    rw [hstss, Res.bind_ok]
    show (readBox _ _ >>= fun r => readBoxes _ r) = _
    have hctts : readBox ⟨true, dur, wrapInt32 (toInt32 dur - toInt32 (sumDurations 0 samples)),
          samples.map (fun sa => { duration := sa.duration, isNonSync := sa.isNonSync }), [], []⟩ (.ctts ctts) =
        .ok ⟨true, dur, wrapInt32 (toInt32 dur - toInt32 (sumDurations 0 samples)),
          samples.map (fun sa => { duration := sa.duration, isNonSync := sa.isNonSync, ptsOffset := sa.ptsOffset }), [], []⟩ := by
      simp only [readBox, if_true]
      have := pmp4_read_ctts ctts [] (samples.map (fun sa => { duration := sa.duration, isNonSync := sa.isNonSync })) (by rw [hc2]; simp)
      simp only [List.length_nil, List.nil_append] at this
      rw [this, Res.bind_ok, hc2]
      congr 2
      rw [List.zipWith_map, List.zipWith_self]
      apply List.map_congr_left
      intro sa hsa
      have := hpts sa hsa
      have hw : wrapInt32 sa.ptsOffset = sa.ptsOffset := by unfold wrapInt32; omega
      rw [hw]
    rw [hctts, Res.bind_ok]
    show (readBox _ _ >>= fun r => readBoxes _ r) = _
    have hcl : c.length ≤ samples.length := by rw [← hd4]; exact pmp4_length_le_sum c hd3
    have hstsc : ∀ s : List RSample, s.length = samples.length → ∀ t,
        readBox ⟨true, dur, t, s, [], []⟩ (.stsc stsc) = .ok ⟨true, dur, t, s, c, []⟩ := by
      intro s hs t
      simp only [readBox, if_true]
      rw [pmp4_read_stsc s.length stsc 1 c 0 [] hd2 hd3 (by omega) (by omega) (by
        simp only [List.length_nil]
        generalize maxSamples = m at *; omega), Res.bind_ok]
      rfl
    rw [hstsc _ (by simp), Res.bind_ok]
    show readBoxes [.stco _] ⟨true, dur, _, _, c, marshalSTSZ samples⟩ = _
    show (readBox _ _ >>= fun r => Res.ok r) = _
    simp only [readBox, if_true]
    rw [if_neg (by simp [shiftChunks, hd5]), pmp4_chunkOffsets _ _ _ (by simp [shiftChunks, hd5]), Res.bind_ok, List.drop_zero,
      if_neg (by simp [marshalSTSZ])]
    have hsum : ((List.zip c (shiftChunks dataOffset (marshalSTCO samples))).map (·.1)).sum = (marshalSTSZ samples).length := by
      rw [List.map_fst_zip (by simp [shiftChunks, hd5]), hd4]; simp [marshalSTSZ]
    have hl2 : locations (List.zip c (shiftChunks dataOffset (marshalSTCO samples))) (marshalSTSZ samples) =
        samples.map fun sa => (sa.offset + dataOffset, sa.payloadSize) := by
      rw [hshift, pmp4_locations_shift, hlocs, List.map_map]; rfl
    have := pmp4_locate_all (List.zip c (shiftChunks dataOffset (marshalSTCO samples))) [] (marshalSTSZ samples) []
      (samples.map (fun sa => ({ duration := sa.duration, isNonSync := sa.isNonSync, ptsOffset := sa.ptsOffset } : RSample))) rfl
      (by simp [marshalSTSZ]) hsum (by
        intro x hx
        have := (List.of_mem_zip (a := x.1) (b := x.2) hx).2
        rw [hshift] at this
        obtain ⟨o, ho, hox⟩ := List.mem_map.mp this
        obtain ⟨sa, hsa, rfl⟩ := hstcoMem o ho
        have := hb sa hsa
        omega) (by
        rw [hl2]
        intro x hx
        obtain ⟨sa, hsa, rfl⟩ := List.mem_map.mp hx
        have := hb sa hsa
        simp only; omega)
    simp only [List.nil_append, List.length_nil] at this
    rw [this, Res.bind_ok, Res.bind_ok, hl2]
    congr 2
    rw [List.zipWith_map, List.zipWith_self]
    rfl

/-! ## Boxes of a track -/

theorem pmp4_readEvents_append (x : List Event) :
    ∀ (y : List Event) (p : PReader), readEvents (x ++ y) p = (readEvents x p >>= fun p => readEvents y p) := by
  induction x with
  | nil => intro y p; rfl
  | cons z x ih =>
    intro y p
    show (readEvent p z >>= fun p => readEvents (x ++ y) p) = ((readEvent p z >>= fun p => readEvents x p) >>= fun p => readEvents y p)
    rw [bind_assoc]
    congr 1
    funext p1
    exact ih y p1

theorem pmp4_readBox_duration (r r' : Reader) (b : Box) (h : readBox r b = .ok r') : r'.trackDuration = r.trackDuration := by
  cases b <;> simp only [readBox] at h
  case stsz sizes =>
    split at h
    · cases h; rfl
    · cases h
  case stco offsets =>
    split at h
    · split at h
      · cases h
      · obtain ⟨ch, _, h⟩ := Res.bind_eq_ok.mp h
        split at h
        · cases h
        · obtain ⟨x, _, h⟩ := Res.bind_eq_ok.mp h; cases h; rfl
    · cases h
  case stts entries =>
    split at h
    · cases h
    · obtain ⟨x, _, h⟩ := Res.bind_eq_ok.mp h; cases h; rfl
  all_goals
    split at h
    · obtain ⟨x, _, h⟩ := Res.bind_eq_ok.mp h; cases h; rfl
    · cases h

/-- The state of the reader inside of the tables of a track. -/
def tableState (props : Bool) : State := if props then .waitingSampleProps else .waitingSamples

theorem pmp4_readEvents_tables (boxes : List Box) :
    ∀ (p : PReader) (t : RTrack) (r0 r : Reader), p.cur = some t → p.state = tableState r0.props →
      { t.reader with props := r0.props, trackDuration := p.trackDuration } = r0 → boxes ≠ [] → readBoxes boxes r0 = .ok r →
      readEvents (boxes.map Event.table) p = .ok { p with state := tableState r.props, cur := some { t with reader := r } } := by
  induction boxes with
  | nil => intro p t r0 r _ _ _ h; exact absurd rfl h
  | cons b boxes ih =>
    intro p t r0 r hcur hst hr0 _ hread
    have hread : (readBox r0 b >>= fun r => readBoxes boxes r) = .ok r := hread
    obtain ⟨r1, h1, h2⟩ := Res.bind_eq_ok.mp hread
    have hdur : r1.trackDuration = p.trackDuration := by rw [pmp4_readBox_duration _ _ _ h1, ← hr0]
    have hev : readEvent p (.table b) = .ok { p with state := tableState r1.props, cur := some { t with reader := r1 } } := by
      have hprops : decide (p.state = State.waitingSampleProps) = r0.props := by
        rw [hst]; cases r0.props <;> rfl
      unfold readEvent
      simp only
      rw [if_neg (by rw [hst]; cases r0.props <;> simp [tableState])]
      unfold PReader.withCur
      rw [hcur]
      simp only
      rw [hprops, hr0, h1, Res.bind_ok]
      rfl
    show (readEvent p (.table b) >>= fun p => readEvents (boxes.map Event.table) p) = _
    rw [hev, Res.bind_ok]
    cases boxes with
    | nil => cases h2; rfl
    | cons b2 boxes =>
      exact ih { p with state := tableState r1.props, cur := some { t with reader := r1 } } { t with reader := r1 } r1 r rfl rfl (by
        show ({ r1 with props := r1.props, trackDuration := p.trackDuration } : Reader) = r1
        rw [← hdur]) (List.cons_ne_nil _ _) h2

theorem pmp4_elst_ok (t : Track) (h : t.timeScale ≠ 0) : (∃ r, presentationDuration t = .ok r) ∧ ∃ r, marshalELST t = .ok r := by
  constructor
  · unfold presentationDuration quot
    rw [if_neg (by omega)]
    exact ⟨_, rfl⟩
  · unfold marshalELST uquot
    simp only
    rw [if_neg h, if_neg h, if_neg h]
    simp only [Res.bind_ok]
    split
    · exact ⟨_, rfl⟩
    · exact ⟨_, rfl⟩

theorem pmp4_timeOffset (t : Track) (h1 : -(2 ^ 31) ≤ t.timeOffset) (h2 : t.timeOffset < 2 ^ 31) :
    wrapInt32 (toInt32 (mediaDuration t) - toInt32 (sumDurations 0 t.samples)) = t.timeOffset := by
  have := pmp4_sumDurations_lt t.samples 0 (by decide)
  unfold mediaDuration
  generalize sumDurations 0 t.samples = d at *
  unfold wrapInt32 toInt32
  omega

/-- What a track that can be written fulfils: numbers fit in their fields and payloads have the stated size. -/
structure Writable (t : Track) : Prop where
  id : t.id < 2 ^ 32
  timeScale : t.timeScale ≠ 0
  timeOffset : -(2 ^ 31) ≤ t.timeOffset ∧ t.timeOffset < 2 ^ 31
  count : t.samples.length ≤ 5184000
  pts : ∀ sa ∈ t.samples, -(2 ^ 31) ≤ sa.ptsOffset ∧ sa.ptsOffset < 2 ^ 31
  payload : ∀ sa ∈ t.samples, sa.payload.length = sa.payloadSize

/-- The boxes of a track add it to the presentation. -/
theorem pmp4_track (d : Nat) (t : Track) (h : Writable t) (hb : ∀ sa ∈ t.samples, sa.offset + sa.payloadSize + d < 2 ^ 32) (p : PReader)
    (hp : p.state = .waitingTrak ∨ p.state = .waitingSampleProps) :
    ∃ evs p' rt, trackEvents d t = .ok evs ∧ readEvents evs p = .ok p' ∧ p'.state = .waitingSampleProps ∧ p'.all = p.all ++ [rt] ∧
      rt.id = t.id ∧ rt.timeScale = t.timeScale ∧ rt.reader.timeOffset = t.timeOffset ∧ rt.reader.samples = t.samples.map (readSample d) := by
  obtain ⟨⟨_, e1⟩, ⟨_, e2⟩⟩ := pmp4_elst_ok t h.timeScale
  obtain ⟨boxes, r, b1, b2, b3, b4, b5, b6⟩ := pmp4_tables d t.samples (mediaDuration t) h.count h.pts hb
  rw [pmp4_timeOffset t h.timeOffset.1 h.timeOffset.2] at b6
  refine ⟨[.trak, .tkhd (t.id % 2 ^ 32), .edts, .elst, .mdia, .mdhd t.timeScale (mediaDuration t), .other, .minf, .other, .other,
      .stbl, .stsd, .codec true] ++ boxes.map Event.table, ⟨.waitingSampleProps, p.all, some ⟨t.id, t.timeScale, r⟩, true, mediaDuration t⟩, ⟨t.id, t.timeScale, r⟩, ?_, ?_, rfl, rfl, rfl, rfl,
    b6, b4⟩
  · unfold trackEvents
    rw [e1, Res.bind_ok, e2, Res.bind_ok, b1, Res.bind_ok]
  · rw [pmp4_readEvents_append]
    have h1 : readEvents [.trak, .tkhd (t.id % 2 ^ 32), .edts, .elst, .mdia, .mdhd t.timeScale (mediaDuration t), .other, .minf, .other, .other,
        .stbl, .stsd, .codec true] p = .ok ⟨.waitingSamples, p.all, some ⟨t.id, t.timeScale, {}⟩, true, mediaDuration t⟩ := by
      have hid := Nat.mod_eq_of_lt h.id
      have h0 : readEvent p .trak = .ok ⟨.waitingTkhd, p.all, some {}, true, p.trackDuration⟩ := by
        unfold readEvent
        simp only
        rw [if_neg (by rcases hp with hp | hp <;> rw [hp] <;> simp)]
      unfold readEvents
      rw [h0, Res.bind_ok, hid]
      simp [readEvents, readEvent, PReader.withCur, h.timeScale]
    rw [h1, Res.bind_ok, pmp4_readEvents_tables boxes _ ⟨t.id, t.timeScale, {}⟩ { trackDuration := mediaDuration t } r rfl rfl rfl b2 b3, b5]
    rfl

/-- What is known about a track that was read. -/
def readView (rt : RTrack) : Nat × Nat × Int × List RSample := (rt.id, rt.timeScale, rt.reader.timeOffset, rt.reader.samples)

theorem pmp4_tracks (d : Nat) (ts : List Track) :
    ∀ p : PReader, (p.state = .waitingTrak ∨ p.state = .waitingSampleProps) → (∀ t ∈ ts, Writable t) →
      (∀ t ∈ ts, ∀ sa ∈ t.samples, sa.offset + sa.payloadSize + d < 2 ^ 32) →
      ∃ evs p' rts, tracksEvents d ts = .ok evs ∧ readEvents evs p = .ok p' ∧ (p'.state = .waitingTrak ∨ p'.state = .waitingSampleProps) ∧
        p'.all = p.all ++ rts ∧ rts.map readView = ts.map fun t => (t.id, t.timeScale, t.timeOffset, t.samples.map (readSample d)) := by
  induction ts with
  | nil => intro p hp _ _; exact ⟨[], p, [], rfl, rfl, hp, by simp, rfl⟩
  | cons t ts ih =>
    intro p hp hw hb
    obtain ⟨evs, p', rt, h1, h2, h3, h4, h5, h6, h7, h8⟩ := pmp4_track d t (hw t List.mem_cons_self) (hb t List.mem_cons_self) p hp
    obtain ⟨evs2, p2, rts, i1, i2, i3, i4, i5⟩ := ih p' (Or.inr h3) (fun x hx => hw x (List.mem_cons_of_mem _ hx))
      (fun x hx => hb x (List.mem_cons_of_mem _ hx))
    refine ⟨evs ++ evs2, p2, rt :: rts, ?_, ?_, i3, ?_, ?_⟩
    · unfold tracksEvents; rw [h1, Res.bind_ok, i1, Res.bind_ok]
    · rw [pmp4_readEvents_append, h2, Res.bind_ok, i2]
    · rw [i4, h4]; simp
    · simp only [List.map_cons, i5, readView, h5, h6, h7, h8]

/-! ## Payloads -/

theorem pmp4_payload_at (l : List Sample) :
    ∀ (off : Nat) (pre : Bytes), pre.length = off + 8 → (∀ sa ∈ l, sa.payload.length = sa.payloadSize) →
      l.map (fun sa => (sa.offset, sa.payloadSize)) = chunkLocations off (l.map (·.payloadSize)) →
      ∀ sa ∈ l, ((pre ++ l.flatMap (·.payload)).drop (sa.offset + 8)).take sa.payloadSize = sa.payload ∧
        sa.offset + sa.payloadSize ≤ off + (l.map (·.payloadSize)).sum := by
  induction l with
  | nil => intro off pre _ _ _ sa h; cases h
  | cons x l ih =>
    intro off pre hpre hlen hloc sa hsa
    simp only [List.map_cons, chunkLocations, List.cons.injEq, Prod.mk.injEq] at hloc
    obtain ⟨⟨ho, _⟩, hloc⟩ := hloc
    have hx := hlen x List.mem_cons_self
    rcases List.mem_cons.mp hsa with h | h
    · subst h
      refine ⟨?_, by simp only [List.map_cons, List.sum_cons]; omega⟩
      rw [ho, ← hpre, List.drop_left, List.flatMap_cons, ← hx, List.take_left]
    · obtain ⟨h1, h2⟩ := ih (off + x.payloadSize) (pre ++ x.payload) (by rw [List.length_append, hpre, hx]; omega)
        (fun y hy => hlen y (List.mem_cons_of_mem _ hy)) hloc sa h
      refine ⟨?_, by simp only [List.map_cons, List.sum_cons]; omega⟩
      rw [List.flatMap_cons, ← List.append_assoc]
      exact h1

theorem pmp4_interleaving_mem {α : Type} {ls : List (List α)} {out : List α} (h : Interleaving ls out) :
    ∀ l ∈ ls, ∀ x ∈ l, x ∈ out := by
  induction h with
  | nil h => intro l hl x hx; rw [h l hl] at hx; cases hx
  | cons _ ih =>
    intro l hl x hx
    rcases List.mem_append.mp hl with h | h
    · exact List.mem_cons_of_mem _ (ih l (List.mem_append_left _ h) x hx)
    · rcases List.mem_cons.mp h with h | h
      · subst h
        rcases List.mem_cons.mp hx with h | h
        · subst h; exact List.mem_cons_self
        · exact List.mem_cons_of_mem _ (ih _ (List.mem_append_right _ List.mem_cons_self) x h)
      · exact List.mem_cons_of_mem _ (ih l (List.mem_append_right _ (List.mem_cons_of_mem _ h)) x hx)

theorem pmp4_interleaving_mem_rev {α : Type} {ls : List (List α)} {out : List α} (h : Interleaving ls out) :
    ∀ x ∈ out, ∃ l ∈ ls, x ∈ l := by
  induction h with
  | nil h => intro x hx; cases hx
  | cons _ ih =>
    intro x hx
    rcases List.mem_cons.mp hx with h | h
    · subst h; exact ⟨_, List.mem_append_right _ List.mem_cons_self, List.mem_cons_self⟩
    · obtain ⟨l, hl, hxl⟩ := ih x h
      rcases List.mem_append.mp hl with h | h
      · exact ⟨l, List.mem_append_left _ h, hxl⟩
      · rcases List.mem_cons.mp h with h | h
        · subst h; exact ⟨_, List.mem_append_right _ List.mem_cons_self, List.mem_cons_of_mem _ hxl⟩
        · exact ⟨l, List.mem_append_right _ (List.mem_cons_of_mem _ h), hxl⟩

/-! ## The whole presentation -/

/-- What an application sees in a track that was read from `file`: identifier, time scale, time offset and samples (duration, PTS
offset, flag, size, payload). -/
def seen (file : Bytes) (rt : RTrack) : Nat × Nat × Int × List (Nat × Int × Bool × Nat × Res Bytes) :=
  (rt.id, rt.timeScale, rt.reader.timeOffset,
    rt.reader.samples.map fun sa => (sa.duration, sa.ptsOffset, sa.isNonSync, sa.payloadSize, getPayload file sa))

/-- What an application gave, in the same form. -/
def given (t : Track) : Nat × Nat × Int × List (Nat × Int × Bool × Nat × Res Bytes) :=
  (t.id, t.timeScale, t.timeOffset,
    t.samples.map fun sa => (sa.duration, sa.ptsOffset, sa.isNonSync, sa.payloadSize, .ok sa.payload))

/-- The tracks with offsets can be written too. -/
theorem pmp4_writable_layout (tracks : List Track) (L : Layout) (hw : ∀ t ∈ tracks, Writable t)
    (h3 : L.tracks.map (fun t => { t with samples := t.samples.map unplaced }) =
      tracks.map (fun t => { t with samples := t.samples.map unplaced })) : ∀ t ∈ L.tracks, Writable t := by
  intro t ht
  have hm := List.mem_map_of_mem (f := fun t : Track => { t with samples := t.samples.map unplaced }) ht
  rw [h3] at hm
  obtain ⟨u, hu, he⟩ := List.mem_map.mp hm
  have hwu := hw u hu
  have hs : u.samples.map unplaced = t.samples.map unplaced := by have := congrArg Track.samples he; exact this
  have hmem : ∀ sa ∈ t.samples, ∃ sb ∈ u.samples, unplaced sb = unplaced sa := by
    intro sa hsa
    have := List.mem_map_of_mem (f := unplaced) hsa
    rw [← hs] at this
    exact List.mem_map.mp this
  refine ⟨?_, ?_, ?_, ?_, ?_, ?_⟩
  · have : u.id = t.id := by have := congrArg Track.id he; exact this
    rw [← this]; exact hwu.id
  · have : u.timeScale = t.timeScale := by have := congrArg Track.timeScale he; exact this
    rw [← this]; exact hwu.timeScale
  · have : u.timeOffset = t.timeOffset := by have := congrArg Track.timeOffset he; exact this
    rw [← this]; exact hwu.timeOffset
  · have := congrArg List.length hs
    simp only [List.length_map] at this
    rw [← this]; exact hwu.count
  · intro sa hsa
    obtain ⟨sb, hsb, he⟩ := hmem sa hsa
    have : sb.ptsOffset = sa.ptsOffset := by have := congrArg Sample.ptsOffset he; exact this
    rw [← this]; exact hwu.pts sb hsb
  · intro sa hsa
    obtain ⟨sb, hsb, he⟩ := hmem sa hsa
    have e1 : sb.payload = sa.payload := by have := congrArg Sample.payload he; exact this
    have e2 : sb.payloadSize = sa.payloadSize := by have := congrArg Sample.payloadSize he; exact this
    rw [← e1, ← e2]; exact hwu.payload sb hsb

theorem pmp4_payload_layout (L : Layout) (hwL : ∀ t ∈ L.tracks, Writable t) (h2 : Interleaving (L.tracks.map (·.samples)) L.sorted) :
    ∀ sa ∈ L.sorted, sa.payload.length = sa.payloadSize := by
  intro sa hsa
  obtain ⟨l, hl, hx⟩ := pmp4_interleaving_mem_rev h2 sa hsa
  obtain ⟨t, ht, rfl⟩ := List.mem_map.mp hl
  exact (hwL t ht).payload sa hx

/-- **C66.** For all tracks that can be written, whose media data fits in the file: `Marshal` succeeds, `Unmarshal` of what it writes
succeeds and restores identifiers, time scales, time offsets, and all samples in order, with their duration, PTS offset, flag, size;
and the payload of each sample, read from the file, is the one that was written. -/
theorem C66_roundtrip (header : Bytes) (tracks : List Track) (hne : tracks ≠ []) (hw : ∀ t ∈ tracks, Writable t)
    (hsize : header.length + 8 + ((tracks.flatMap (·.samples)).map (·.payloadSize)).sum < 2 ^ 32) :
    ∃ events file rts, marshal header tracks = .ok (events, file) ∧ unmarshal events = .ok rts ∧
      rts.map (seen file) = tracks.map given := by
  obtain ⟨L, h1, h2, h3, h4, h5⟩ := C48_interleaving tracks (fun t ht _ => (hw t ht).timeScale) (by omega)
  have hsorted := (pmp4_sorted_sum tracks L h2 h3).symm
  have hwL := pmp4_writable_layout tracks L hw h3
  have hpay := pmp4_payload_layout L hwL h2
  have hin : ∀ t ∈ L.tracks, ∀ sa ∈ t.samples, sa ∈ L.sorted := fun t ht sa hsa =>
    pmp4_interleaving_mem h2 t.samples (List.mem_map_of_mem ht) sa hsa
  have hat : ∀ sa ∈ L.sorted, ((marshalMdat L.dataSize L.sorted).drop (sa.offset + 8)).take sa.payloadSize = sa.payload ∧
      sa.offset + sa.payloadSize ≤ 0 + (L.sorted.map (·.payloadSize)).sum := by
    intro sa hsa
    exact pmp4_payload_at L.sorted 0 _ (by simp) hpay h4 sa hsa
  obtain ⟨evs, p', rts, t1, t2, t3, t4, t5⟩ := pmp4_tracks (header.length + 8) L.tracks ⟨.waitingTrak, [], none, false, 0⟩ (Or.inl rfl) hwL (by
    intro t ht sa hsa
    have := (hat sa (hin t ht sa hsa)).2
    omega)
  have hrne : rts ≠ [] := by
    intro h
    have e1 := congrArg List.length t5
    have e2 := congrArg List.length h3
    simp only [List.length_map, h, List.length_nil] at e1 e2
    exact hne (List.eq_nil_of_length_eq_zero (by omega))
  refine ⟨[.ftyp, .moov, .mvhd] ++ evs ++ [.other], header ++ marshalMdat L.dataSize L.sorted, rts, ?_, ?_, ?_⟩
  · unfold marshal
    rw [h1, Res.bind_ok, t1, Res.bind_ok]
  · unfold unmarshal
    have hr : readEvents ([.ftyp, .moov, .mvhd] ++ evs ++ [.other]) {} = .ok p' := by
      rw [List.append_assoc, pmp4_readEvents_append]
      have h0 : readEvents [.ftyp, .moov, .mvhd] {} = .ok ⟨.waitingTrak, [], none, false, 0⟩ := rfl
      rw [h0, Res.bind_ok, pmp4_readEvents_append, t2, Res.bind_ok]
      rfl
    rw [hr, Res.bind_ok]
    have ha : p'.all = rts := by rw [t4]; rfl
    rw [if_neg (by rcases t3 with h | h <;> rw [h] <;> simp), ha, if_neg hrne]
  · have e1 : rts.map (seen (header ++ marshalMdat L.dataSize L.sorted)) = (rts.map readView).map fun v =>
        (v.1, v.2.1, v.2.2.1, v.2.2.2.map fun sa => (sa.duration, sa.ptsOffset, sa.isNonSync, sa.payloadSize,
          getPayload (header ++ marshalMdat L.dataSize L.sorted) sa)) := by
      rw [List.map_map]; rfl
    have e2 : tracks.map given = L.tracks.map given := by
      have hg : ∀ t : Track, given t = given { t with samples := t.samples.map unplaced } := by
        intro t; unfold given; simp only [List.map_map]; rfl
      have hmap : ∀ ts : List Track, ts.map given = (ts.map fun t => { t with samples := t.samples.map unplaced }).map given := by
        intro ts
        rw [List.map_map]
        apply List.map_congr_left
        intro t _
        exact hg t
      rw [hmap tracks, hmap L.tracks, h3]
    rw [e1, t5, e2, List.map_map]
    apply List.map_congr_left
    intro t ht
    show (t.id, t.timeScale, t.timeOffset, _) = given t
    unfold given
    congr 3
    rw [List.map_map]
    apply List.map_congr_left
    intro sa hsa
    have hm := hin t ht sa hsa
    show (sa.duration, sa.ptsOffset, sa.isNonSync, sa.payloadSize, getPayload _ (readSample _ sa)) = _
    congr 4
    unfold getPayload readSample
    simp only
    have hd : ((header ++ marshalMdat L.dataSize L.sorted).drop (sa.offset + (header.length + 8))).take sa.payloadSize = sa.payload := by
      rw [show sa.offset + (header.length + 8) = header.length + (sa.offset + 8) by omega, ← List.drop_drop, List.drop_left]
      exact (hat sa hm).1
    rw [hd, if_pos (hpay sa hm)]

/-- **C66.** The size in the header of `mdat` is the size of the box: the file ends with it. -/
theorem C66_mdat (header : Bytes) (tracks : List Track) (hw : ∀ t ∈ tracks, Writable t)
    (hsize : header.length + 8 + ((tracks.flatMap (·.samples)).map (·.payloadSize)).sum < 2 ^ 32) (events : List Event) (file : Bytes)
    (h : marshal header tracks = .ok (events, file)) :
    ∃ (a b c d : UInt8) (data : Bytes), file = header ++ [a, b, c, d, 0x6D, 0x64, 0x61, 0x74] ++ data ∧
      a.toNat * 2 ^ 24 + b.toNat * 2 ^ 16 + c.toNat * 2 ^ 8 + d.toNat = 8 + data.length ∧
      data.length = ((tracks.flatMap (·.samples)).map (·.payloadSize)).sum := by
  obtain ⟨L, h1, h2, h3, h4, h5⟩ := C48_interleaving tracks (fun t ht _ => (hw t ht).timeScale) (by omega)
  have hsorted := (pmp4_sorted_sum tracks L h2 h3).symm
  have hpay := pmp4_payload_layout L (pmp4_writable_layout tracks L hw h3) h2
  have hlen : (L.sorted.flatMap (·.payload)).length = (L.sorted.map (·.payloadSize)).sum := by
    rw [List.length_flatMap]
    congr 1
    exact List.map_congr_left hpay
  unfold marshal at h
  rw [h1, Res.bind_ok] at h
  obtain ⟨evs, _, h⟩ := Res.bind_eq_ok.mp h
  cases h
  have hn : (8 + L.dataSize) % 2 ^ 32 = 8 + (L.sorted.flatMap (·.payload)).length := by
    rw [hlen, hsorted, h5, Nat.mod_eq_of_lt (by omega)]
  have hlt : 8 + (L.sorted.flatMap (·.payload)).length < 2 ^ 32 := by omega
  refine ⟨UInt8.ofNat ((8 + L.dataSize) % 2 ^ 32 / 2 ^ 24), UInt8.ofNat ((8 + L.dataSize) % 2 ^ 32 / 2 ^ 16),
    UInt8.ofNat ((8 + L.dataSize) % 2 ^ 32 / 2 ^ 8), UInt8.ofNat ((8 + L.dataSize) % 2 ^ 32), L.sorted.flatMap (·.payload), ?_, ?_, by omega⟩
  · unfold marshalMdat
    simp only [List.append_assoc, List.cons_append, List.nil_append]
  · rw [hn]
    generalize (L.sorted.flatMap (·.payload)).length = n at *
    simp only [UInt8.toNat_ofNat']
    omega

example : (∀ t ∈ exampleTracks, Writable t) ∧ ([1, 2, 3] : Bytes).length + 8 + ((exampleTracks.flatMap (·.samples)).map (·.payloadSize)).sum < 2 ^ 32 := by
  refine ⟨?_, by decide⟩
  intro t ht
  have hm : 2 ≤ maxSamples ∧ 3 ≤ maxSamples := by decide
  simp only [exampleTracks, List.mem_cons, List.not_mem_nil, or_false] at ht
  rcases ht with rfl | rfl
  · exact ⟨by decide, by decide, by decide, hm.1, by decide, by decide⟩
  · exact ⟨by decide, by decide, by decide, hm.2, by decide, by decide⟩

end Verif.Props
