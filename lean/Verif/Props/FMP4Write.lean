import Verif.Lemmas.FMP4

/-!
# C49: fMP4 parts

`Part.Marshal` writes the fragment that the standard describes, with data offsets that point at the samples.
-/

namespace Verif.Props
open FMP4 MP4Writer
open Spec (beBytes)
open Spec.FMP4
open ByteR (beBytes_length)
open Bits (wrapInt32)

theorem fmp4_be4_mod (v : Nat) : beBytes 4 (v % 2 ^ 32) = beBytes 4 v := by
  simp only [beBytes, List.cons.injEq, and_true]
  refine ⟨?_, ?_, ?_, ?_⟩ <;>
    · apply UInt8.toNat_inj.mp
      simp only [UInt8.toNat_ofNat']
      omega

/-- The flags of a run, from the two facts that they depend on. -/
def flagsOf (a b : Bool) : Nat := 0x301 + (if a then 0x400 else 0) + (if b then 0x800 else 0)

theorem fmp4_trunFlags (l : List Sample) :
    ∀ a b, trunFlags l (flagsOf a b) = flagsOf (a || l.any (·.isNonSync)) (b || l.any (·.ptsOffset ≠ 0)) := by
  induction l with
  | nil => intro a b; simp [trunFlags]
  | cons sa l ih =>
    intro a b
    unfold trunFlags
    have h1 : (if sa.isNonSync then flagsOf a b ||| 0x400 else flagsOf a b) = flagsOf (a || sa.isNonSync) b := by
      cases sa.isNonSync <;> cases a <;> cases b <;> rfl
    have h2 : ∀ c, (if sa.ptsOffset ≠ 0 then flagsOf c b ||| 0x800 else flagsOf c b) = flagsOf c (b || decide (sa.ptsOffset ≠ 0)) := by
      intro c
      by_cases h : sa.ptsOffset = 0
      · simp [h]
      · simp only [ne_eq, h, not_false_eq_true, if_true, decide_true, Bool.or_true]
        cases c <;> cases b <;> rfl
    simp only [h1, h2]
    rw [ih]
    simp only [List.any_cons, Bool.or_assoc]

theorem fmp4_entry (a b : Bool) (sa : Sample) : encodeEntry (flagsOf a b) (trunEntry sa) = runRow a b sa := by
  have h1 : hasFlag (flagsOf a b) 0x100 = true := by cases a <;> cases b <;> rfl
  have h2 : hasFlag (flagsOf a b) 0x200 = true := by cases a <;> cases b <;> rfl
  have h3 : hasFlag (flagsOf a b) 0x400 = a := by cases a <;> cases b <;> rfl
  have h4 : hasFlag (flagsOf a b) 0x800 = b := by cases a <;> cases b <;> rfl
  unfold encodeEntry runRow trunEntry
  simp only [h1, h2, h3, h4, if_true, fmp4_be4_mod]
  rfl

/-- The run that is written is that of the standard. -/
theorem fmp4_run (samples : List Sample) (d : Int) : box typTrun (encodeTrun { makeTrun samples with dataOffset := d }) = run samples d := by
  have hf : (makeTrun samples).flags = flagsOf (samples.any (·.isNonSync)) (samples.any (·.ptsOffset ≠ 0)) := by
    show trunFlags samples (flagsOf false false) = _
    rw [fmp4_trunFlags]; simp
  unfold run fullBox encodeTrun
  simp only
  rw [hf]
  have h1 : ∀ a b, hasFlag (flagsOf a b) 1 = true := by intro a b; cases a <;> cases b <;> rfl
  have h4 : ∀ a b, hasFlag (flagsOf a b) 4 = false := by intro a b; cases a <;> cases b <;> rfl
  rw [h1, h4]
  have hrows : (makeTrun samples).entries.flatMap (encodeEntry (flagsOf (samples.any (·.isNonSync)) (samples.any (·.ptsOffset ≠ 0)))) =
      samples.flatMap (runRow (samples.any (·.isNonSync)) (samples.any (·.ptsOffset ≠ 0))) := by
    show (samples.map trunEntry).flatMap _ = _
    rw [List.flatMap_map]
    congr 1
    funext sa
    exact fmp4_entry _ _ sa
  have hcount : beBytes 4 (makeTrun samples).sampleCount = beBytes 4 samples.length := fmp4_be4_mod _
  rw [hrows, hcount]
  simp only [Bool.false_eq_true, if_false, if_true, List.append_nil, List.append_assoc]
  rfl

theorem fmp4_run_length (samples : List Sample) (d d' : Int) : (run samples d).length = (run samples d').length := by
  unfold run fullBox beSigned box
  simp only [List.length_append, beBytes_length]

theorem fmp4_traf_length (t : PartTrack) (d d' : Int) : (traf t d).length = (traf t d').length := by
  unfold traf
  simp only [box_length _ _ (show ([0x74, 0x72, 0x61, 0x66] : Bytes).length = 4 from rfl), List.length_append, fmp4_run_length t.samples d d']

/-- The boxes of a track before the run. -/
def trafHead (t : PartTrack) : Bytes :=
  fullBox [0x74, 0x66, 0x68, 0x64] 0 0x20000 (beBytes 4 t.id) ++ fullBox [0x74, 0x66, 0x64, 0x74] 1 0 (beBytes 8 t.baseTime)

theorem fmp4_trafHead_length (t : PartTrack) : (trafHead t).length = 36 := by
  unfold trafHead fullBox
  rw [List.length_append, box_length _ _ rfl, box_length _ _ rfl]
  simp [beBytes_length]

theorem fmp4_marshalTrack (b : Bytes) (t : PartTrack) (h : (traf t 0).length < 2 ^ 32) :
    marshalTrack (full b) t = .ok (makeTrun t.samples, ((b.length + 44 : Nat) : Int), full (b ++ traf t 0)) := by
  have htf : box typTfhd (encodeTfhd (t.id % 2 ^ 32)) = fullBox [0x74, 0x66, 0x68, 0x64] 0 0x20000 (beBytes 4 t.id) := by
    unfold encodeTfhd; rw [fmp4_be4_mod]; rfl
  have htd : box typTfdt (encodeTfdt t.baseTime) = fullBox [0x74, 0x66, 0x64, 0x74] 1 0 (beBytes 8 t.baseTime) := rfl
  have htr : box typTrun (encodeTrun (makeTrun t.samples)) = run t.samples 0 := fmp4_run t.samples 0
  have hl : (traf t 0).length = 8 + (36 + (run t.samples 0).length) := by
    unfold traf
    rw [box_length _ _ rfl, List.length_append]
    congr 2
  have hrl : (run t.samples 0).length = 8 + (encodeTrun (makeTrun t.samples)).length := by rw [← htr, box_length _ _ rfl]
  unfold marshalTrack
  rw [writeBoxStart_full, Res.bind_ok]
  simp only
  rw [writeBox_full _ _ _ rfl (by unfold encodeTfhd encodeFull; simp [beBytes_length]), Res.bind_ok]
  simp only
  rw [writeBox_full _ _ _ rfl (by unfold encodeTfdt encodeFull; simp [beBytes_length]), Res.bind_ok]
  simp only
  rw [writeBox_full _ _ _ rfl (by omega), Res.bind_ok]
  simp only
  rw [htf, htd, htr]
  have e : b ++ (beBytes 4 0 ++ typTraf ++ []) ++ fullBox [0x74, 0x66, 0x68, 0x64] 0 0x20000 (beBytes 4 t.id) ++
      fullBox [0x74, 0x66, 0x64, 0x74] 1 0 (beBytes 8 t.baseTime) ++ run t.samples 0 =
      b ++ (beBytes 4 0 ++ typTraf ++ (trafHead t ++ run t.samples 0)) := by
    unfold trafHead; simp
  rw [e, writeBoxEnd_full _ _ _ rfl (by rw [List.length_append, fmp4_trafHead_length]; omega), Res.bind_ok]
  congr 3
  unfold fullBox
  simp only [List.length_append, box_length _ _ (show ([0x74, 0x66, 0x68, 0x64] : Bytes).length = 4 from rfl),
    box_length _ _ (show ([0x74, 0x66, 0x64, 0x74] : Bytes).length = 4 from rfl), beBytes_length, List.length_nil]
  have : typTraf.length = 4 := rfl
  omega

/-- What `marshalTracks` keeps. -/
def pendings : Nat → Nat → List PartTrack → List Pending
  | _, _, [] => []
  | off, n, t :: ts => ⟨makeTrun t.samples, ((off + 44 : Nat) : Int), n⟩ :: pendings (off + (traf t 0).length) (n + (trackData t).length) ts

theorem fmp4_addSizes (l : List Sample) : ∀ n, addSizes l n = n + (l.flatMap (·.payload)).length := by
  induction l with
  | nil => intro n; rfl
  | cons sa l ih => intro n; unfold addSizes; rw [ih, List.flatMap_cons, List.length_append]; omega

theorem fmp4_marshalTracks (ts : List PartTrack) :
    ∀ (n : Nat) (b : Bytes), ((ts.map (traf · 0)).flatten).length < 2 ^ 32 →
      marshalTracks ts n (full b) = .ok (pendings b.length n ts, n + (ts.flatMap trackData).length, full (b ++ (ts.map (traf · 0)).flatten)) := by
  induction ts with
  | nil => intro n b _; simp [marshalTracks, pendings]
  | cons t ts ih =>
    intro n b h
    simp only [List.map_cons, List.flatten_cons, List.length_append] at h
    unfold marshalTracks
    rw [fmp4_marshalTrack b t (by omega), Res.bind_ok]
    simp only
    rw [ih _ _ (by omega), Res.bind_ok]
    simp only [pendings, List.map_cons, List.flatten_cons, List.flatMap_cons, List.length_append, fmp4_addSizes, List.append_assoc]
    rw [Nat.add_assoc]
    rfl

/-- The data offsets that are written, from the size `n` of the data of previous tracks. -/
def writtenOffsets (delta : Int) : Nat → List PartTrack → List Int
  | _, [] => []
  | n, t :: ts => wrapInt32 (n + delta) :: writtenOffsets delta (n + (trackData t).length) ts

theorem fmp4_fixTruns (delta : Int) (ts : List PartTrack) :
    ∀ (n : Nat) (a c : Bytes), (∀ t ∈ ts, (traf t 0).length < 2 ^ 32) →
      fixTruns delta (pendings a.length n ts) (full (a ++ ((ts.map (traf · 0)).flatten ++ c))) =
        .ok (full (a ++ ((List.zipWith traf ts (writtenOffsets delta n ts)).flatten ++ c))) := by
  induction ts with
  | nil => intro n a c _; rfl
  | cons t ts ih =>
    intro n a c h
    have hsz := h t List.mem_cons_self
    have hrun : ∀ d, (run t.samples d).length = 8 + (encodeTrun ({ makeTrun t.samples with dataOffset := d })).length := by
      intro d; rw [← fmp4_run, box_length _ _ rfl]
    have hl : (traf t 0).length = 8 + (36 + (run t.samples 0).length) := by
      unfold traf
      rw [box_length _ _ rfl, List.length_append]
      congr 2
    have hlr := fmp4_run_length t.samples (wrapInt32 (n + delta)) 0
    unfold pendings fixTruns
    simp only [writtenOffsets, List.map_cons, List.flatten_cons, List.zipWith_cons_cons]
    -- the box of the run
    have hpre : ∀ d, traf t d = (beBytes 4 (8 + (36 + (run t.samples 0).length)) ++ typTraf ++ trafHead t) ++ run t.samples d := by
      intro d
      unfold traf box
      have : (fullBox [0x74, 0x66, 0x68, 0x64] 0 0x20000 (beBytes 4 t.id) ++ fullBox [0x74, 0x66, 0x64, 0x74] 1 0 (beBytes 8 t.baseTime) ++
          run t.samples d).length = 36 + (run t.samples 0).length := by
        rw [List.length_append, fmp4_run_length t.samples d 0]
        congr 1
      rw [this]
      unfold trafHead
      simp only [List.append_assoc]
      rfl
    have hplen : (a ++ (beBytes 4 (8 + (36 + (run t.samples 0).length)) ++ typTraf ++ trafHead t)).length = a.length + 44 := by
      simp only [List.length_append, beBytes_length, fmp4_trafHead_length]
      have : typTraf.length = 4 := rfl
      omega
    have e1 : a ++ (traf t 0 ++ (ts.map (traf · 0)).flatten ++ c) =
        (a ++ (beBytes 4 (8 + (36 + (run t.samples 0).length)) ++ typTraf ++ trafHead t)) ++
          (box typTrun (encodeTrun ({ makeTrun t.samples with dataOffset := 0 })) ++ ((ts.map (traf · 0)).flatten ++ c)) := by
      rw [hpre 0, fmp4_run]
      simp only [List.append_assoc]
    rw [e1, ← hplen, rewriteBox_full _ _ _ _ _ rfl (by
      have h1 := hrun 0; have h2 := hrun (wrapInt32 (n + delta)); dsimp only at h1 h2 ⊢; omega) (by
      have h2 := hrun (wrapInt32 (n + delta)); dsimp only at h2 ⊢; omega), Res.bind_ok, fmp4_run]
    have e2 : (a ++ (beBytes 4 (8 + (36 + (run t.samples 0).length)) ++ typTraf ++ trafHead t)) ++
          (run t.samples (wrapInt32 (n + delta)) ++ ((ts.map (traf · 0)).flatten ++ c)) =
        (a ++ traf t (wrapInt32 (n + delta))) ++ ((ts.map (traf · 0)).flatten ++ c) := by
      rw [hpre (wrapInt32 (n + delta))]
      simp only [List.append_assoc]
    rw [e2]
    have e3 : a.length + (traf t 0).length = (a ++ traf t (wrapInt32 (n + delta))).length := by
      rw [List.length_append, fmp4_traf_length t 0 (wrapInt32 (n + delta))]
    rw [e3, ih _ _ _ (fun x hx => h x (List.mem_cons_of_mem _ hx))]
    simp only [List.append_assoc]

theorem fmp4_copyPayloads (l : List Sample) :
    ∀ (a : Bytes) (m : Nat), (l.flatMap (·.payload)).length ≤ m →
      copyPayloads l a.length (a ++ List.replicate m 0) = .ok ((a ++ l.flatMap (·.payload)).length,
        a ++ l.flatMap (·.payload) ++ List.replicate (m - (l.flatMap (·.payload)).length) 0) := by
  induction l with
  | nil => intro a m _; simp [copyPayloads]
  | cons sa l ih =>
    intro a m h
    rw [List.flatMap_cons, List.length_append] at h
    unfold copyPayloads
    rw [copyAt_append a m sa.payload a.length rfl (by omega), Res.bind_ok]
    simp only
    rw [← List.length_append, ih _ _ (by omega)]
    simp only [List.flatMap_cons, List.append_assoc, List.length_append]
    rw [Nat.sub_sub]

theorem fmp4_copyTracks (ts : List PartTrack) :
    ∀ (a : Bytes) (m : Nat), (ts.flatMap trackData).length ≤ m →
      copyTracks ts a.length (a ++ List.replicate m 0) = .ok ((a ++ ts.flatMap trackData).length,
        a ++ ts.flatMap trackData ++ List.replicate (m - (ts.flatMap trackData).length) 0) := by
  induction ts with
  | nil => intro a m _; simp [copyTracks]
  | cons t ts ih =>
    intro a m h
    rw [List.flatMap_cons, List.length_append] at h
    unfold copyTracks
    rw [fmp4_copyPayloads t.samples a m (by unfold trackData at h; omega), Res.bind_ok]
    simp only
    rw [ih _ _ (by show _ ≤ m - (trackData t).length; omega)]
    simp only [List.flatMap_cons, List.append_assoc, List.length_append, trackData]
    rw [Nat.sub_sub]

/-- The size of the fragment of a part: it does not depend on data offsets. -/
def moofSize (p : Part) : Nat := (moof p (p.tracks.map fun _ => 0)).length

theorem fmp4_flatten_length (ts : List PartTrack) :
    ∀ offs : List Int, offs.length = ts.length → (List.zipWith traf ts offs).flatten.length = ((ts.map (traf · 0)).flatten).length := by
  induction ts with
  | nil => intro offs h; rfl
  | cons t ts ih =>
    intro offs h
    cases offs with
    | nil => cases h
    | cons o offs =>
      simp only [List.zipWith_cons_cons, List.map_cons, List.flatten_cons, List.length_append]
      rw [ih offs (by simpa using h), fmp4_traf_length t o 0]

theorem fmp4_zip_zero (ts : List PartTrack) : List.zipWith traf ts (ts.map fun _ => 0) = ts.map (traf · 0) := by
  induction ts with
  | nil => rfl
  | cons t ts ih => simp only [List.map_cons, List.zipWith_cons_cons, ih]

theorem fmp4_moof_length (p : Part) (offs : List Int) (h : offs.length = p.tracks.length) : (moof p offs).length = moofSize p := by
  unfold moofSize moof
  rw [box_length _ _ rfl, box_length _ _ rfl, List.length_append, List.length_append, fmp4_zip_zero, fmp4_flatten_length _ _ h]

theorem fmp4_writtenOffsets_length (delta : Int) (ts : List PartTrack) : ∀ n, (writtenOffsets delta n ts).length = ts.length := by
  induction ts with
  | nil => intro n; rfl
  | cons t ts ih => intro n; simp [writtenOffsets, ih]

theorem fmp4_mem_length (ts : List PartTrack) : ∀ t ∈ ts, (traf t 0).length ≤ ((ts.map (traf · 0)).flatten).length := by
  induction ts with
  | nil => intro t h; cases h
  | cons x ts ih =>
    intro t h
    simp only [List.map_cons, List.flatten_cons, List.length_append]
    rcases List.mem_cons.mp h with h | h
    · subst h; omega
    · have := ih t h; omega

/-- What `Part.Marshal` writes at the end of a file. -/
theorem fmp4_marshalPart (b : Bytes) (p : Part) (h : moofSize p + (mdat p).length < 2 ^ 32) :
    marshalPart (full b) p = .ok (full (b ++ (moof p (writtenOffsets (moofSize p + 8 : Nat) 0 p.tracks) ++ mdat p))) := by
  have hm : moofSize p = 8 + (16 + ((p.tracks.map (traf · 0)).flatten).length) := by
    unfold moofSize moof
    rw [box_length _ _ rfl, List.length_append, fmp4_zip_zero]
    have : (fullBox [0x6D, 0x66, 0x68, 0x64] 0 0 (beBytes 4 p.sequenceNumber)).length = 16 := by
      unfold fullBox; rw [box_length _ _ rfl]; simp [beBytes_length]
    rw [this]
  have hmdat : (mdat p).length = 8 + (p.tracks.flatMap trackData).length := by unfold mdat; rw [box_length _ _ rfl]
  have hmf : box typMfhd (encodeMfhd p.sequenceNumber) = fullBox [0x6D, 0x66, 0x68, 0x64] 0 0 (beBytes 4 p.sequenceNumber) := rfl
  have hmfl : (fullBox [0x6D, 0x66, 0x68, 0x64] 0 0 (beBytes 4 p.sequenceNumber)).length = 16 := by
    unfold fullBox; rw [box_length _ _ rfl]; simp [beBytes_length]
  unfold marshalPart
  rw [writeBoxStart_full, Res.bind_ok]
  simp only
  rw [writeBox_full _ _ _ rfl (by unfold encodeMfhd encodeFull; simp [beBytes_length]), Res.bind_ok]
  simp only
  rw [hmf, fmp4_marshalTracks _ _ _ (by omega), Res.bind_ok]
  simp only
  have e1 : b ++ (beBytes 4 0 ++ typMoof ++ []) ++ fullBox [0x6D, 0x66, 0x68, 0x64] 0 0 (beBytes 4 p.sequenceNumber) ++
      (p.tracks.map (traf · 0)).flatten = b ++ (beBytes 4 0 ++ typMoof ++
        (fullBox [0x6D, 0x66, 0x68, 0x64] 0 0 (beBytes 4 p.sequenceNumber) ++ (p.tracks.map (traf · 0)).flatten)) := by simp
  rw [e1, writeBoxEnd_full _ _ _ rfl (by rw [List.length_append, hmfl]; omega), Res.bind_ok]
  have hcopy := fmp4_copyTracks p.tracks [] (0 + (p.tracks.flatMap trackData).length) (by omega)
  simp only [List.nil_append, List.length_nil, Nat.zero_add, Nat.sub_self, List.replicate_zero, List.append_nil] at hcopy
  unfold makeBytes
  rw [Nat.zero_add, hcopy, Res.bind_ok]
  simp only
  rw [writeBox_full _ _ _ rfl (by omega), Res.bind_ok]
  simp only
  have hbox : box typMoof (fullBox [0x6D, 0x66, 0x68, 0x64] 0 0 (beBytes 4 p.sequenceNumber) ++ (p.tracks.map (traf · 0)).flatten) =
      moof p (p.tracks.map fun _ => 0) := by unfold moof; rw [fmp4_zip_zero]; rfl
  have hdelta : ((b ++ box typMoof (fullBox [0x6D, 0x66, 0x68, 0x64] 0 0 (beBytes 4 p.sequenceNumber) ++
      (p.tracks.map (traf · 0)).flatten)).length : Int) - (b.length : Int) + 8 = ((moofSize p + 8 : Nat) : Int) := by
    rw [hbox, List.length_append]; unfold moofSize; omega
  rw [hdelta]
  -- the prefix before the fragments of tracks
  have hhead : ∀ offs : List Int, offs.length = p.tracks.length →
      moof p offs = (beBytes 4 (moofSize p) ++ typMoof ++ fullBox [0x6D, 0x66, 0x68, 0x64] 0 0 (beBytes 4 p.sequenceNumber)) ++
        (List.zipWith traf p.tracks offs).flatten := by
    intro offs ho
    unfold moof box
    rw [List.length_append, hmfl, fmp4_flatten_length _ _ ho, ← hm]
    simp only [List.append_assoc]
    rfl
  have e2 : b ++ box typMoof (fullBox [0x6D, 0x66, 0x68, 0x64] 0 0 (beBytes 4 p.sequenceNumber) ++ (p.tracks.map (traf · 0)).flatten) ++
      box typMdat (p.tracks.flatMap trackData) =
      (b ++ (beBytes 4 (moofSize p) ++ typMoof ++ fullBox [0x6D, 0x66, 0x68, 0x64] 0 0 (beBytes 4 p.sequenceNumber))) ++
        ((p.tracks.map (traf · 0)).flatten ++ mdat p) := by
    rw [hbox, hhead _ (by simp), fmp4_zip_zero]
    simp only [List.append_assoc]
    rfl
  have e3 : (b ++ (beBytes 4 0 ++ typMoof ++ []) ++ fullBox [0x6D, 0x66, 0x68, 0x64] 0 0 (beBytes 4 p.sequenceNumber)).length =
      (b ++ (beBytes 4 (moofSize p) ++ typMoof ++ fullBox [0x6D, 0x66, 0x68, 0x64] 0 0 (beBytes 4 p.sequenceNumber))).length := by
    simp only [List.length_append, beBytes_length, List.length_nil]; omega
  rw [e2, e3, fmp4_fixTruns _ _ _ _ _ (fun t ht => by have := fmp4_mem_length _ t ht; omega),
    hhead _ (fmp4_writtenOffsets_length _ _ _)]
  simp only [List.append_assoc]

theorem fmp4_split (l : List Sample) : ∀ c, split (l.map (·.payload.length)) (l.flatMap (·.payload) ++ c) = l.map (·.payload) := by
  induction l with
  | nil => intro c; rfl
  | cons sa l ih =>
    intro c
    simp only [List.map_cons, List.flatMap_cons, split, List.append_assoc, List.take_left, List.drop_left, ih]

/-- Where the data of each track is. -/
def trueOffsets (delta : Nat) : Nat → List PartTrack → List Nat
  | _, [] => []
  | n, t :: ts => (n + delta) :: trueOffsets delta (n + (trackData t).length) ts

theorem fmp4_wrap_small (n : Nat) (h : n < 2 ^ 31) : wrapInt32 n = n := by
  unfold wrapInt32
  omega

theorem fmp4_offsets_small (delta : Nat) (ts : List PartTrack) :
    ∀ n, n + (ts.flatMap trackData).length + delta < 2 ^ 31 →
      writtenOffsets delta n ts = (trueOffsets delta n ts).map Int.ofNat := by
  induction ts with
  | nil => intro n _; rfl
  | cons t ts ih =>
    intro n h
    rw [List.flatMap_cons, List.length_append] at h
    unfold writtenOffsets trueOffsets
    rw [ih _ (by omega), List.map_cons]
    have hw := fmp4_wrap_small (n + delta) (by omega)
    rw [Int.natCast_add] at hw
    rw [hw]
    rfl

theorem fmp4_trueOffsets_get (ts : List PartTrack) :
    ∀ (i : Nat) (_ : i < ts.length) (delta n : Nat), (trueOffsets delta n ts)[i]? = some (n + ((ts.take i).flatMap trackData).length + delta) := by
  induction ts with
  | nil => intro i hi; cases hi
  | cons t ts ih =>
    intro i hi delta n
    cases i with
    | zero => simp [trueOffsets]
    | succ i =>
      simp only [trueOffsets, List.getElem?_cons_succ, List.take_succ_cons, List.flatMap_cons, List.length_append]
      rw [ih i (by simpa using hi)]
      congr 1
      omega

theorem fmp4_trueOffsets_length (ts : List PartTrack) (delta : Nat) : ∀ n, (trueOffsets delta n ts).length = ts.length := by
  induction ts with
  | nil => intro n; rfl
  | cons t ts ih => intro n; simp [trueOffsets, ih]

/-- The data of a track is at the given place of the media data. -/
theorem fmp4_data_at (ts : List PartTrack) (i : Nat) (hi : i < ts.length) :
    (ts.flatMap trackData).drop ((ts.take i).flatMap trackData).length = trackData ts[i] ++ (ts.drop (i + 1)).flatMap trackData := by
  have e : ts.flatMap trackData = (ts.take i).flatMap trackData ++ (trackData ts[i] ++ (ts.drop (i + 1)).flatMap trackData) := by
    rw [← List.flatMap_cons, ← List.drop_eq_getElem_cons hi, ← List.flatMap_append, List.take_append_drop]
  rw [e, List.drop_left]

/-- C49: for every part that takes less than 2^31 bytes, `Part.Marshal` appends to the file the fragment of the standard, in which
the data offset of every run is the position, relative to `moof`, of bytes that the sizes of the run split in the payloads of
samples. What is missing is larger parts, where the offset does not fit. -/
theorem C49_part_partial (b : Bytes) (p : Part) (h : (moof p (p.tracks.map fun _ => 0)).length + (mdat p).length < 2 ^ 31) :
    ∃ offs : List Nat,
      marshalPart (full b) p = .ok (full (b ++ (moof p (offs.map Int.ofNat) ++ mdat p))) ∧
      offs.length = p.tracks.length ∧
      ∀ i (hi : i < p.tracks.length), ∃ off, offs[i]? = some off ∧
        split (p.tracks[i].samples.map (·.payload.length)) ((moof p (offs.map Int.ofNat) ++ mdat p).drop off) =
          p.tracks[i].samples.map (·.payload) := by
  have hmdat : (mdat p).length = 8 + (p.tracks.flatMap trackData).length := by unfold mdat; rw [box_length _ _ rfl]
  have hs : moofSize p = (moof p (p.tracks.map fun _ => 0)).length := rfl
  refine ⟨trueOffsets (moofSize p + 8) 0 p.tracks, ?_, fmp4_trueOffsets_length _ _ _, ?_⟩
  · rw [fmp4_marshalPart b p (by omega), fmp4_offsets_small _ _ _ (by omega)]
  · intro i hi
    refine ⟨_, fmp4_trueOffsets_get p.tracks i hi _ _, ?_⟩
    have hl : (moof p ((trueOffsets (moofSize p + 8) 0 p.tracks).map Int.ofNat)).length = moofSize p :=
      fmp4_moof_length p _ (by rw [List.length_map, fmp4_trueOffsets_length])
    have hd : (mdat p).drop (8 + ((p.tracks.take i).flatMap trackData).length) =
        trackData p.tracks[i] ++ (p.tracks.drop (i + 1)).flatMap trackData := by
      rw [← fmp4_data_at p.tracks i hi, ← List.drop_drop]
      congr 1
    rw [show 0 + ((p.tracks.take i).flatMap trackData).length + (moofSize p + 8) =
      (moof p ((trueOffsets (moofSize p + 8) 0 p.tracks).map Int.ofNat)).length + (8 + ((p.tracks.take i).flatMap trackData).length) by
        rw [hl]; omega, ← List.drop_drop, List.drop_left, hd]
    exact fmp4_split _ _

/-- Two tracks: the first has samples of 2 and of 1 byte, the second has one that is not a sync sample. -/
def examplePart : Part :=
  { sequenceNumber := 3, tracks := [
    { id := 1, baseTime := 90000, samples := [{ duration := 3000, payload := [1, 2] }, { duration := 3000, ptsOffset := -5, payload := [3] }] },
    { id := 2, baseTime := 48000, samples := [{ duration := 1024, isNonSync := true, payload := [4, 5, 6, 7] }] }] }

example : (moof examplePart (examplePart.tracks.map fun _ => 0)).length + (mdat examplePart).length < 2 ^ 31 := by decide +kernel

example : marshalPart (full []) examplePart =
    .ok (full (moof examplePart [196, 199] ++ mdat examplePart)) := by decide +kernel

/-- A part whose first track has one sample of `n` bytes. -/
def hugePart (n : Nat) : Part :=
  { tracks := [{ samples := [{ payload := List.replicate n 0 }] }, { samples := [{ payload := [1] }] }] }

theorem fmp4_huge_data (n : Nat) : (trackData { samples := [{ payload := List.replicate n 0 }] }).length = n := by
  unfold trackData
  simp only [List.flatMap_cons, List.flatMap_nil, List.append_nil, List.length_replicate]

theorem fmp4_huge_moof (n : Nat) : moofSize (hugePart n) = 168 := by
  unfold moofSize hugePart moof
  rw [box_length _ _ rfl, List.length_append]
  simp only [List.map_cons, List.map_nil, List.zipWith_cons_cons, List.zipWith_nil_left, List.flatten_cons, List.flatten_nil, List.append_nil,
    List.length_append]
  unfold traf
  simp only [box_length _ _ (show ([0x74, 0x72, 0x61, 0x66] : Bytes).length = 4 from rfl), List.length_append]
  unfold run fullBox
  simp only [box, List.length_append, beBytes_length, beSigned, List.flatMap_cons, List.flatMap_nil, runRow, List.any_cons, List.any_nil,
    List.append_nil]
  rfl

theorem fmp4_huge (n : Nat) (h : n < 2 ^ 31 + 1) :
    marshalPart (full []) (hugePart n) = .ok (full (moof (hugePart n) [176, wrapInt32 ((n + 176 : Nat))] ++ mdat (hugePart n))) := by
  have hm : (mdat (hugePart n)).length = 8 + (n + 1) := by
    unfold mdat
    rw [box_length _ _ rfl]
    unfold hugePart
    simp only [List.flatMap_cons, List.flatMap_nil, List.append_nil, List.length_append]
    rw [fmp4_huge_data]
    rfl
  have := fmp4_marshalPart [] (hugePart n) (by rw [fmp4_huge_moof, hm]; omega)
  rw [List.nil_append, fmp4_huge_moof] at this
  rw [this]
  have e : writtenOffsets ((168 + 8 : Nat) : Int) 0 (hugePart n).tracks = [176, wrapInt32 ((n + 176 : Nat))] := by
    unfold hugePart
    simp only [writtenOffsets]
    rw [fmp4_huge_data, Nat.zero_add]
    rfl
  rw [e]

/-- C49 is false of larger parts: `int32` of the offset wraps around, and a negative data offset is written for the second track,
which points before the fragment. No error is returned. -/
theorem C49_huge_false :
    ∃ (p : Part) (off off' : Int), marshalPart (full []) p = .ok (full (moof p [off, off'] ++ mdat p)) ∧ p.tracks.length = 2 ∧ off' < 0 :=
  ⟨hugePart (2 ^ 31), 176, wrapInt32 ((2 ^ 31 + 176 : Nat)), fmp4_huge (2 ^ 31) (by decide), rfl, by decide⟩

end Verif.Props
