import Verif.Lemmas.CodecRecords
import Verif.Props.PMP4FileWrite

/-!
# C85: sample entries and configuration records of the codecs

What `WriteCodecBoxes` writes for every codec is compared with the records of the standards (Spec/CodecRecords.lean).
-/

namespace Verif.Props
open MP4Box MP4Codec
open Records
open Spec (bitsOf natOfBits bitsOfNat bitsOfNat_mod)
open Spec.Records (Carries Fields fourcc field)
open BitM (Sat)

/-- The widths of fields sum up to whole bytes. -/
macro "record_whole" : tactic => `(tactic| simp [widths])

/-- The values of fields fit. -/
macro "record_fits" : tactic =>
  `(tactic| (simp only [List.forall_mem_cons, List.not_mem_nil, false_implies, implies_true, and_true, List.cons_append, List.nil_append]; omega))

/-- What is written for a codec: type and payload of the sample entry, type and payload of the configuration box. -/
structure RecordWritten (trackID : Int) (avg max : Nat) (c : Codec) (typ entry ctyp config : Bytes) : Prop where
  filled : ∃ info, fill (some c) = .ok info ∧ sampleEntry info c = .ok (typ, entry) ∧ configBox trackID info avg max c = .ok (ctyp, config)

/-- What is written, computed. -/
def recordOf (trackID : Int) (avg max : Nat) (c : Codec) : Res ((Bytes × Bytes) × (Bytes × Bytes)) := do
  let info ← fill (some c)
  let e ← sampleEntry info c
  let b ← configBox trackID info avg max c
  .ok (e, b)

theorem record_written {id : Int} {avg max : Nat} {c : Codec} {typ entry ctyp config : Bytes}
    (h : recordOf id avg max c = .ok ((typ, entry), (ctyp, config))) : RecordWritten id avg max c typ entry ctyp config := by
  obtain ⟨info, h1, h⟩ := Res.bind_eq_ok.1 h
  obtain ⟨e, h2, h⟩ := Res.bind_eq_ok.1 h
  obtain ⟨b, h3, h⟩ := Res.bind_eq_ok.1 h
  cases h
  exact ⟨info, h1, h2, h3⟩

theorem record_typ4 (info : CodecInfo) (c : Codec) (typ entry : Bytes) (h : sampleEntry info c = .ok (typ, entry)) : typ.length = 4 := by
  cases c with
  | flac si =>
    obtain ⟨_, _, h⟩ := Res.bind_eq_ok.1 h
    cases h; rfl
  | mpeg4Audio c =>
    obtain ⟨_, _, h⟩ := Res.bind_eq_ok.1 h
    cases h; rfl
  | _ => cases h; rfl

theorem record_ctyp4 (id : Int) (info : CodecInfo) (avg max : Nat) (c : Codec) (typ config : Bytes)
    (h : configBox id info avg max c = .ok (typ, config)) : typ.length = 4 := by
  cases c with
  | av1 =>
    obtain ⟨_, _, h⟩ := Res.bind_eq_ok.1 h
    obtain ⟨_, _, h⟩ := Res.bind_eq_ok.1 h
    obtain ⟨_, _, h⟩ := Res.bind_eq_ok.1 h
    cases h; rfl
  | h265 =>
    obtain ⟨_, _, h⟩ := Res.bind_eq_ok.1 h
    obtain ⟨_, _, h⟩ := Res.bind_eq_ok.1 h
    cases h; rfl
  | h264 =>
    obtain ⟨_, _, h⟩ := Res.bind_eq_ok.1 h
    obtain ⟨_, _, h⟩ := Res.bind_eq_ok.1 h
    cases h; rfl
  | flac si =>
    obtain ⟨_, _, h⟩ := Res.bind_eq_ok.1 h
    cases h; rfl
  | mpeg4Audio c =>
    obtain ⟨_, _, h⟩ := Res.bind_eq_ok.1 h
    cases h; rfl
  | ac3 c =>
    obtain ⟨_, _, h⟩ := Res.bind_eq_ok.1 h
    cases h; rfl
  | eac3 c =>
    obtain ⟨_, _, h⟩ := Res.bind_eq_ok.1 h
    cases h; rfl
  | _ => cases h; rfl

/-- C85: the bit rates of a track are written as a `BitRateBox`. -/
theorem C85_btrt (max avg : Nat) (hm : max < 2 ^ 32) (ha : avg < 2 ^ 32) :
    FMP4Init.typBtrt = Spec.Records.fourcc 'b' 't' 'r' 't' ∧ Carries (encodeBtrt max avg) (Spec.Records.bitRateFields max avg) := by
  refine ⟨by decide +kernel, carries_pack (by simp [widths]) ?_ rfl⟩
  intro f hf
  simp only [Spec.Records.bitRateFields, List.mem_cons, List.not_mem_nil, or_false] at hf
  rcases hf with rfl | rfl | rfl <;> simpa

/-- `C85_btrt` on the default rates of video: the buffer size is zero, and both rates are one million. -/
example : Carries [0, 0, 0, 0, 0x00, 0x0f, 0x42, 0x40, 0x00, 0x0f, 0x42, 0x40] (Spec.Records.bitRateFields 1000000 1000000) := by
  have h := (C85_btrt 1000000 1000000 (by decide) (by decide)).2
  rwa [show encodeBtrt 1000000 1000000 = [0, 0, 0, 0, 0x00, 0x0f, 0x42, 0x40, 0x00, 0x0f, 0x42, 0x40] by decide +kernel] at h

open FMP4 FMP4Init Readers MP4Writer in open Spec.FMP4 (box) in
/-- Sample entry and configuration box are what the fMP4 writer puts into `stsd`, with the bit rates of the track or the default ones. -/
theorem C85_stsd_fmp4 (a : Bytes) (it : FMP4Init.InitTrack) (c : Codec) (info : CodecInfo) (f : SBuf) (hf : fill (some c) = .ok info)
    (h : FMP4Init.writeStsd (full a) it c info = .ok f) :
    ∃ typ entry ctyp config avg max, RecordWritten it.id avg max c typ entry ctyp config ∧
      avg = (if it.avgBitrate ≠ 0 then it.avgBitrate else if c.isVideo then 1000000 else 128825) ∧
      max = (if it.maxBitrate ≠ 0 then it.maxBitrate else if c.isVideo then 1000000 else 128825) ∧
      f = full (a ++ box typStsd (encodeCount 1 ++ box typ (entry ++ (box ctyp config ++ box typBtrt (encodeBtrt max avg))))) := by
  unfold FMP4Init.writeStsd writeCodecBoxes at h
  have W := put_writers
  generalize writeBoxStart = start at W h
  generalize writeBox = one at W h
  generalize writeBoxEnd = stop at W h
  obtain ⟨⟨_, _⟩, e, h⟩ := Res.bind_eq_ok.1 h
  cases W.start _ _ _ _ e
  clear e
  dsimp only at h
  obtain ⟨avg, ha⟩ : ∃ avg, avg = if it.avgBitrate = 0 then defaultBitrate c else it.avgBitrate := ⟨_, rfl⟩
  obtain ⟨max, hm⟩ : ∃ max, max = if it.maxBitrate = 0 then defaultBitrate c else it.maxBitrate := ⟨_, rfl⟩
  rw [← ha, ← hm] at h
  obtain ⟨⟨off, etyp, f2⟩, h2, h⟩ := Res.bind_eq_ok.1 h
  obtain ⟨⟨typ, entry⟩, g1, h2⟩ := Res.bind_eq_ok.1 h2
  obtain ⟨⟨_, _⟩, e, h2⟩ := Res.bind_eq_ok.1 h2
  cases W.start _ _ _ _ e
  clear e
  dsimp only at h2
  obtain ⟨⟨ctyp, config⟩, g3, h2⟩ := Res.bind_eq_ok.1 h2
  obtain ⟨⟨_, _⟩, e, h2⟩ := Res.bind_eq_ok.1 h2
  obtain rfl := W.one _ _ _ _ _ (record_ctyp4 _ _ _ _ _ _ _ g3) e
  clear e
  dsimp only at h2
  cases h2
  obtain ⟨⟨_, _⟩, e, h⟩ := Res.bind_eq_ok.1 h
  obtain rfl := W.one _ _ _ _ _ (by rfl) e
  clear e
  dsimp only at h
  obtain ⟨f6, h6, h⟩ := Res.bind_eq_ok.1 h
  obtain ⟨rfl, _⟩ := W.stop _ etyp (entry ++ (box ctyp config ++ box typBtrt (encodeBtrt max avg))) _ _ (record_typ4 _ _ _ _ g1)
    (by simp only [List.append_assoc]) h6
  obtain ⟨rfl, _⟩ := W.stop _ typStsd (encodeCount 1 ++ initEntry etyp entry ctyp config avg max) _ _ (by rfl)
    (by unfold initEntry; simp only [List.append_assoc]) h
  exact ⟨etyp, entry, ctyp, config, avg, max, ⟨info, hf, g1, g3⟩, by rw [ha, ite_not]; rfl, by rw [hm, ite_not]; rfl, rfl⟩

open FMP4 FMP4Init Readers MP4Writer in open Spec.FMP4 (box) in
/-- Sample entry and configuration box are what the MP4 writer puts into `stsd`. -/
theorem C85_stsd_mp4 (a : Bytes) (id : Nat) (c : Codec) (info : CodecInfo) (f : SBuf) (hf : fill (some c) = .ok info)
    (h : PMP4File.writeStsd (full a) id c info = .ok f) :
    ∃ typ entry ctyp config avg, RecordWritten id avg avg c typ entry ctyp config ∧ avg = (if c.isVideo then 1000000 else 128825) ∧
      f = full (a ++ box typStsd (encodeCount 1 ++ box typ (entry ++ box ctyp config))) := by
  unfold PMP4File.writeStsd writeCodecBoxes at h
  have W := file_writers
  generalize writeBoxStart = start at W h
  generalize writeBox = one at W h
  generalize writeBoxEnd = stop at W h
  obtain ⟨⟨_, _⟩, e, h⟩ := Res.bind_eq_ok.1 h
  cases W.start _ _ _ _ e
  clear e
  dsimp only at h
  obtain ⟨⟨off, etyp, f2⟩, h2, h⟩ := Res.bind_eq_ok.1 h
  obtain ⟨⟨typ, entry⟩, g1, h2⟩ := Res.bind_eq_ok.1 h2
  obtain ⟨⟨_, _⟩, e, h2⟩ := Res.bind_eq_ok.1 h2
  cases W.start _ _ _ _ e
  clear e
  dsimp only at h2
  obtain ⟨⟨ctyp, config⟩, g3, h2⟩ := Res.bind_eq_ok.1 h2
  obtain ⟨⟨_, _⟩, e, h2⟩ := Res.bind_eq_ok.1 h2
  cases (W.one _ _ _ _ (record_ctyp4 _ _ _ _ _ _ _ g3) e).1
  clear e
  dsimp only at h2
  cases h2
  obtain ⟨f6, h6, h⟩ := Res.bind_eq_ok.1 h
  obtain ⟨rfl, _⟩ := W.stop _ etyp (entry ++ box ctyp config) _ _ (record_typ4 _ _ _ _ g1) (by simp only [List.append_assoc]) h6
  obtain ⟨rfl, _⟩ := W.stop _ typStsd (encodeCount 1 ++ box etyp (entry ++ box ctyp config)) _ _ (by rfl)
    (by simp only [List.append_assoc]) h
  exact ⟨etyp, entry, ctyp, config, _, ⟨info, hf, g1, g3⟩, rfl, rfl⟩

/-- The sample entry has the type and carries the size. -/
def VisualIs (typ entry : Bytes) (type : Bytes) (width height : Nat) : Prop :=
  typ = type ∧ Carries entry (Spec.Records.visual width height)

/-- The sample entry has the type and carries the format. -/
def AudioIs (typ entry : Bytes) (type : Bytes) (channels size rate : Nat) : Prop :=
  typ = type ∧ Carries entry (Spec.Records.audio channels size rate)

theorem record_visual (w h : Nat) (hw : w < 65536) (hh : h < 65536) : Carries (encodeVisual w h) (Spec.Records.visual w h) := by
  refine carries_self (by record_whole) ?_
  record_fits

theorem record_audio (c s r : Nat) (hc : c < 65536) (hs : s < 65536) (hr : r < 65536) :
    Carries (encodeAudio c s (r * 65536)) (Spec.Records.audio c s r) := by
  refine carries_pack (by record_whole) ?_ ?_
  · unfold Spec.Records.audio; record_fits
  · unfold Spec.Records.audio
    simp only [flat_cons]
    have e := bitsOfNat_cut 16 16 r 0 (by decide)
    simp only [Nat.reduceAdd, Nat.reducePow, Nat.add_zero] at e
    rw [e, show bitsOfNat 64 0 = bitsOfNat 16 0 ++ bitsOfNat 48 0 from rfl]
    simp only [List.append_assoc]

theorem record_u16 (v : Int) (n : Nat) (h : v = n) (hn : n < 65536) : u16 v = n := by
  subst h; unfold u16; omega

theorem record_u32 (v : Int) (n : Nat) (h : v = n) (hn : n < 65536) : FMP4.u32 (v * 65536) = n * 65536 := by
  subst h; unfold FMP4.u32; omega

theorem record_bit (b : Bool) : bit b = Spec.Records.flagValue b := rfl

theorem record_flag (b : Bool) : Spec.Records.flagValue b < 2 := by cases b <;> decide

/-! ## VP9 -/

/-- The record that is written. -/
def recordVpc (c : VP9) : Spec.Records.Vpc :=
  { profile := c.profile, level := 10, bitDepth := c.bitDepth, chromaSubsampling := c.chromaSubsampling,
    fullRange := Spec.Records.flagValue c.colorRange, colourPrimaries := 0, transfer := 0, matrix := 0 }

/-- C85 for VP9: the sample entry, and profile, bit depth, chroma subsampling and range of the record. -/
theorem C85_vp9_partial (id : Int) (avg max : Nat) (c : VP9) (w h : Nat) (typ entry ctyp config : Bytes) (hw : c.width = w)
    (hh : c.height = h) (hw2 : w < 65536) (hh2 : h < 65536) (hp : c.profile < 256) (hb : c.bitDepth < 16) (hs : c.chromaSubsampling < 8)
    (e : RecordWritten id avg max (.vp9 c) typ entry ctyp config) :
    VisualIs typ entry (fourcc 'v' 'p' '0' '9') w h ∧ ctyp = fourcc 'v' 'p' 'c' 'C' ∧
    ∃ r : Spec.Records.Vpc, Carries config r.fields ∧ r.profile = c.profile ∧ r.bitDepth = c.bitDepth ∧
      r.chromaSubsampling = c.chromaSubsampling ∧ r.fullRange = Spec.Records.flagValue c.colorRange ∧
      (w * h ≤ 36864 → r.LevelFits w h) := by
  obtain ⟨info, h1, h2, h3⟩ := e.filled
  cases h2; cases h3
  have hf : (if c.width = 0 then _ else _) = Res.ok info := h1
  split at hf
  · cases hf
  · cases hf
    refine ⟨⟨by rfl, ?_⟩, by rfl, recordVpc c, ?_, rfl, rfl, rfl, rfl, fun hl => ⟨(10, 36864), by decide, rfl, hl⟩⟩
    · rw [record_u16 _ w hw hw2, record_u16 _ h hh hh2]
      exact record_visual w h hw2 hh2
    · refine carries_self (by record_whole) ?_
      have := record_flag c.colorRange
      rw [← record_bit] at this
      record_fits

theorem record_vpc_unique (id : Int) (avg max : Nat) (c : VP9) (typ entry ctyp config : Bytes)
    (e : RecordWritten id avg max (.vp9 c) typ entry ctyp config) (r : Spec.Records.Vpc) (hr : Carries config r.fields) :
    r.level = 10 ∧ r.colourPrimaries = 0 ∧ r.matrix = 0 ∧ r.chromaSubsampling = c.chromaSubsampling % 8 := by
  obtain ⟨info, h1, h2, h3⟩ := e.filled
  cases h3
  obtain ⟨hr1, hr2⟩ := hr
  have hb : bitsOf (encodeVpcC c.profile c.bitDepth c.chromaSubsampling (bit c.colorRange)) =
      flat [(8, 1), (24, 0), (8, c.profile % 256), (8, 10), (4, c.bitDepth % 16), (3, c.chromaSubsampling % 8), (1, bit c.colorRange), (8, 0),
        (8, 0), (8, 0), (16, 0)] := by
    unfold encodeVpcC
    rw [bits_pack _ (by record_whole)]
    simp only [flat_cons]
    rw [← bitsOfNat_mod 8 8 c.profile (by decide), ← bitsOfNat_mod 4 4 c.bitDepth (by decide),
      ← bitsOfNat_mod 3 3 c.chromaSubsampling (by decide)]
  rw [hb] at hr2
  have := flat_inj [(8, 1), (24, 0), (8, c.profile % 256), (8, 10), (4, c.bitDepth % 16), (3, c.chromaSubsampling % 8), (1, bit c.colorRange),
    (8, 0), (8, 0), (8, 0), (16, 0)] r.fields [] [] (by rfl) (by
    have := record_flag c.colorRange
    rw [← record_bit] at this
    record_fits) hr1 (by rw [List.append_nil, List.append_nil]; exact hr2)
  simp only [Spec.Records.Vpc.fields, List.cons.injEq, Prod.mk.injEq, true_and, and_true] at this
  obtain ⟨_, h10, _, hs, _, hc, _, hm⟩ := this
  exact ⟨h10.symm, hc.symm, hm.symm, hs.symm⟩

/-- C85 is false for VP9: every record says level 1, whose pictures have at most 36864 samples. -/
theorem C85_vp9_level_false (id : Int) (avg max : Nat) (c : VP9) (typ entry ctyp config : Bytes) (w h : Nat) (hl : 36864 < w * h)
    (e : RecordWritten id avg max (.vp9 c) typ entry ctyp config) :
    ¬ ∃ r : Spec.Records.Vpc, Carries config r.fields ∧ r.LevelFits w h := by
  rintro ⟨r, hr, l, hm, h1, h2⟩
  obtain ⟨h10, _⟩ := record_vpc_unique id avg max c typ entry ctyp config e r hr
  rw [h10] at h1
  simp only [Spec.Records.vp9Levels, List.mem_cons, List.not_mem_nil, or_false] at hm
  rcases hm with rfl | rfl | rfl | rfl | rfl | rfl | rfl | rfl | rfl | rfl | rfl | rfl | rfl | rfl <;> simp_all <;> omega

/-- C85 is false for VP9: the colour fields are zero, which are reserved values, and RGB. -/
theorem C85_vp9_colour_false (id : Int) (avg max : Nat) (c : VP9) (typ entry ctyp config : Bytes)
    (e : RecordWritten id avg max (.vp9 c) typ entry ctyp config) :
    ¬ ∃ r : Spec.Records.Vpc, Carries config r.fields ∧ r.ColourValid := by
  rintro ⟨r, hr, h1, h2, h3⟩
  obtain ⟨_, h10, _, _⟩ := record_vpc_unique id avg max c typ entry ctyp config e r hr
  exact h1 h10

/-- C85 is false for VP9: with subsampled chroma, the record says RGB. -/
theorem C85_vp9_matrix_false (id : Int) (avg max : Nat) (c : VP9) (typ entry ctyp config : Bytes) (hc : c.chromaSubsampling % 8 ≠ 3)
    (e : RecordWritten id avg max (.vp9 c) typ entry ctyp config) (r : Spec.Records.Vpc) (hr : Carries config r.fields) :
    ¬ (r.matrix = 0 → r.chromaSubsampling = 3) := by
  obtain ⟨_, _, h1, h2⟩ := record_vpc_unique id avg max c typ entry ctyp config e r hr
  intro h
  exact hc (h2 ▸ h h1)

/-! ## Audio without descriptors -/

/-- C85 for Opus with one or two channels. -/
theorem C85_opus_partial (id : Int) (avg max : Nat) (n : Nat) (typ entry ctyp config : Bytes) (h1 : 1 ≤ n) (h2 : n ≤ 2)
    (e : RecordWritten id avg max (.opus n) typ entry ctyp config) :
    AudioIs typ entry (fourcc 'O' 'p' 'u' 's') n 16 48000 ∧ ctyp = fourcc 'd' 'O' 'p' 's' ∧
    ∃ r : Spec.Records.DOps, Carries config r.fields ∧ r.Valid ∧ r.channels = n ∧ r.inputRate = 48000 ∧ r.gain = 0 := by
  obtain ⟨info, _, e2, e3⟩ := e.filled
  cases e2; cases e3
  refine ⟨⟨by rfl, ?_⟩, by rfl, { channels := n, preSkip := 312, inputRate := 48000, gain := 0, family := 0, table := none }, ?_,
    ⟨rfl, h1, h2⟩, rfl, rfl, rfl⟩
  · rw [record_u16 _ n rfl (by omega)]
    exact record_audio n 16 48000 (by omega) (by decide) (by decide)
  · rw [show u8 (n : Int) = n by unfold u8; omega]
    refine carries_self (by record_whole) ?_
    record_fits

/-- C85 is false for Opus with more than two channels: there is no channel mapping table. -/
theorem C85_opus_false (id : Int) (avg max : Nat) (n : Nat) (typ entry ctyp config : Bytes) (h1 : 2 < n) (h2 : n < 256)
    (e : RecordWritten id avg max (.opus n) typ entry ctyp config) :
    ¬ ∃ r : Spec.Records.DOps, Carries config r.fields ∧ r.Valid := by
  obtain ⟨info, _, e2, e3⟩ := e.filled
  cases e3
  rintro ⟨r, ⟨hr1, hr2⟩, hv⟩
  rw [show u8 (n : Int) = n by unfold u8; omega] at hr2
  unfold encodeDOps at hr2
  rw [bits_pack _ (by record_whole)] at hr2
  have hlen := congrArg List.length hr2
  unfold Spec.Records.DOps.Valid at hv
  cases ht : r.table with
  | none =>
    rw [ht] at hv
    simp only [Spec.Records.DOps.fields, ht] at hr1 hr2
    have := flat_inj [(8, 0), (8, n), (16, 312), (32, 48000), (16, 0), (8, 0)] _ [] [] (by rfl) (by record_fits) hr1 (by
      rw [List.append_nil, List.append_nil]; exact hr2)
    simp only [List.cons_append, List.nil_append, List.cons.injEq, Prod.mk.injEq] at this
    omega
  | some t =>
    rw [flat_length] at hlen
    have h3 : (flat r.fields).length = _ := hlen.symm
    rw [flat_length, Spec.Records.DOps.fields, ht] at h3
    simp [widths] at h3
    omega

/-- C85 for FLAC, up to 65535 Hz. -/
theorem C85_flac (id : Int) (avg max : Nat) (si : Flac.StreamInfo) (typ entry ctyp config : Bytes) (h : StreamInfoInRange si)
    (hr : si.sampleRate < 65536) (e : RecordWritten id avg max (.flac (some si)) typ entry ctyp config) :
    AudioIs typ entry (fourcc 'f' 'L' 'a' 'C') si.channelCount.toNat si.bitDepth.toNat si.sampleRate ∧ ctyp = fourcc 'd' 'f' 'L' 'a' ∧
    ∃ head info, Carries head Spec.Records.flacHead ∧ info.length = 34 ∧ config = head ++ info ∧
      bitsOf info = Spec.streamInfoBits si.minBlockSize si.maxBlockSize si.minFrameSize si.maxFrameSize si.sampleRate
        si.channelCount.toNat si.bitDepth.toNat si.totalSamples si.md5 := by
  obtain ⟨info, _, e2, e3⟩ := e.filled
  cases e2; cases e3
  obtain ⟨hl, hb⟩ := C29_encode si h
  refine ⟨⟨by rfl, ?_⟩, by rfl, pack [(8, 0), (24, 0), (8, 0x80), (24, 34)], Flac.marshal si, ?_, hl, ?_, hb⟩
  · rw [Nat.mod_eq_of_lt (by omega)]
    exact record_audio _ _ _ (Nat.lt_of_lt_of_le (UInt8.toNat_lt _) (by decide)) (Nat.lt_of_lt_of_le (UInt8.toNat_lt _) (by decide)) hr
  · exact ⟨by decide, by decide +kernel⟩
  · unfold flacConfig encodeDfLa
    rw [hl, ← List.append_assoc, ← pack_append _ _ (by record_whole) (by record_whole)]
    rfl

/-- fscod of the model is that of the standard. -/
theorem record_fscod (rate : Int) (n : Nat) (h : fscodOf rate = .ok n) : Spec.Records.sampleRateCode rate = some n ∧ n < 4 := by
  unfold fscodOf at h
  unfold Spec.Records.sampleRateCode
  split at h
  · cases h; simp_all
  · split at h
    · cases h; simp_all
    · split at h
      · cases h; simp_all
      · cases h

/-- C85 for AC-3. -/
theorem C85_ac3 (id : Int) (avg max : Nat) (c : AC3) (n rate : Nat) (typ entry ctyp config : Bytes) (hn : c.channelCount = n)
    (hn2 : n < 65536) (hr : c.sampleRate = rate) (h1 : c.bsid < 32) (h2 : c.bsmod < 8) (h3 : c.acmod < 8) (h4 : c.bitRateCode < 32)
    (e : RecordWritten id avg max (.ac3 c) typ entry ctyp config) :
    AudioIs typ entry (fourcc 'a' 'c' '-' '3') n 16 rate ∧ ctyp = fourcc 'd' 'a' 'c' '3' ∧
    ∃ fscod, Spec.Records.sampleRateCode c.sampleRate = some fscod ∧
      Carries config (Spec.Records.dac3 fscod c.bsid c.bsmod c.acmod (Spec.Records.flagValue c.lfeOn) c.bitRateCode) := by
  obtain ⟨info, _, e2, e3⟩ := e.filled
  cases e2
  obtain ⟨fscod, hf, e3⟩ := Res.bind_eq_ok.1 e3
  cases e3
  obtain ⟨hf1, hf2⟩ := record_fscod _ _ hf
  have hrate : rate < 65536 := by
    unfold fscodOf at hf
    split at hf
    · omega
    · split at hf
      · omega
      · split at hf
        · omega
        · cases hf
  refine ⟨⟨by rfl, ?_⟩, by rfl, fscod, hf1, ?_⟩
  · rw [record_u16 _ n hn hn2, record_u32 _ rate hr hrate]
    exact record_audio n 16 rate hn2 (by decide) hrate
  · refine carries_self (by record_whole) ?_
    have := record_flag c.lfeOn
    rw [← record_bit] at this
    record_fits

/-- C85 for E-AC-3. -/
theorem C85_eac3 (id : Int) (avg max : Nat) (c : EAC3) (n rate : Nat) (typ entry ctyp config : Bytes) (hn : c.channelCount = n)
    (hn2 : n < 65536) (hr : c.sampleRate = rate) (h1 : c.dataRate < 8192) (h2 : c.bsmod < 8) (h3 : c.acmod < 8) (h4 : c.numDepSub < 16)
    (h5 : c.chanLoc < 512) (e : RecordWritten id avg max (.eac3 c) typ entry ctyp config) :
    AudioIs typ entry (fourcc 'e' 'c' '-' '3') n 16 rate ∧ ctyp = fourcc 'd' 'e' 'c' '3' ∧
    ∃ fscod, Spec.Records.sampleRateCode c.sampleRate = some fscod ∧
      Carries config (Spec.Records.dec3 c.dataRate fscod (Spec.Records.flagValue c.asvc) c.bsmod c.acmod (Spec.Records.flagValue c.lfeOn)
        c.numDepSub c.chanLoc) := by
  obtain ⟨info, _, e2, e3⟩ := e.filled
  cases e2
  obtain ⟨fscod, hf, e3⟩ := Res.bind_eq_ok.1 e3
  cases e3
  obtain ⟨hf1, hf2⟩ := record_fscod _ _ hf
  have hrate : rate < 65536 := by
    unfold fscodOf at hf
    split at hf
    · omega
    · split at hf
      · omega
      · split at hf
        · omega
        · cases hf
  refine ⟨⟨by rfl, ?_⟩, by rfl, fscod, hf1, ?_⟩
  · rw [record_u16 _ n hn hn2, record_u32 _ rate hr hrate]
    exact record_audio n 16 rate hn2 (by decide) hrate
  · have g1 := record_flag c.lfeOn
    have g2 := record_flag c.asvc
    unfold encodeDec3 Spec.Records.dec3
    by_cases hd : c.numDepSub = 0
    · simp only [hd, if_true, record_bit]
      refine carries_self (by record_whole) ?_
      record_fits
    · simp only [hd, if_false, record_bit]
      refine carries_self (by record_whole) ?_
      record_fits

/-- C85 for LPCM, up to 65535 Hz. -/
theorem C85_lpcm (id : Int) (avg max : Nat) (c : LPCM) (n depth rate : Nat) (typ entry ctyp config : Bytes) (hn : c.channelCount = n)
    (hn2 : n < 65536) (hd : c.bitDepth = depth) (hd2 : depth < 256) (hr : c.sampleRate = rate) (hr2 : rate < 65536)
    (e : RecordWritten id avg max (.lpcm c) typ entry ctyp config) :
    AudioIs typ entry (fourcc 'i' 'p' 'c' 'm') n depth rate ∧ ctyp = fourcc 'p' 'c' 'm' 'C' ∧
    Carries config (Spec.Records.pcm (Spec.Records.flagValue c.littleEndian) depth) := by
  obtain ⟨info, _, e2, e3⟩ := e.filled
  cases e2; cases e3
  refine ⟨⟨by rfl, ?_⟩, by rfl, ?_⟩
  · rw [record_u16 _ n hn hn2, record_u32 _ rate hr hr2, record_u16 _ depth hd (by omega)]
    exact record_audio n depth rate hn2 (by omega) hr2
  · rw [show u8 c.bitDepth = depth by unfold u8; omega]
    have g1 := record_flag c.littleEndian
    unfold encodePcmC Spec.Records.pcm
    refine carries_pack (by record_whole) ?_ ?_
    · record_fits
    · cases c.littleEndian <;> rfl

/-! ## Descriptors -/

theorem record_one (fs : Fields) (h : (widths fs).sum = 8) : pack fs = [UInt8.ofNat (packNat fs 0)] := by
  unfold pack
  rw [show (List.map (·.1) fs).sum = 8 from h]
  show [UInt8.ofNat (packNat fs 0 / 256 ^ 0)] = _
  rw [Nat.pow_zero, Nat.div_one]

theorem record_seven (x : Nat) : pack [(1, 1), (7, x)] = [UInt8.ofNat (128 + x % 128)] := by
  rw [record_one _ (by record_whole)]; rfl

theorem record_last (x : Nat) : pack [(1, 0), (7, x)] = [UInt8.ofNat (x % 128)] := by
  rw [record_one _ (by record_whole)]
  show [UInt8.ofNat (0 + x % 128)] = _
  rw [Nat.zero_add]

theorem record_size_bytes (n : Nat) : encodeSize n =
    [UInt8.ofNat (128 + n / 2 ^ 21 % 128), UInt8.ofNat (128 + n / 2 ^ 14 % 128), UInt8.ofNat (128 + n / 2 ^ 7 % 128), UInt8.ofNat (n % 128)] := by
  unfold encodeSize
  rw [show [(1, 1), (7, n / 2 ^ 21), (1, 1), (7, n / 2 ^ 14), (1, 1), (7, n / 2 ^ 7), (1, 0), (7, n)] =
    [(1, 1), (7, n / 2 ^ 21)] ++ ([(1, 1), (7, n / 2 ^ 14)] ++ ([(1, 1), (7, n / 2 ^ 7)] ++ [(1, 0), (7, n)])) from rfl,
    pack_append _ _ (by record_whole) (by record_whole), pack_append _ _ (by record_whole) (by record_whole),
    pack_append _ _ (by record_whole) (by record_whole), record_seven, record_seven, record_seven, record_last]
  rfl

theorem record_size (n : Nat) (h : n < 2 ^ 28) : Spec.Records.IsSize (encodeSize n) n := by
  rw [record_size_bytes]
  have h1 := Nat.mod_lt (n / 2 ^ 21) (by decide : 0 < 128)
  have h2 := Nat.mod_lt (n / 2 ^ 14) (by decide : 0 < 128)
  have h3 := Nat.mod_lt (n / 2 ^ 7) (by decide : 0 < 128)
  have h4 := Nat.mod_lt n (by decide : 0 < 128)
  have t : ∀ x, x < 256 → (UInt8.ofNat x).toNat = x := fun x hx => by simp [UInt8.toNat_ofNat']; omega
  refine ⟨[UInt8.ofNat (128 + n / 2 ^ 21 % 128), UInt8.ofNat (128 + n / 2 ^ 14 % 128), UInt8.ofNat (128 + n / 2 ^ 7 % 128)],
    UInt8.ofNat (n % 128), rfl, by simp, ?_, ?_, ?_⟩
  · intro x hx
    simp only [List.mem_cons, List.not_mem_nil, or_false] at hx
    rcases hx with rfl | rfl | rfl <;> rw [t _ (by omega)] <;> omega
  · rw [t _ (by omega)]; exact h4
  · simp only [List.foldl_cons, List.foldl_nil]
    rw [t _ (by omega), t _ (by omega), t _ (by omega), t _ (by omega)]
    omega

theorem record_byte (v : Nat) : pack [(8, v)] = [UInt8.ofNat (v % 256)] := by
  rw [record_one _ (by record_whole)]
  show [UInt8.ofNat (0 + v % 256)] = _
  rw [Nat.zero_add]

theorem record_descriptor (tag : Nat) (t : UInt8) (ht : UInt8.ofNat (tag % 256) = t) (payload : Bytes) (n : Nat) (hn : payload.length = n)
    (h : n < 2 ^ 28) : Spec.Records.IsDescriptor t payload (pack [(8, tag)] ++ encodeSize n ++ payload) := by
  refine ⟨encodeSize n, hn ▸ record_size n h, ?_⟩
  rw [record_byte, ht]
  rfl

theorem record_data_length (tag size : Nat) (data : Bytes) : (encodeData tag size data).length = 5 + data.length := by
  unfold encodeData
  rw [record_size_bytes, record_byte]
  simp only [List.length_append, List.length_cons, List.length_nil]

/-- Descriptors around the bytes of a decoder specific info, or no bytes. -/
theorem record_esds_around (id object stream maxRate avgRate : Nat) (ib : Bytes) (hid : id < 65536) (ho : object < 256) (hs : stream < 64)
    (hm : maxRate < 2 ^ 32) (ha : avgRate < 2 ^ 32) (hi : ib.length + 27 < 2 ^ 28) :
    ∃ head conf dc sl es, Carries head [(16, id), (1, 0), (1, 0), (1, 0), (5, 0)] ∧
      Carries conf [(8, object), (6, stream), (1, 0), (1, 1), (24, 0), (32, maxRate), (32, avgRate)] ∧
      Spec.Records.IsDescriptor 4 (conf ++ ib) dc ∧ Spec.Records.IsDescriptor 6 [2] sl ∧ Spec.Records.IsDescriptor 3 (head ++ (dc ++ sl)) es ∧
      pack [(8, 0), (24, 0)] ++ encodeES (27 + ib.length) id ++ encodeDecoderConf (13 + ib.length) object stream maxRate avgRate ++ ib ++
        encodeData 6 1 [2] = [0, 0, 0, 0] ++ es := by
  refine ⟨pack [(16, id), (8, 0)], pack [(8, object), (6, stream), (1, 0), (1, 1), (24, 0), (32, maxRate), (32, avgRate)],
    encodeDecoderConf (13 + ib.length) object stream maxRate avgRate ++ ib, encodeData 6 1 [2],
    encodeES (27 + ib.length) id ++ (encodeDecoderConf (13 + ib.length) object stream maxRate avgRate ++ ib ++ encodeData 6 1 [2]),
    ?_, ?_, ?_, ?_, ?_, ?_⟩
  · refine carries_pack (by record_whole) ?_ ?_
    · record_fits
    · simp only [flat_cons]; rfl
  · refine carries_self (by record_whole) ?_
    record_fits
  · have := record_descriptor 4 4 (by decide)
      (pack [(8, object), (6, stream), (1, 0), (1, 1), (24, 0), (32, maxRate), (32, avgRate)] ++ ib) (13 + ib.length) (by
        simp only [List.length_append, pack_length, widths, List.map_cons, List.map_nil, List.sum_cons, List.sum_nil]
        omega) (by omega)
    unfold encodeDecoderConf
    simp only [List.append_assoc] at this ⊢
    exact this
  · exact record_descriptor 6 6 (by decide) [2] 1 rfl (by omega)
  · have := record_descriptor 3 3 (by decide)
      (pack [(16, id), (8, 0)] ++ (encodeDecoderConf (13 + ib.length) object stream maxRate avgRate ++ ib ++ encodeData 6 1 [2]))
      (27 + ib.length) (by
        simp only [List.length_append, record_data_length, encodeDecoderConf, record_size_bytes, pack_length, widths, List.map_cons, List.map_nil,
          List.sum_cons, List.sum_nil, List.length_cons, List.length_nil]
        omega) (by omega)
    unfold encodeES
    simp only [List.append_assoc] at this ⊢
    exact this
  · rw [show pack [(8, 0), (24, 0)] = [0, 0, 0, 0] from by decide +kernel]
    simp only [List.append_assoc]

/-- With a decoder specific info. -/
theorem record_esds (id object stream maxRate avgRate : Nat) (info : Bytes) (hid : id < 65536) (ho : object < 256) (hs : stream < 64)
    (hm : maxRate < 2 ^ 32) (ha : avgRate < 2 ^ 32) (hi : info.length + 32 < 2 ^ 28) :
    Spec.Records.IsEsds (encodeEsds id object stream maxRate avgRate info)
      { id := id, objectType := object, streamType := stream, bufferSize := 0, maxBitrate := maxRate, avgBitrate := avgRate, info := some info } := by
  obtain ⟨head, conf, dc, sl, es, h1, h2, h3, h4, h5, h6⟩ := record_esds_around id object stream maxRate avgRate
    (encodeData 5 info.length info) hid ho hs hm ha (by rw [record_data_length]; omega)
  refine ⟨head, conf, encodeData 5 info.length info, dc, sl, es, h1, h2, record_descriptor 5 5 (by decide) info _ rfl (by omega), h3, h4, h5, ?_⟩
  rw [← h6, record_data_length, ← Nat.add_assoc, ← Nat.add_assoc]
  unfold encodeEsds
  rw [show (32 + info.length) % 2 ^ 32 = 27 + 5 + info.length by omega, show (18 + info.length) % 2 ^ 32 = 13 + 5 + info.length by omega,
    show info.length % 2 ^ 32 = info.length by omega]

/-- Without decoder specific info. -/
theorem record_esds_bare (id object stream maxRate avgRate : Nat) (hid : id < 65536) (ho : object < 256) (hs : stream < 64)
    (hm : maxRate < 2 ^ 32) (ha : avgRate < 2 ^ 32) :
    Spec.Records.IsEsds (encodeEsdsBare id object stream maxRate avgRate)
      { id := id, objectType := object, streamType := stream, bufferSize := 0, maxBitrate := maxRate, avgBitrate := avgRate, info := none } := by
  obtain ⟨head, conf, dc, sl, es, h1, h2, h3, h4, h5, h6⟩ := record_esds_around id object stream maxRate avgRate [] hid ho hs hm ha (by decide)
  refine ⟨head, conf, [], dc, sl, es, h1, h2, rfl, h3, h4, h5, ?_⟩
  rw [← h6, List.append_nil]
  rfl

/-- The low 16 bits of the ID of the track. -/
theorem record_id (id : Int) : u16 id < 65536 := by unfold u16; omega

/-- The configuration box is `esds` with these descriptors. -/
def EsdsIs (ctyp config : Bytes) (id : Int) (object stream max avg : Nat) (info : Option Bytes) : Prop :=
  ctyp = fourcc 'e' 's' 'd' 's' ∧ Spec.Records.IsEsds config
    { id := (id % 65536).toNat, objectType := object, streamType := stream, bufferSize := 0, maxBitrate := max, avgBitrate := avg, info := info }

/-- C85 for MPEG-4 video. The size of the picture is not known: 800 x 600 is written. -/
theorem C85_mpeg4_video (id : Int) (avg max : Nat) (ha : avg < 2 ^ 32) (hm : max < 2 ^ 32) (info : Bytes) (typ entry ctyp config : Bytes)
    (hi : info.length + 32 < 2 ^ 28) (e : RecordWritten id avg max (.mpeg4Video info) typ entry ctyp config) :
    VisualIs typ entry (fourcc 'm' 'p' '4' 'v') 800 600 ∧
    EsdsIs ctyp config id Spec.Records.mpeg4VideoType Spec.Records.visualStream max avg (some info) := by
  obtain ⟨ci, h1, h2, h3⟩ := e.filled
  cases h2; cases h3
  have hf : (if info.length = 0 then _ else _) = Res.ok ci := h1
  split at hf
  · cases hf
  · cases hf
    exact ⟨⟨by rfl, record_visual 800 600 (by decide) (by decide)⟩, by rfl,
      record_esds (u16 id) 0x20 4 max avg info (record_id id) (by decide) (by decide) hm ha hi⟩

/-- C85 for MPEG-2 video of the main profile. -/
theorem C85_mpeg_video_partial (id : Int) (avg max : Nat) (ha : avg < 2 ^ 32) (hm : max < 2 ^ 32) (info : Bytes)
    (typ entry ctyp config : Bytes) (hi : info.length + 32 < 2 ^ 28) (hp : Spec.Records.sequenceProfile info = some 4)
    (e : RecordWritten id avg max (.mpeg1Video info) typ entry ctyp config) :
    VisualIs typ entry (fourcc 'm' 'p' '4' 'v') 800 600 ∧
    ∃ object, Spec.Records.mpegVideoType info = some object ∧
      EsdsIs ctyp config id object Spec.Records.visualStream max avg (some info) := by
  obtain ⟨ci, h1, h2, h3⟩ := e.filled
  cases h2; cases h3
  have hf : (if info.length = 0 then _ else _) = Res.ok ci := h1
  split at hf
  · cases hf
  · cases hf
    refine ⟨⟨by rfl, record_visual 800 600 (by decide) (by decide)⟩, 0x61, ?_, by rfl,
      record_esds (u16 id) 0x61 4 max avg info (record_id id) (by decide) (by decide) hm ha hi⟩
    unfold Spec.Records.mpegVideoType
    rw [hp]
    rfl

/-- C85 for M-JPEG. -/
theorem C85_mjpeg (id : Int) (avg max : Nat) (ha : avg < 2 ^ 32) (hm : max < 2 ^ 32) (w h : Nat) (typ entry ctyp config : Bytes)
    (hw : w < 65536) (hh : h < 65536) (e : RecordWritten id avg max (.mjpeg w h) typ entry ctyp config) :
    VisualIs typ entry (fourcc 'm' 'p' '4' 'v') w h ∧
    EsdsIs ctyp config id Spec.Records.jpegType Spec.Records.visualStream max avg none := by
  obtain ⟨info, h1, h2, h3⟩ := e.filled
  cases h2; cases h3
  have hf : (if (w : Int) = 0 then _ else _) = Res.ok info := h1
  split at hf
  · cases hf
  · cases hf
    refine ⟨⟨by rfl, ?_⟩, by rfl, record_esds_bare (u16 id) 0x6C 4 max avg (record_id id) (by decide) (by decide) hm ha⟩
    rw [record_u16 _ w rfl hw, record_u16 _ h rfl hh]
    exact record_visual w h hw hh

/-- C85 for MPEG-1 audio, at the rates of MPEG-1. -/
theorem C85_mpeg_audio_partial (id : Int) (avg max : Nat) (ha : avg < 2 ^ 32) (hm : max < 2 ^ 32) (rate n : Nat)
    (typ entry ctyp config : Bytes) (hr : rate = 32000 ∨ rate = 44100 ∨ rate = 48000) (hn : n < 65536)
    (e : RecordWritten id avg max (.mpeg1Audio rate n) typ entry ctyp config) :
    AudioIs typ entry (fourcc 'm' 'p' '4' 'a') n 16 rate ∧
    ∃ object, Spec.Records.mpegAudioType rate = some object ∧ EsdsIs ctyp config id object Spec.Records.audioStream max avg none := by
  obtain ⟨info, h1, h2, h3⟩ := e.filled
  cases h2; cases h3
  refine ⟨⟨by rfl, ?_⟩, 0x6B, ?_, by rfl, record_esds_bare (u16 id) 0x6B 5 max avg (record_id id) (by decide) (by decide) hm ha⟩
  · rw [record_u16 _ n rfl hn, record_u32 _ rate rfl (by omega)]
    exact record_audio n 16 rate hn (by decide) (by omega)
  · rcases hr with rfl | rfl | rfl <;> rfl

/-- A size ends at its first byte below 128. -/
theorem record_size_prefix (pre pre' : Bytes) (last last' : UInt8) (x y : Bytes) (h : ∀ b ∈ pre, 128 ≤ b.toNat)
    (h' : ∀ b ∈ pre', 128 ≤ b.toNat) (hl : last.toNat < 128) (hl' : last'.toNat < 128) (e : pre ++ last :: x = pre' ++ last' :: y) : x = y := by
  induction pre generalizing pre' with
  | nil =>
    cases pre' with
    | nil => cases e; rfl
    | cons b l =>
      cases e
      have := h' _ (.head _)
      omega
  | cons a p ih =>
    cases pre' with
    | nil =>
      cases e
      have := h _ (.head _)
      omega
    | cons b l =>
      have e := (List.cons.inj e).2
      exact ih l (fun b hb => h b (.tail _ hb)) (fun b hb => h' b (.tail _ hb)) e

theorem record_descriptor_unique {tag : UInt8} {p q b c x y : Bytes} (hb : Spec.Records.IsDescriptor tag p b)
    (hc : Spec.Records.IsDescriptor tag q c) (e : b ++ x = c ++ y) : p ++ x = q ++ y := by
  obtain ⟨_, ⟨pre, last, rfl, _, h1, h2, _⟩, rfl⟩ := hb
  obtain ⟨_, ⟨pre', last', rfl, _, h1', h2', _⟩, rfl⟩ := hc
  refine record_size_prefix pre pre' last last' _ _ h1 h1' h2 h2' ?_
  simp only [List.cons_append, List.append_assoc, List.cons.injEq, true_and, List.nil_append] at e
  exact e

theorem record_carries_length {b : Bytes} {fs : Fields} (h : Carries b fs) : 8 * b.length = (widths fs).sum := by
  rw [← Spec.length_bitsOf, h.2]
  exact flat_length fs

/-- The object type of an `esds` box is determined by its bytes. -/
theorem record_esds_unique (b : Bytes) (r r' : Spec.Records.Esds) (h : Spec.Records.IsEsds b r) (h' : Spec.Records.IsEsds b r') :
    r.objectType = r'.objectType := by
  obtain ⟨head, conf, info, dc, sl, es, h1, h2, _, h3, h4, h5, rfl⟩ := h
  obtain ⟨head', conf', info', dc', sl', es', g1, g2, _, g3, g4, g5, e⟩ := h'
  have e := List.append_cancel_left e
  have e := record_descriptor_unique (x := []) (y := []) h5 g5 (by rw [List.append_nil, List.append_nil]; exact e)
  rw [List.append_nil, List.append_nil] at e
  have l1 := record_carries_length h1
  have l2 := record_carries_length g1
  obtain ⟨_, e⟩ := List.append_inj e (by simp [widths] at l1 l2; omega)
  have e := record_descriptor_unique h3 g3 e
  rw [List.append_assoc, List.append_assoc] at e
  have l1 := record_carries_length h2
  have l2 := record_carries_length g2
  obtain ⟨e, _⟩ := List.append_inj e (by simp [widths] at l1 l2; omega)
  subst e
  have := flat_inj _ _ [] [] (by rfl) h2.1 g2.1 (by rw [List.append_nil, List.append_nil]; exact h2.2.symm.trans g2.2)
  simp only [List.cons.injEq, Prod.mk.injEq, true_and] at this
  exact this.1

/-- C85 is false for MPEG-1/2 audio at the rates of MPEG-2: the object type says MPEG-1. -/
theorem C85_mpeg_audio_false (id : Int) (avg max : Nat) (ha : avg < 2 ^ 32) (hm : max < 2 ^ 32) (rate n : Int)
    (typ entry ctyp config : Bytes) (hr : rate = 16000 ∨ rate = 22050 ∨ rate = 24000)
    (e : RecordWritten id avg max (.mpeg1Audio rate n) typ entry ctyp config) :
    ¬ ∃ r, Spec.Records.IsEsds config r ∧ Spec.Records.mpegAudioType rate = some r.objectType := by
  obtain ⟨info, h1, h2, h3⟩ := e.filled
  cases h3
  rintro ⟨r, g1, g2⟩
  have := record_esds_unique _ _ _ g1 (record_esds_bare (u16 id) 0x6B 5 max avg (record_id id) (by decide) (by decide) hm ha)
  rw [this] at g2
  dsimp only at g2
  rcases hr with rfl | rfl | rfl <;> exact absurd g2 (by decide)

/-- C85 is false for MPEG-1 video, and for MPEG-2 video of other profiles than main: the object type says main profile. -/
theorem C85_mpeg_video_false (id : Int) (avg max : Nat) (ha : avg < 2 ^ 32) (hm : max < 2 ^ 32) (info : Bytes)
    (typ entry ctyp config : Bytes) (hi : info.length + 32 < 2 ^ 28) (hp : Spec.Records.sequenceProfile info ≠ some 4)
    (e : RecordWritten id avg max (.mpeg1Video info) typ entry ctyp config) :
    ¬ ∃ r, Spec.Records.IsEsds config r ∧ Spec.Records.mpegVideoType info = some r.objectType := by
  obtain ⟨ci, h1, h2, h3⟩ := e.filled
  cases h3
  rintro ⟨r, g1, g2⟩
  have := record_esds_unique _ _ _ g1 (record_esds (u16 id) 0x61 4 max avg info (record_id id) (by decide) (by decide) hm ha hi)
  rw [this] at g2
  dsimp only at g2
  unfold Spec.Records.mpegVideoType at g2
  split at g2 <;> first | (exact absurd g2 (by decide)) | (rename_i hx; exact hp hx)

/-- C85 for MPEG-4 audio, up to 65535 Hz: the number of channels is that of the channel configuration, and the configuration is the decoder
specific info. -/
theorem C85_mpeg4_audio (id : Int) (avg max : Nat) (ha : avg < 2 ^ 32) (hm : max < 2 ^ 32) (c : MPEG4Audio.ASC) (enc : Bytes) (n : Nat)
    (typ entry ctyp config : Bytes) (hc : c.channelCount = 0 ∨ c.channelCount = n) (hn : Spec.Records.channelsOf c.channelConfig = some n)
    (hr : c.sampleRate < 65536) (he : c.marshal = .ok enc) (hl : enc.length + 32 < 2 ^ 28)
    (e : RecordWritten id avg max (.mpeg4Audio c) typ entry ctyp config) :
    AudioIs typ entry (fourcc 'm' 'p' '4' 'a') n 16 c.sampleRate ∧
    EsdsIs ctyp config id Spec.Records.mpeg4AudioType Spec.Records.audioStream max avg (some enc) := by
  obtain ⟨info, h1, h2, h3⟩ := e.filled
  have hcc : ascChannels c = .ok n ∧ n < 65536 := by
    unfold Spec.Records.channelsOf at hn
    unfold ascChannels
    split at hn <;> cases hn
    all_goals rename_i hx; rcases hc with hc | hc <;> simp [hc, hx]
  have h2 : (ascChannels c >>= _) = _ := h2
  rw [hcc.1, Res.bind_ok] at h2
  cases h2
  have h3 : (ascBytes c >>= _) = _ := h3
  unfold ascBytes at h3
  rw [he] at h3
  rw [Res.bind_ok] at h3
  cases h3
  refine ⟨⟨by rfl, ?_⟩, by rfl, record_esds (u16 id) 0x40 5 max avg enc (record_id id) (by decide) (by decide) hm ha hl⟩
  rw [Nat.mod_eq_of_lt (by omega)]
  exact record_audio n 16 c.sampleRate hcc.2 (by decide) hr

/-! ## H264 -/

theorem record_keep264 (s : H264.SPS) : Sat (Spec.H264.chromaFields s) fun x => x.profileIdc = s.profileIdc ∧ x.levelIdc = s.levelIdc := by
  refine Sat.ite (fun _ => ?_) fun _ => Sat.pure ⟨rfl, rfl⟩
  refine Sat.skip fun c => Sat.skip fun _ => Sat.skip fun _ => Sat.skip fun _ => Sat.skip fun _ => Sat.skip fun m => ?_
  exact Sat.skip fun _ => Sat.skip fun _ => Sat.pure ⟨rfl, rfl⟩

/-- The first three bytes of an SPS. -/
theorem record_sps264 (s x : H264.SPS) (sps : Bytes) (e : s.unmarshal sps = .ok x) :
    x.profileIdc = field (Spec.Records.avcRbsp sps) 0 8 ∧ x.levelIdc = field (Spec.Records.avcRbsp sps) 16 8 ∧
    x.profileIdc < 256 ∧ x.levelIdc < 256 ∧ ∀ b, idx sps 2 = .ok b → field (Spec.Records.avcRbsp sps) 8 8 = b.toNat := by
  obtain ⟨rbsp, bits, rest, ⟨h, t, rfl, _, hr⟩, g, hb⟩ := (C50_decode s x sps).1 e
  have e1 : Spec.Records.avcRbsp (h :: t) = rbsp := hr.symm
  rw [e1]
  obtain ⟨profile, _, _, ⟨hp, rfl⟩, ⟨c0, _, _, rfl, ⟨c1, _, _, rfl, ⟨c2, _, _, rfl, ⟨c3, _, _, rfl, ⟨c4, _, _, rfl, ⟨c5, _, _, rfl,
    ⟨_, res, _, hres, ⟨level, _, w, ⟨hl, rfl⟩, g, rfl⟩, rfl⟩, rfl⟩, rfl⟩, rfl⟩, rfl⟩, rfl⟩, rfl⟩, rfl⟩ := g
  have hres : res.length = 2 := hres
  have hx : x.profileIdc = profile ∧ x.levelIdc = level := by
    refine (show Sat _ (fun x : H264.SPS => x.profileIdc = profile ∧ x.levelIdc = level) from ?_) x _ g
    refine Sat.skip fun id => Sat.bind (record_keep264 _) fun s1 h1 => ?_
    refine Sat.bind (P := fun y : H264.SPS => y.profileIdc = profile ∧ y.levelIdc = level) ?_ fun s2 h2 => ?_
    · refine Sat.skip fun _ => Sat.skip fun _ => Sat.skip fun _ => Sat.skip fun _ => Sat.skip fun _ => Sat.skip fun _ =>
        Sat.skip fun _ => Sat.skip fun _ => Sat.skip fun _ => Sat.skip fun l => Sat.pure h1
    · refine Sat.skip fun _ => Sat.skip fun _ => Sat.skip fun _ => Sat.skip fun _ => Sat.skip fun _ => Sat.skip fun _ =>
        Sat.skip fun _ => Sat.skip fun _ => Sat.skip fun v => Sat.pure h2
  rw [hx.1, hx.2]
  refine ⟨?_, ?_, hp, hl, ?_⟩
  · exact (field_eq (pre := []) (hb.trans (List.append_assoc _ _ _)) hp rfl).symm
  · refine (field_eq (pre := bitsOfNat 8 profile ++ ([c0] ++ ([c1] ++ ([c2] ++ ([c3] ++ ([c4] ++ ([c5] ++ res))))))) (post := w ++ rest) ?_ hl ?_).symm
    · rw [hb]
      simp only [List.append_assoc]
    · simp [hres]
  · intro b hi
    have hlen := congrArg List.length hb
    rw [Spec.length_bitsOf] at hlen
    simp only [List.length_append, Spec.length_bitsOfNat, List.length_cons, List.length_nil, hres] at hlen
    match t, hr, hi with
    | [], hr, _ => rw [hr] at hlen; simp [Spec.epRemove] at hlen; omega
    | [a], hr, _ => rw [hr] at hlen; simp [Spec.epRemove] at hlen; omega
    | a :: c :: t, hr, hi =>
      cases hi
      have e2 : ∃ u, rbsp = a :: b :: u := by
        rw [hr, Spec.epRemove, if_neg (by omega), Spec.epRemove, if_neg (by split <;> omega)]
        exact ⟨_, rfl⟩
      obtain ⟨u, rfl⟩ := e2
      refine field_eq (pre := Spec.byteBits a) (post := bitsOf u) ?_ (UInt8.toNat_lt _) (by simp)
      rw [Spec.bitsOf_cons, Spec.bitsOf_cons]
      rfl

/-- What is written for H264. -/
theorem record_avc (id : Int) (avg max : Nat) (sps pps : Bytes) (typ entry ctyp config : Bytes)
    (e : RecordWritten id avg max (.h264 sps pps) typ entry ctyp config) :
    ∃ s b, ({} : H264.SPS).unmarshal sps = .ok s ∧ idx sps 2 = .ok b ∧ typ = typAvc1 ∧
      entry = encodeVisual (u16 s.width) (u16 s.height) ∧ ctyp = typAvcC ∧
      config = encodeAvcC s.profileIdc b.toNat s.levelIdc sps pps := by
  obtain ⟨info, hf, h2, h3⟩ := e.filled
  cases h2
  have hf : (if sps.length = 0 ∨ pps.length = 0 then _ else _) = Res.ok info := hf
  split at hf
  · cases hf
  obtain ⟨s, h1, hf⟩ := Res.bind_eq_ok.1 hf
  cases hf
  obtain ⟨s', h2, hc⟩ := Res.bind_eq_ok.1 h3
  cases h2
  obtain ⟨p, h3, hc⟩ := Res.bind_eq_ok.1 hc
  cases hc
  obtain ⟨b2, h4, h3⟩ := Res.bind_eq_ok.1 h3
  cases h3
  exact ⟨s, b2, h1, h4, rfl, rfl, rfl, rfl⟩

theorem record_set (b : Bytes) (h : b.length < 65536) : Carries (encodeSet b) (Spec.Records.sized b) := by
  refine carries_append (fs := [(16, b.length)]) (carries_self (by record_whole) ?_) (carries_bytes b)
  record_fits

/-- C85 for H264, for the profiles that are not high: the record describes the stream. -/
theorem C85_avc_partial (id : Int) (avg max : Nat) (sps pps : Bytes) (typ entry ctyp config : Bytes) (hs : sps.length < 65536)
    (hp : pps.length < 65536) (hh : field (Spec.Records.avcRbsp sps) 0 8 ∉ Spec.Records.highProfiles)
    (e : RecordWritten id avg max (.h264 sps pps) typ entry ctyp config) :
    ∃ s, ({} : H264.SPS).unmarshal sps = .ok s ∧
      (s.width < 65536 → s.height < 65536 → VisualIs typ entry (fourcc 'a' 'v' 'c' '1') s.width s.height) ∧
      ctyp = fourcc 'a' 'v' 'c' 'C' ∧ ∃ r : Spec.Records.Avc, Carries config r.fields ∧ r.Describes sps pps := by
  obtain ⟨s, b, h1, h2, rfl, rfl, rfl, rfl⟩ := record_avc id avg max sps pps typ entry ctyp config e
  obtain ⟨g1, g2, g3, g4, g5⟩ := record_sps264 _ s sps h1
  have g5 := g5 b h2
  refine ⟨s, h1, fun hw hh => ⟨by rfl, ?_⟩, by rfl,
    { profile := s.profileIdc, compatibility := b.toNat, level := s.levelIdc, lengthSizeMinusOne := 3, sps := [sps], pps := [pps], high := none },
    ?_, ⟨g1, g5.symm, g2, rfl, rfl, rfl, ?_⟩⟩
  · rw [record_u16 _ s.width rfl hw, record_u16 _ s.height rfl hh]
    exact record_visual _ _ hw hh
  · have hb := UInt8.toNat_lt b
    unfold encodeAvcC Spec.Records.Avc.fields
    simp only [List.flatMap_cons, List.flatMap_nil, List.append_nil, List.length_cons, List.length_nil]
    refine carries_append (carries_append (carries_append (carries_self (by record_whole) ?_) (record_set sps hs)) (carries_self (by record_whole) ?_))
      (record_set pps hp)
    · record_fits
    · record_fits
  · constructor
    · intro h; cases h
    · intro h
      rw [← g1] at hh
      exact absurd h hh

theorem record_sized_width (b : Bytes) : (widths (Spec.Records.sized b)).sum = 16 + 8 * b.length := by
  unfold Spec.Records.sized Spec.Records.bytes
  induction b with
  | nil => rfl
  | cons x l ih => simp [widths] at ih ⊢; omega

/-- C85 is false for H264 in the high profiles: the record ends before the fields that these profiles need. -/
theorem C85_avc_high_false (id : Int) (avg max : Nat) (sps pps : Bytes) (typ entry ctyp config : Bytes)
    (hh : field (Spec.Records.avcRbsp sps) 0 8 ∈ Spec.Records.highProfiles)
    (e : RecordWritten id avg max (.h264 sps pps) typ entry ctyp config) :
    ¬ ∃ r : Spec.Records.Avc, Carries config r.fields ∧ r.Describes sps pps := by
  obtain ⟨s, b, h1, h2, rfl, rfl, rfl, rfl⟩ := record_avc id avg max sps pps typ entry ctyp config e
  rintro ⟨r, hr, hd⟩
  have hlen := record_carries_length hr
  rw [← hd.profile] at hh
  have hi := hd.high.2 hh
  obtain ⟨x, hx⟩ := Option.isSome_iff_exists.1 hi
  unfold Spec.Records.Avc.fields Spec.Records.AvcHigh.fields at hlen
  rw [hd.spsList, hd.ppsList, hx] at hlen
  simp only [List.flatMap_cons, List.flatMap_nil, List.append_nil, widths, List.map_append, List.sum_append, List.map_cons, List.map_nil,
    List.sum_cons, List.sum_nil] at hlen
  have w1 := record_sized_width sps
  have w2 := record_sized_width pps
  unfold widths at w1 w2
  rw [w1, w2] at hlen
  unfold encodeAvcC encodeSet at hlen
  simp only [List.length_append, pack_length, widths, List.map_cons, List.map_nil, List.sum_cons, List.sum_nil] at hlen
  omega

/-! ## H265 -/

/-- Fields of profile_tier_level( ) at their places. -/
theorem record_ptl (p x : H265.ProfileTierLevel) (max : Nat) (bits : List Bool) (g : Spec.H265.profileTierLevel p max x bits) :
    ∃ (space tier : Nat) (compat cons w : List Bool), bits = bitsOfNat 2 space ++ (bitsOfNat 1 tier ++ (bitsOfNat 5 x.generalProfileIdc ++
      (compat ++ (cons ++ (bitsOfNat 8 x.generalLevelIdc ++ w))))) ∧ x.generalProfileCompatibilityFlag = compat ∧ compat.length = 32 ∧
      cons.length = 48 ∧ x.generalProfileIdc < 32 ∧ x.generalLevelIdc < 256 := by
  obtain ⟨q, b1, b2, gq, gx, rfl⟩ := g
  have hx : x.generalProfileIdc = q.generalProfileIdc ∧ x.generalProfileCompatibilityFlag = q.generalProfileCompatibilityFlag ∧
      x.generalLevelIdc = q.generalLevelIdc := by
    refine (show Sat _ (fun x : H265.ProfileTierLevel => x.generalProfileIdc = q.generalProfileIdc ∧
      x.generalProfileCompatibilityFlag = q.generalProfileCompatibilityFlag ∧ x.generalLevelIdc = q.generalLevelIdc) from ?_) x _ gx
    exact Sat.ite (fun _ => Sat.pure ⟨rfl, rfl, rfl⟩) fun _ => Sat.skip fun _ => Sat.skip fun _ => Sat.pure ⟨rfl, rfl, rfl⟩
  rw [hx.1, hx.2.1, hx.2.2]
  obtain ⟨space, _, _, ⟨_, rfl⟩, ⟨tier, _, _, ⟨_, rfl⟩, ⟨idc, _, _, ⟨hidc, rfl⟩, ⟨c0, compat, _, hc, g, rfl⟩, rfl⟩, rfl⟩, rfl⟩ := gq
  have hcl := (Sat.times (G := Spec.Gr.flag)) _ _ hc
  have hcb := times_flag hc
  subst hcb
  obtain ⟨f0, _, _, rfl, ⟨f1, _, _, rfl, ⟨f2, _, _, rfl, ⟨f3, _, _, rfl, ⟨f4, _, _, rfl, ⟨f5, _, _, rfl, ⟨f6, _, _, rfl, 
    ⟨f7, _, _, rfl, ⟨f8, _, _, rfl, ⟨f9, _, _, rfl, ⟨f10, _, _, rfl, ⟨f11, _, _, rfl, ⟨f12, _, _, rfl, ⟨f13, m14, _, h14,
    ⟨_, res, _, hres, ⟨level, _, _, ⟨hl, rfl⟩, ⟨rfl, rfl⟩, rfl⟩, rfl⟩, rfl⟩, rfl⟩, rfl⟩, rfl⟩, rfl⟩, rfl⟩, rfl⟩, rfl⟩, rfl⟩, rfl⟩, rfl⟩, rfl⟩, rfl⟩, rfl⟩ := g
  refine ⟨space, tier, compat, [f0, f1, f2, f3, f4, f5, f6, f7, f8, f9, f10, f11, f12] ++ (m14 ++ res), b2, ?_, rfl, hcl, ?_, hidc, hl⟩
  · simp only [List.append_assoc, List.cons_append, List.nil_append]
  · have hres : res.length = _ := hres
    simp only [List.length_append, List.length_cons, List.length_nil, hres]
    unfold Spec.Gr.opt at h14
    by_cases h : Spec.H265.HasMax14 idc compat
    · rw [if_pos h]
      rw [if_pos (by simp [h])] at h14
      rw [show m14 = [f13] from h14]; rfl
    · rw [if_neg h]
      rw [if_neg (by simp [h])] at h14
      rw [show m14 = [] from h14.2]; rfl

/-- The fields of the record that come from the SPS. -/
theorem record_sps265 (s x : H265.SPS) (sps : Bytes) (e : s.unmarshal sps = .ok x) :
    x.profileTierLevel.generalProfileIdc = field (Spec.Records.hevcRbsp sps) 11 5 ∧
    natOfBits x.profileTierLevel.generalProfileCompatibilityFlag = field (Spec.Records.hevcRbsp sps) 16 32 ∧
    x.profileTierLevel.generalLevelIdc = field (Spec.Records.hevcRbsp sps) 96 8 ∧
    x.profileTierLevel.generalProfileCompatibilityFlag.length = 32 ∧ x.profileTierLevel.generalProfileIdc < 32 ∧
    x.profileTierLevel.generalLevelIdc < 256 ∧ x.chromaFormatIdc ≤ 3 ∧ x.maxSubLayersMinus1 = field (Spec.Records.hevcRbsp sps) 4 3 := by
  have hch := (C51_bounds s x sps e).chroma
  obtain ⟨rbsp, bits, rest, ⟨h0, h1, t, rfl, _, hr⟩, g, hb⟩ := (C51_decode s x sps).1 e
  have e1 : Spec.Records.hevcRbsp (h0 :: h1 :: t) = rbsp := hr.symm
  rw [e1]
  obtain ⟨vps, _, _, ⟨hv, rfl⟩, ⟨mx, _, _, ⟨hmx, rfl⟩, ⟨nest, _, _, rfl, ⟨p, pb, w', hp, g, rfl⟩, rfl⟩, rfl⟩, rfl⟩ := g
  obtain ⟨space, tier, compat, cons, w, rfl, hcompat, hcl, hconl, hidc, hlev⟩ := record_ptl _ p _ _ hp
  have hx : x.profileTierLevel = p ∧ x.maxSubLayersMinus1 = mx := by
    refine (show Sat _ (fun x : H265.SPS => x.profileTierLevel = p ∧ x.maxSubLayersMinus1 = mx) from ?_) x _ g
    refine Sat.bind (P := fun (x : H265.SPS) => x.profileTierLevel = p ∧ x.maxSubLayersMinus1 = mx) ?_ fun a ha => ?_
    · refine Sat.skip fun _ => Sat.skip fun chroma => Sat.skip fun _ => Sat.skip fun _ => Sat.skip fun _ => Sat.skip fun _ => ?_
      exact Sat.skip fun _ => Sat.skip fun _ => Sat.skip fun _ => Sat.skip fun _ => Sat.pure ⟨rfl, rfl⟩
    refine Sat.bind (P := fun (x : H265.SPS) => x.profileTierLevel = p ∧ x.maxSubLayersMinus1 = mx) ?_ fun b hb => ?_
    · exact Sat.skip fun f => Sat.skip fun l => Sat.pure ha
    refine Sat.bind (P := fun (x : H265.SPS) => x.profileTierLevel = p ∧ x.maxSubLayersMinus1 = mx) ?_ fun c hc => ?_
    · refine Sat.skip fun _ => Sat.skip fun _ => Sat.skip fun _ => Sat.skip fun _ => Sat.skip fun _ => Sat.skip fun _ =>
        Sat.skip fun _ => Sat.skip fun _ => Sat.skip fun _ => Sat.skip fun _ => Sat.skip fun _ => Sat.skip fun _ => Sat.pure hb
    · exact Sat.skip fun _ => Sat.skip fun _ => Sat.skip fun _ => Sat.skip fun _ => Sat.skip fun _ => Sat.skip fun _ => Sat.skip fun _ =>
        Sat.skip fun _ => Sat.skip fun _ => Sat.pure hc
  rw [hx.1, hx.2, hcompat]
  simp only [List.append_assoc] at hb
  have hcb : compat = bitsOfNat 32 (natOfBits compat) := by rw [← hcl, Spec.bitsOfNat_natOfBits]
  refine ⟨?_, ?_, ?_, hcl, hidc, hlev, hch, ?_⟩
  · exact (field_eq (pre := bitsOfNat 4 vps ++ (bitsOfNat 3 mx ++ ([nest] ++ (bitsOfNat 2 space ++ bitsOfNat 1 tier))))
      (post := compat ++ (cons ++ (bitsOfNat 8 p.generalLevelIdc ++ (w ++ (w' ++ rest))))) (by rw [hb]; simp only [List.append_assoc]) hidc (by simp)).symm
  · refine (field_eq (pre := bitsOfNat 4 vps ++ (bitsOfNat 3 mx ++ ([nest] ++ (bitsOfNat 2 space ++ (bitsOfNat 1 tier ++ bitsOfNat 5 p.generalProfileIdc)))))
      (post := cons ++ (bitsOfNat 8 p.generalLevelIdc ++ (w ++ (w' ++ rest)))) ?_ ?_ (by simp)).symm
    · rw [← hcb, hb]; simp only [List.append_assoc]
    · have := Spec.natOfBits_lt compat
      rw [hcl] at this
      exact this
  · exact (field_eq (pre := bitsOfNat 4 vps ++ (bitsOfNat 3 mx ++ ([nest] ++ (bitsOfNat 2 space ++ (bitsOfNat 1 tier ++ (bitsOfNat 5 p.generalProfileIdc ++
      (compat ++ cons))))))) (post := w ++ (w' ++ rest)) (by rw [hb]; simp only [List.append_assoc]) hlev (by simp [hcl, hconl])).symm
  · exact (field_eq (pre := bitsOfNat 4 vps) hb hmx (by simp)).symm

/-- What is written for H265. -/
theorem record_hevc (id : Int) (avg max : Nat) (vps sps pps : Bytes) (typ entry ctyp config : Bytes)
    (e : RecordWritten id avg max (.h265 vps sps pps) typ entry ctyp config) :
    ∃ s w h cs, ({} : H265.SPS).unmarshal sps = .ok s ∧ s.width = .ok w ∧ s.height = .ok h ∧ constraintBytes sps = .ok cs ∧ typ = typHvc1 ∧
      entry = encodeVisual (u16 w) (u16 h) ∧ ctyp = typHvcC ∧
      config = encodeHvcC s.profileTierLevel.generalProfileIdc s.profileTierLevel.generalProfileCompatibilityFlag cs
        s.profileTierLevel.generalLevelIdc s.chromaFormatIdc s.bitDepthLumaMinus8 s.bitDepthChromaMinus8 vps sps pps := by
  obtain ⟨info, hf, h2, h3⟩ := e.filled
  cases h2
  have hf : (if vps.length = 0 ∨ sps.length = 0 ∨ pps.length = 0 then _ else _) = Res.ok info := hf
  split at hf
  · cases hf
  obtain ⟨s, h1, hf⟩ := Res.bind_eq_ok.1 hf
  obtain ⟨w, hw, hf⟩ := Res.bind_eq_ok.1 hf
  obtain ⟨h, hh, hf⟩ := Res.bind_eq_ok.1 hf
  cases hf
  obtain ⟨s', h2, hc⟩ := Res.bind_eq_ok.1 h3
  cases h2
  obtain ⟨p, h3, hc⟩ := Res.bind_eq_ok.1 hc
  cases hc
  obtain ⟨cs, h4, h3⟩ := Res.bind_eq_ok.1 h3
  cases h3
  exact ⟨s, w, h, cs, h1, hw, hh, h4, rfl, rfl, rfl, rfl⟩

/-- The bytes 7 to 12 of the NAL unit. -/
theorem record_constraint (sps cs : Bytes) (h : constraintBytes sps = .ok cs) : cs = (sps.drop 7).take 6 ∧ cs.length = 6 := by
  unfold constraintBytes at h
  obtain ⟨b7, h7, h⟩ := Res.bind_eq_ok.1 h
  obtain ⟨b8, h8, h⟩ := Res.bind_eq_ok.1 h
  obtain ⟨b9, h9, h⟩ := Res.bind_eq_ok.1 h
  obtain ⟨b10, h10, h⟩ := Res.bind_eq_ok.1 h
  obtain ⟨b11, h11, h⟩ := Res.bind_eq_ok.1 h
  obtain ⟨b12, h12, h⟩ := Res.bind_eq_ok.1 h
  cases h
  have get : ∀ i b, idx sps i = .ok b → sps[i]? = some b := by
    intro i b h
    unfold idx at h
    split at h
    · cases h; assumption
    · cases h
  refine ⟨?_, rfl⟩
  have h7 := get _ _ h7
  have h8 := get _ _ h8
  have h9 := get _ _ h9
  have h10 := get _ _ h10
  have h11 := get _ _ h11
  have h12 := get _ _ h12
  apply List.ext_getElem?
  intro i
  match i with
  | 0 => simp [h7]
  | 1 => simp [h8]
  | 2 => simp [h9]
  | 3 => simp [h10]
  | 4 => simp [h11]
  | 5 => simp [h12]
  | n + 6 => simp; omega

/-- The record that is written. -/
def recordHevc (s : H265.SPS) (cs vps sps pps : Bytes) : Spec.Records.Hevc :=
  { profileSpace := 0, tier := 0, profile := s.profileTierLevel.generalProfileIdc,
    compatibility := natOfBits s.profileTierLevel.generalProfileCompatibilityFlag, constraints := natOfBits (bitsOf cs),
    level := s.profileTierLevel.generalLevelIdc, minSpatialSegmentation := 0, parallelism := 0, chroma := s.chromaFormatIdc,
    luma8 := s.bitDepthLumaMinus8, chroma8 := s.bitDepthChromaMinus8, avgFrameRate := 0, constantFrameRate := 0, numTemporalLayers := 2,
    temporalIdNested := 0, lengthSizeMinusOne := 3, arrays := [⟨0, 32, [vps]⟩, ⟨0, 33, [sps]⟩, ⟨0, 34, [pps]⟩] }

theorem record_hevc_array (typ : Nat) (b : Bytes) (ht : typ < 64) (h : b.length < 65536) :
    Carries (encodeArray typ b) (Spec.Records.HevcArray.fields ⟨0, typ, [b]⟩) := by
  unfold encodeArray Spec.Records.HevcArray.fields
  simp only [List.flatMap_cons, List.flatMap_nil, List.append_nil, List.length_cons, List.length_nil]
  refine carries_append (carries_self (by record_whole) ?_) (record_set b h)
  record_fits

theorem record_sum_const {α : Type} (k : Nat) (l : List α) : (l.map fun _ => k).sum = k * l.length := by
  induction l with
  | nil => rfl
  | cons a l ih => rw [List.map_cons, List.sum_cons, ih, List.length_cons, Nat.mul_add]; omega

theorem record_hevc_carries (s : H265.SPS) (cs vps sps pps : Bytes) (hc : s.profileTierLevel.generalProfileCompatibilityFlag.length = 32)
    (hcs : cs.length = 6) (h1 : s.profileTierLevel.generalProfileIdc < 32) (h2 : s.profileTierLevel.generalLevelIdc < 256)
    (h3 : s.chromaFormatIdc ≤ 3) (h4 : s.bitDepthLumaMinus8 < 8) (h5 : s.bitDepthChromaMinus8 < 8) (hv : vps.length < 65536)
    (hs : sps.length < 65536) (hp : pps.length < 65536) :
    Carries (encodeHvcC s.profileTierLevel.generalProfileIdc s.profileTierLevel.generalProfileCompatibilityFlag cs
        s.profileTierLevel.generalLevelIdc s.chromaFormatIdc s.bitDepthLumaMinus8 s.bitDepthChromaMinus8 vps sps pps)
      (recordHevc s cs vps sps pps).fields := by
  have b1 := Spec.natOfBits_lt s.profileTierLevel.generalProfileCompatibilityFlag
  rw [hc] at b1
  have b2 := Spec.natOfBits_lt (bitsOf cs)
  rw [Spec.length_bitsOf, hcs] at b2
  have b3 : bitsOfNat 32 (natOfBits s.profileTierLevel.generalProfileCompatibilityFlag) = s.profileTierLevel.generalProfileCompatibilityFlag := by
    rw [← hc, Spec.bitsOfNat_natOfBits]
  have b4 : bitsOfNat 48 (natOfBits (bitsOf cs)) = bitsOf cs := by
    have : (bitsOf cs).length = 48 := by rw [Spec.length_bitsOf, hcs]
    rw [← this, Spec.bitsOfNat_natOfBits]
  unfold encodeHvcC Spec.Records.Hevc.fields
  refine carries_append (carries_pack ?_ ?_ ?_) ?_
  · simp [widths, Function.comp_def, record_sum_const, hc, hcs]
  · unfold Spec.Records.Hevc.head recordHevc
    dsimp only
    revert b1 b2
    generalize natOfBits s.profileTierLevel.generalProfileCompatibilityFlag = x
    generalize natOfBits (bitsOf cs) = y
    intro b1 b2
    simp only [List.length_cons, List.length_nil]
    record_fits
  · unfold Spec.Records.Hevc.head recordHevc
    dsimp only
    have f1 : flat (s.profileTierLevel.generalProfileCompatibilityFlag.map fun c => (1, bit c)) =
        s.profileTierLevel.generalProfileCompatibilityFlag := flat_flags _
    have f2 : flat (cs.map fun c => (8, c.toNat)) = bitsOf cs := flat_bytes cs
    rw [flat_append, flat_append, flat_append, f1, f2]
    simp only [flat_cons, b3, b4, List.append_assoc, List.length_cons, List.length_nil]
    rfl
  · unfold recordHevc
    simp only [List.flatMap_cons, List.flatMap_nil, List.append_nil, List.append_assoc]
    exact carries_append (record_hevc_array 32 vps (by decide) hv) (carries_append (record_hevc_array 33 sps (by decide) hs)
      (record_hevc_array 34 pps (by decide) hp))

/-- The parameter sets fit their fields, and bit depths are below 16. -/
structure HevcFits (s : H265.SPS) (vps sps pps : Bytes) : Prop where
  luma : s.bitDepthLumaMinus8 < 8
  chroma : s.bitDepthChromaMinus8 < 8
  vps : vps.length < 65536
  sps : sps.length < 65536
  pps : pps.length < 65536

/-- C85 for H265: profile, compatibility flags, level, chroma format, bit depths, length size and the parameter sets. -/
theorem C85_hevc_partial (id : Int) (avg max : Nat) (vps sps pps : Bytes) (typ entry ctyp config : Bytes)
    (e : RecordWritten id avg max (.h265 vps sps pps) typ entry ctyp config) :
    ∃ s w h, ({} : H265.SPS).unmarshal sps = .ok s ∧ s.width = .ok w ∧ s.height = .ok h ∧
      (w < 65536 → h < 65536 → VisualIs typ entry (fourcc 'h' 'v' 'c' '1') w h) ∧
      ctyp = fourcc 'h' 'v' 'c' 'C' ∧ (HevcFits s vps sps pps → ∃ r : Spec.Records.Hevc, Carries config r.fields ∧ r.DescribesProfile sps ∧
        r.chroma = s.chromaFormatIdc ∧ r.luma8 = s.bitDepthLumaMinus8 ∧ r.chroma8 = s.bitDepthChromaMinus8 ∧ r.lengthSizeMinusOne = 3 ∧
        r.arrays.map (fun a => (a.type, a.nalus)) = [(32, [vps]), (33, [sps]), (34, [pps])]) := by
  obtain ⟨s, w, h, cs, h1, hw, hh, h4, rfl, rfl, rfl, rfl⟩ := record_hevc id avg max vps sps pps typ entry ctyp config e
  obtain ⟨g1, g2, g3, g4, g5, g6, g7, _⟩ := record_sps265 _ s sps h1
  refine ⟨s, w, h, h1, hw, hh, fun hw hh => ⟨by rfl, ?_⟩, by rfl, fun hf => ⟨recordHevc s cs vps sps pps, ?_, ⟨g1, g2, g3⟩, rfl, rfl, rfl, rfl, rfl⟩⟩
  · rw [record_u16 _ w rfl hw, record_u16 _ h rfl hh]
    exact record_visual _ _ hw hh
  · exact record_hevc_carries s cs vps sps pps g4 (record_constraint sps cs h4).2 g5 g6 g7 hf.luma hf.chroma hf.vps hf.sps hf.pps

/-- What any reader finds in the record. -/
theorem record_hevc_read (id : Int) (avg max : Nat) (vps sps pps : Bytes) (typ entry ctyp config : Bytes) (s : H265.SPS)
    (hs : ({} : H265.SPS).unmarshal sps = .ok s) (hf : HevcFits s vps sps pps)
    (e : RecordWritten id avg max (.h265 vps sps pps) typ entry ctyp config) (r : Spec.Records.Hevc) (hr : Carries config r.fields) :
    r.profileSpace = 0 ∧ r.tier = 0 ∧ r.constraints = natOfBits (bitsOf ((sps.drop 7).take 6)) ∧ r.numTemporalLayers = 2 ∧
      ∀ a, r.arrays.head? = some a → a.complete = 0 := by
  obtain ⟨s', w, h, cs, h1, hw, hh, h4, rfl, rfl, rfl, rfl⟩ := record_hevc id avg max vps sps pps typ entry ctyp config e
  rw [hs] at h1
  cases h1
  obtain ⟨g1, g2, g3, g4, g5, g6, g7, _⟩ := record_sps265 _ s sps hs
  obtain ⟨c1, c2⟩ := record_constraint sps cs h4
  have hc := record_hevc_carries s cs vps sps pps g4 c2 g5 g6 g7 hf.luma hf.chroma hf.vps hf.sps hf.pps
  rw [← c1]
  have e := hr.2.symm.trans hc.2
  have eh := flat_inj r.head (recordHevc s cs vps sps pps).head (flat (r.arrays.flatMap Spec.Records.HevcArray.fields))
    (flat ((recordHevc s cs vps sps pps).arrays.flatMap Spec.Records.HevcArray.fields)) (by rfl)
    (fun f hf => hr.1 f (List.mem_append_left _ hf)) (fun f hf => hc.1 f (List.mem_append_left _ hf)) (by
      rw [← flat_append, ← flat_append]; exact e)
  have e2 : flat (r.arrays.flatMap Spec.Records.HevcArray.fields) =
      flat ((recordHevc s cs vps sps pps).arrays.flatMap Spec.Records.HevcArray.fields) := by
    have e : flat (r.head ++ _) = flat ((recordHevc s cs vps sps pps).head ++ _) := e
    rw [flat_append, flat_append, eh] at e
    exact List.append_cancel_left e
  simp only [Spec.Records.Hevc.head, recordHevc, List.cons.injEq, Prod.mk.injEq, true_and, and_true] at eh
  obtain ⟨e0, e1, _, _, e4, _, _, _, _, _, _, _, _, e13, _⟩ := eh
  refine ⟨e0, e1, e4, e13, ?_⟩
  intro a ha
  obtain ⟨l, hl⟩ : ∃ l, r.arrays = a :: l := by
    cases hx : r.arrays with
    | nil => rw [hx] at ha; cases ha
    | cons b l => rw [hx] at ha; cases ha; exact ⟨l, rfl⟩
  have hrange : ∀ f ∈ [(1, a.complete)], f.2 < 2 ^ f.1 := by
    intro f hf
    refine hr.1 f (List.mem_append_right _ ?_)
    rw [hl, List.flatMap_cons]
    refine List.mem_append_left _ (List.mem_append_left _ ?_)
    rw [List.mem_singleton.1 hf]
    exact .head _
  have := flat_inj [(1, a.complete)] [(1, 0)] _ _ (by rfl) hrange (by decide) (by
    rw [← flat_append, ← flat_append]
    rw [hl] at e2
    exact e2)
  simp only [List.cons.injEq, Prod.mk.injEq, true_and, and_true] at this
  exact this

/-- C85 is false for H265: no record of a `hvc1` entry describes its stream, because array_completeness is always 0. -/
theorem C85_hevc_false (id : Int) (avg max : Nat) (vps sps pps : Bytes) (typ entry ctyp config : Bytes) (s : H265.SPS)
    (hs : ({} : H265.SPS).unmarshal sps = .ok s) (hf : HevcFits s vps sps pps)
    (e : RecordWritten id avg max (.h265 vps sps pps) typ entry ctyp config) :
    ¬ ∃ r : Spec.Records.Hevc, Carries config r.fields ∧
      r.Describes s.chromaFormatIdc s.bitDepthLumaMinus8 s.bitDepthChromaMinus8 vps sps pps := by
  rintro ⟨r, hr, hd⟩
  obtain ⟨_, _, _, _, h⟩ := record_hevc_read id avg max vps sps pps typ entry ctyp config s hs hf e r hr
  have := h ⟨1, 32, [vps]⟩ (by rw [hd.arrays]; rfl)
  cases this

/-- C85 is false for H265: the record says that there are two temporal layers, whatever the SPS says. -/
theorem C85_hevc_layers_false (id : Int) (avg max : Nat) (vps sps pps : Bytes) (typ entry ctyp config : Bytes) (s : H265.SPS)
    (hs : ({} : H265.SPS).unmarshal sps = .ok s) (hf : HevcFits s vps sps pps) (hl : s.maxSubLayersMinus1 ≠ 1)
    (e : RecordWritten id avg max (.h265 vps sps pps) typ entry ctyp config) :
    ¬ ∃ r : Spec.Records.Hevc, Carries config r.fields ∧
      (r.numTemporalLayers = 0 ∨ r.numTemporalLayers = field (Spec.Records.hevcRbsp sps) 4 3 + 1) := by
  rintro ⟨r, hr, hd⟩
  obtain ⟨_, _, _, h, _⟩ := record_hevc_read id avg max vps sps pps typ entry ctyp config s hs hf e r hr
  obtain ⟨_, _, _, _, _, _, _, g⟩ := record_sps265 _ s sps hs
  omega

/-- C85 is false for H265: the record says main tier, whatever the SPS says. -/
theorem C85_hevc_tier_false (id : Int) (avg max : Nat) (vps sps pps : Bytes) (typ entry ctyp config : Bytes) (s : H265.SPS)
    (hs : ({} : H265.SPS).unmarshal sps = .ok s) (hf : HevcFits s vps sps pps) (hl : field (Spec.Records.hevcRbsp sps) 10 1 = 1)
    (e : RecordWritten id avg max (.h265 vps sps pps) typ entry ctyp config) :
    ¬ ∃ r : Spec.Records.Hevc, Carries config r.fields ∧ r.tier = field (Spec.Records.hevcRbsp sps) 10 1 := by
  rintro ⟨r, hr, hd⟩
  obtain ⟨_, h, _⟩ := record_hevc_read id avg max vps sps pps typ entry ctyp config s hs hf e r hr
  omega

/-- C85 is false for H265: the constraint flags of the record are the bytes 7 to 12 of the NAL unit, not the bytes 8 to 13 without emulation
prevention. -/
theorem C85_hevc_constraints_false (id : Int) (avg max : Nat) (vps sps pps : Bytes) (typ entry ctyp config : Bytes) (s : H265.SPS)
    (hs : ({} : H265.SPS).unmarshal sps = .ok s) (hf : HevcFits s vps sps pps)
    (hl : natOfBits (bitsOf ((sps.drop 7).take 6)) ≠ field (Spec.Records.hevcRbsp sps) 48 48)
    (e : RecordWritten id avg max (.h265 vps sps pps) typ entry ctyp config) :
    ¬ ∃ r : Spec.Records.Hevc, Carries config r.fields ∧ r.constraints = field (Spec.Records.hevcRbsp sps) 48 48 := by
  rintro ⟨r, hr, hd⟩
  obtain ⟨_, _, h, _⟩ := record_hevc_read id avg max vps sps pps typ entry ctyp config s hs hf e r hr
  exact hl (h.symm.trans hd)

/-! ## AV1 -/

theorem record_times_all {α : Type} {G : Spec.Gr α} {P : α → Prop} (h : Sat G P) : ∀ n, Sat (Spec.Gr.times G n) fun l => ∀ a ∈ l, P a
  | 0 => Sat.pure (by simp)
  | n + 1 => Sat.bind h fun a ha => Sat.bind (record_times_all h n) fun l hl => Sat.pure (by
      intro b hb
      rcases List.mem_cons.1 hb with rfl | hb
      · exact ha
      · exact hl b hb)

/-- The values of a sequence header fit the fields of the record. -/
structure RecordAv1Fits (h : AV1.SequenceHeader) : Prop where
  profile : h.seqProfile < 8
  level : ∀ l ∈ h.seqLevelIdx, l < 32
  position : h.colorConfig.chromaSamplePosition < 4

theorem record_av1_fits (sh : Bytes) (h : AV1.SequenceHeader) (e : ({} : AV1.SequenceHeader).unmarshal sh = .ok h) : RecordAv1Fits h := by
  obtain ⟨payload, hs, grain, bits, rest, -, g, -, rfl⟩ := (C52_decode {} h sh).1 e
  suffices RecordAv1Fits hs from ⟨this.profile, this.level, this.position⟩
  refine (show Sat (Spec.AV1.start {}) RecordAv1Fits from ?_) hs bits g
  have keep : ∀ {x y : AV1.SequenceHeader}, RecordAv1Fits x → y.seqProfile = x.seqProfile → y.seqLevelIdx = x.seqLevelIdx →
      y.colorConfig = x.colorConfig → RecordAv1Fits y := by
    intro x y h e1 e2 e3
    exact ⟨by rw [e1]; exact h.profile, by rw [e2]; exact h.level, by rw [e3]; exact h.position⟩
  refine Sat.bind Sat.u fun profile hp => Sat.skip fun _ => Sat.skip fun _ => ?_
  refine Sat.bind (P := RecordAv1Fits) ?_ fun h1 s1 => ?_
  · refine Sat.ite (fun _ => Sat.bind Sat.u fun level hl => Sat.pure ⟨hp, ?_, by show 0 < 4; decide⟩) fun _ => ?_
    · intro l hm
      rw [List.mem_singleton.1 hm]
      exact hl
    · refine Sat.skip fun _ => Sat.skip fun _ => Sat.skip fun _ => Sat.skip fun cnt => ?_
      refine Sat.bind (record_times_all (P := fun x => x.2.1 < 32) ?_ _) fun ops ho => Sat.pure ⟨hp, ?_, by show 0 < 4; decide⟩
      · exact Sat.skip fun _ => Sat.bind Sat.u fun level hl => Sat.skip fun _ => Sat.pure hl
      · intro l hm
        obtain ⟨x, hx, rfl⟩ := List.mem_map.1 hm
        exact ho x hx
  refine Sat.bind (P := RecordAv1Fits) ?_ fun h2 s2 => ?_
  · exact Sat.skip fun _ => Sat.skip fun _ => Sat.skip fun _ => Sat.skip fun _ => Sat.pure (keep s1 rfl rfl rfl)
  refine Sat.bind (P := RecordAv1Fits) ?_ fun h3 s3 => ?_
  · exact Sat.skip fun _ => Sat.ite (fun _ => Sat.skip fun _ => Sat.skip fun _ => Sat.pure (keep s2 rfl rfl rfl)) fun _ =>
      Sat.pure (keep s2 rfl rfl rfl)
  refine Sat.bind (P := RecordAv1Fits) ?_ fun h4 s4 => ?_
  · exact Sat.skip fun _ => Sat.skip fun _ => Sat.skip fun _ => Sat.pure (keep s3 rfl rfl rfl)
  refine Sat.bind (P := RecordAv1Fits) ?_ fun h5 s5 => ?_
  · refine Sat.ite (fun _ => Sat.pure (keep s4 rfl rfl rfl)) fun _ => ?_
    exact Sat.skip fun _ => Sat.skip fun _ => Sat.skip fun _ => Sat.skip fun _ => Sat.skip fun _ => Sat.skip fun _ =>
      Sat.skip fun _ => Sat.skip fun _ => Sat.skip fun _ => Sat.skip fun _ => Sat.pure (keep s4 rfl rfl rfl)
  refine Sat.skip fun _ => Sat.skip fun _ => Sat.skip fun _ => Sat.bind (P := fun c => c.chromaSamplePosition < 4) ?_ fun c hc =>
    Sat.pure ⟨s5.profile, s5.level, hc⟩
  refine Sat.skip fun _ => Sat.skip fun _ => Sat.skip fun _ => Sat.skip fun _ => Sat.skip fun _ => ?_
  refine Sat.ite (fun _ => Sat.skip fun _ => Sat.pure (by show 0 < 4; decide)) fun _ => ?_
  refine Sat.ite (fun _ => Sat.pure s5.position) fun _ => ?_
  refine Sat.skip fun _ => Sat.skip fun _ => Sat.bind (P := fun n => n < 4) ?_ fun n hn => Sat.pure hn
  exact Sat.ite (fun _ => Sat.u) fun _ => Sat.pure s5.position

/-- C85 for AV1: the record holds profile, level and tier of the first operating point and the color format of the sequence header, and the
sequence header itself as an OBU with size. -/
theorem C85_av1 (id : Int) (avg max : Nat) (sh : Bytes) (hv : AV1.ValidObu sh) (typ entry ctyp config : Bytes)
    (e : RecordWritten id avg max (.av1 sh) typ entry ctyp config) :
    ∃ (h : AV1.SequenceHeader) (level : Nat) (tier : Bool), ({} : AV1.SequenceHeader).unmarshal sh = .ok h ∧
      h.seqLevelIdx.head? = some level ∧ h.seqTier.head? = some tier ∧
      (h.width < 65536 → h.height < 65536 → VisualIs typ entry (fourcc 'a' 'v' '0' '1') h.width h.height) ∧
      ctyp = fourcc 'a' 'v' '1' 'C' ∧ ∃ head obus, config = head ++ obus ∧ Spec.IsObuStream obus [sh] ∧
        Carries head (Spec.Records.av1Head h.seqProfile level tier.toNat h.colorConfig.highBitDepth.toNat h.colorConfig.twelveBit.toNat
          h.colorConfig.monoChrome.toNat h.colorConfig.subsamplingX.toNat h.colorConfig.subsamplingY.toNat
          h.colorConfig.chromaSamplePosition) := by
  obtain ⟨info, hf, h2, h3⟩ := e.filled
  cases h2
  obtain ⟨h, h1, hf⟩ := Res.bind_eq_ok.1 hf
  cases hf
  obtain ⟨obus, ho, hc⟩ := Res.bind_eq_ok.1 h3
  obtain ⟨h', h2, hc⟩ := Res.bind_eq_ok.1 hc
  cases h2
  obtain ⟨p, h3, hc⟩ := Res.bind_eq_ok.1 hc
  cases hc
  obtain ⟨level, hl, h3⟩ := Res.bind_eq_ok.1 h3
  obtain ⟨tier, ht, h3⟩ := Res.bind_eq_ok.1 h3
  cases h3
  have get : ∀ {α : Type} (l : List α) (b : α), idx l 0 = .ok b → l.head? = some b := by
    intro α l b h
    cases l with
    | nil => cases h
    | cons a l => cases h; rfl
  have hfit := record_av1_fits sh h h1
  have hl' := hfit.level level (List.mem_of_mem_head? (get _ _ hl))
  have hp := hfit.profile
  have hcp := hfit.position
  rw [AV1.bitstreamMarshal_spec [sh] (by simpa using hv)] at ho
  cases ho
  have hb : ∀ b : Bool, bit b = b.toNat := by decide
  refine ⟨h, level, tier, h1, get _ _ hl, get _ _ ht, fun hw hh => ⟨by rfl, ?_⟩, by rfl, _, _, rfl, ?_, ?_⟩
  · rw [record_u16 _ h.width rfl hw, record_u16 _ h.height rfl hh]
    exact record_visual _ _ hw hh
  · exact .cons (AV1.writeRec_isRecord hv) .nil
  · simp only [hb]
    have b1 := Bool.toNat_lt tier
    have b2 := Bool.toNat_lt h.colorConfig.highBitDepth
    have b3 := Bool.toNat_lt h.colorConfig.twelveBit
    have b4 := Bool.toNat_lt h.colorConfig.monoChrome
    have b5 := Bool.toNat_lt h.colorConfig.subsamplingX
    have b6 := Bool.toNat_lt h.colorConfig.subsamplingY
    refine carries_self (by record_whole) ?_
    record_fits

end Verif.Props
