import Verif.Props.CodecRecordsRead
import Verif.Props.H264SPS
import Verif.Props.H265DTS

/-!
# C91: records that are read wrongly or refused, and examples
-/

namespace Verif.Props
open MP4Box MP4Codec
open Records
open Spec (bitsOf auBytes)
open Spec.Records (Carries fourcc)

/-! ## The size of the lengths of NAL units -/

/-- C91 for samples: the NAL units of a sample of a track that was read are found. -/
def C91_samples : Prop :=
  ∀ (entry config : Bytes) (e : Spec.Records.VisualEntry) (r : Spec.Records.Avc) (c : Codec) (nalus : List Bytes),
    Spec.Records.IsVisualEntry entry e → Carries config r.fields →
    CodecReads (fourcc 'a' 'v' 'c' '1') entry (fourcc 'a' 'v' 'c' 'C') config c →
    1 ≤ nalus.length → nalus.length ≤ 50 → (∀ n ∈ nalus, n ≠ []) → (∀ n ∈ nalus, n.length < 256 ^ (r.lengthSizeMinusOne + 1)) →
    auBytes nalus ≤ 8 * 1024 * 1024 →
    FMP4.getH264 { payload := Spec.Records.lengthPrefixed r.lengthSizeMinusOne nalus } = .ok nalus

theorem taken_lengthPrefixed (nalus : List Bytes) : Spec.Records.lengthPrefixed 3 nalus = Spec.avccRecords nalus := by
  unfold Spec.Records.lengthPrefixed Spec.avccRecords
  refine congrArg (fun f => nalus.flatMap f) (funext fun n => ?_)
  congr 1
  simp [Spec.Records.lengthBytes, Spec.be32, List.range, List.range.loop]

/-- C91 for samples, for the records with lengths of four bytes, which are the ones that are written. -/
theorem C91_samples_partial (r : Spec.Records.Avc) (nalus : List Bytes) (hr : r.lengthSizeMinusOne = 3) (h1 : 1 ≤ nalus.length)
    (h2 : nalus.length ≤ 50) (h3 : ∀ n ∈ nalus, n ≠ []) (h4 : ∀ n ∈ nalus, n.length < 256 ^ (r.lengthSizeMinusOne + 1))
    (h5 : auBytes nalus ≤ 8 * 1024 * 1024) :
    FMP4.getH264 { payload := Spec.Records.lengthPrefixed r.lengthSizeMinusOne nalus } = .ok nalus := by
  rw [hr] at h4 ⊢
  have hf : nalus.filter (· ≠ []) = nalus := by
    rw [List.filter_eq_self]
    intro x hx
    simpa using h3 x hx
  exact (C07_avcc_accepts_iff _ _).2 ⟨nalus, h4, taken_lengthPrefixed nalus, hf.symm, h1, h2, h5⟩

/-- A sample entry that names its encoder, with a picture of 1920x1080. -/
def takenVisual : Spec.Records.VisualEntry :=
  { reserved := 0, dataReference := 1, preDefined := 0, reserved2 := 0, preDefined2 := 0, width := 1920, height := 1080,
    horizontalResolution := 0x480000, verticalResolution := 0x480000, reserved3 := 0, frameCount := 1, compressorName := 0x0478323634 * 2 ^ 216,
    depth := 24, preDefined3 := 0xFFFF }

theorem taken_visual_example : Spec.Records.IsVisualEntry (pack takenVisual.fields) takenVisual :=
  carries_self (by decide) (by decide)

/-- A stereo sample entry at 48 kHz. -/
def takenAudio : Spec.Records.AudioEntry :=
  { reserved := 0, dataReference := 1, reserved2 := 0, reserved3 := 0, channels := 2, size := 16, preDefined := 0, reserved4 := 0, rate := 48000,
    rateFraction := 0 }

theorem taken_audio_example : Spec.Records.IsAudioEntry (pack takenAudio.fields) takenAudio :=
  carries_self (by decide) (by decide)

/-- A record with lengths of two bytes. -/
def takenAvc : Spec.Records.Avc :=
  { profile := 66, compatibility := 0xC0, level := 40, lengthSizeMinusOne := 1, sps := [h264Sample], pps := [[0x68, 0xCE]], high := none }

theorem taken_avc_example : Carries (pack takenAvc.fields) takenAvc.fields :=
  carries_self (by decide) (by decide)

/-- The example is read. -/
theorem taken_avc_reads :
    CodecReads (fourcc 'a' 'v' 'c' '1') (pack takenVisual.fields) (fourcc 'a' 'v' 'c' 'C') (pack takenAvc.fields) (.h264 h264Sample [0x68, 0xCE]) :=
  (C91_h264 _ _ _ takenAvc _ taken_visual_example taken_avc_example).2
    ⟨h264Sample, [0x68, 0xCE], rfl, rfl, ⟨h264SampleSPS, by decide +kernel⟩, by decide, rfl⟩

/-- C91 is false for samples: a record with lengths of two bytes is accepted, and its samples are read with lengths of four bytes. -/
theorem C91_samples_false : ¬ C91_samples := by
  intro h
  have := h _ _ _ takenAvc _ [[0x65, 0x88, 0x84]] taken_visual_example taken_avc_example taken_avc_reads (by decide) (by decide) (by decide)
    (by decide) (by decide)
  revert this
  decide +kernel

/-- What the reader makes of a record does not depend on the size of the lengths. -/
theorem C91_length_ignored (entry config config' : Bytes) (e : Spec.Records.VisualEntry) (r : Spec.Records.Avc) (k : Nat) (c : Codec)
    (he : Spec.Records.IsVisualEntry entry e) (hc : Carries config r.fields) (hc' : Carries config' { r with lengthSizeMinusOne := k }.fields) :
    CodecReads (fourcc 'a' 'v' 'c' '1') entry (fourcc 'a' 'v' 'c' 'C') config c ↔
      CodecReads (fourcc 'a' 'v' 'c' '1') entry (fourcc 'a' 'v' 'c' 'C') config' c := by
  rw [C91_h264 entry config e r c he hc, C91_h264 entry config' e _ c he hc']

/-! ## Channels of AC-3 -/

/-- C91 for the channels of AC-3: they are the ones of acmod and lfeon. -/
def C91_ac3_channels : Prop :=
  ∀ (entry config : Bytes) (e : Spec.Records.AudioEntry) (fscod bsid bsmod acmod lfeon bitRateCode : Nat) (c : AC3),
    Spec.Records.IsAudioEntry entry e → Carries config (Spec.Records.dac3 fscod bsid bsmod acmod lfeon bitRateCode) →
    CodecReads (fourcc 'a' 'c' '-' '3') entry (fourcc 'd' 'a' 'c' '3') config (.ac3 c) →
    c.channelCount = Spec.Records.ac3Channels acmod lfeon

/-- C91 is false for the channels of AC-3: they are taken from the sample entry, where ETSI TS 102 366 F.3 says that they are ignored. This is
a record with 5.1 channels in a stereo sample entry. -/
theorem C91_ac3_channels_false : ¬ C91_ac3_channels := by
  intro h
  have hc : Carries (pack (Spec.Records.dac3 0 8 0 7 1 15)) (Spec.Records.dac3 0 8 0 7 1 15) := carries_self (by decide) (by decide)
  have := h _ _ _ 0 8 0 7 1 15 _ taken_audio_example hc ((C91_ac3 _ _ _ 0 8 0 7 1 15 _ taken_audio_example hc).2 rfl)
  revert this
  decide

/-- C91 for the channels of AC-3, for the sample entries that have the right number. -/
theorem C91_ac3_channels_partial (entry config : Bytes) (e : Spec.Records.AudioEntry) (fscod bsid bsmod acmod lfeon bitRateCode : Nat) (c : AC3)
    (he : Spec.Records.IsAudioEntry entry e) (hc : Carries config (Spec.Records.dac3 fscod bsid bsmod acmod lfeon bitRateCode))
    (hn : e.channels = Spec.Records.ac3Channels acmod lfeon)
    (h : CodecReads (fourcc 'a' 'c' '-' '3') entry (fourcc 'd' 'a' 'c' '3') config (.ac3 c)) :
    c.channelCount = Spec.Records.ac3Channels acmod lfeon := by
  have := (C91_ac3 _ _ _ _ _ _ _ _ _ _ he hc).1 h
  injection this with this
  rw [this, ← hn]

/-! ## Object types of MPEG-1 and MPEG-2 -/

/-- C91 for MPEG-1 and MPEG-2 audio: tracks with the object type of the standard are read. -/
def C91_mpeg_audio : Prop :=
  ∀ (entry config : Bytes) (e : Spec.Records.AudioEntry) (r : Spec.Records.Esds), Spec.Records.IsAudioEntry entry e →
    Spec.Records.IsEsds config r → Spec.Records.mpegAudioType e.rate = some r.objectType →
    CodecReads (fourcc 'm' 'p' '4' 'a') entry (fourcc 'e' 's' 'd' 's') config (.mpeg1Audio e.rate e.channels)

/-- C91 for MPEG-1 and MPEG-2 audio at the rates of MPEG-1. -/
theorem C91_mpeg_audio_partial (entry config : Bytes) (e : Spec.Records.AudioEntry) (r : Spec.Records.Esds)
    (he : Spec.Records.IsAudioEntry entry e) (hc : Spec.Records.IsEsds config r) (ht : Spec.Records.mpegAudioType e.rate = some r.objectType)
    (hr : e.rate = 32000 ∨ e.rate = 44100 ∨ e.rate = 48000) :
    CodecReads (fourcc 'm' 'p' '4' 'a') entry (fourcc 'e' 's' 'd' 's') config (.mpeg1Audio e.rate e.channels) := by
  refine (C91_mp4a _ _ _ _ _ he hc).2 (.inr ⟨?_, rfl⟩)
  unfold Spec.Records.mpegAudioType at ht
  rw [if_pos (by omega)] at ht
  injection ht with ht
  exact ht.symm

/-- `esds` without decoder specific information. -/
def takenEsds (objectType : UInt8) (streamType : UInt8) : Bytes :=
  [0, 0, 0, 0, 3, 23, 0, 1, 0, 4, 13, objectType, streamType * 4 + 1, 0, 0, 0, 0, 0, 0, 0, 0, 0, 0, 0, 6, 0x80, 0x80, 1, 2]

theorem taken_esds_example : Spec.Records.IsEsds (takenEsds 0x69 5) ⟨1, 0x69, 5, 0, 0, 0, none⟩ := by
  refine ⟨[0, 1, 0], [0x69, 0x15, 0, 0, 0, 0, 0, 0, 0, 0, 0, 0, 0], [], [4, 13, 0x69, 0x15, 0, 0, 0, 0, 0, 0, 0, 0, 0, 0, 0],
    [6, 0x80, 0x80, 1, 2], _, ⟨by decide, by decide⟩, ⟨by decide, by decide⟩, rfl, ⟨[13], ⟨[], 13, rfl, by decide, by decide, by decide, by decide⟩, rfl⟩,
    ⟨[0x80, 0x80, 1], ⟨[0x80, 0x80], 1, rfl, by decide, by decide, by decide, by decide⟩, rfl⟩,
    ⟨[23], ⟨[], 23, rfl, by decide, by decide, by decide, by decide⟩, rfl⟩, rfl⟩

/-- C91 is false for MPEG-2 audio at the lower rates: object type 0x69 is refused. -/
theorem C91_mpeg_audio_false : ¬ C91_mpeg_audio := by
  intro h
  have he : Spec.Records.IsAudioEntry (pack { takenAudio with rate := 24000 }.fields) { takenAudio with rate := 24000 } :=
    carries_self (by decide) (by decide)
  have := h _ _ _ _ he taken_esds_example (by decide)
  rcases (C91_mp4a _ _ _ _ _ he taken_esds_example).1 this with ⟨h, _⟩ | ⟨h, _⟩
  · revert h; decide
  · revert h; decide

/-- C91 for MPEG-1 and MPEG-2 video: tracks with the object type of the standard are read. -/
def C91_mpeg_video : Prop :=
  ∀ (entry config info : Bytes) (e : Spec.Records.VisualEntry) (r : Spec.Records.Esds), Spec.Records.IsVisualEntry entry e →
    Spec.Records.IsEsds config r → r.info = some info → info ≠ [] → Spec.Records.mpegVideoType info = some r.objectType →
    CodecReads (fourcc 'm' 'p' '4' 'v') entry (fourcc 'e' 's' 'd' 's') config (.mpeg1Video info)

/-- C91 for MPEG-2 video of the main profile. -/
theorem C91_mpeg_video_partial (entry config info : Bytes) (e : Spec.Records.VisualEntry) (r : Spec.Records.Esds)
    (he : Spec.Records.IsVisualEntry entry e) (hc : Spec.Records.IsEsds config r) (hi : r.info = some info) (hn : info ≠ [])
    (ht : Spec.Records.mpegVideoType info = some r.objectType) (hp : Spec.Records.sequenceProfile info = some 4) :
    CodecReads (fourcc 'm' 'p' '4' 'v') entry (fourcc 'e' 's' 'd' 's') config (.mpeg1Video info) := by
  refine (C91_mp4v _ _ _ _ _ he hc).2 (.inr (.inl ⟨?_, info, hi, hn, rfl⟩))
  unfold Spec.Records.mpegVideoType at ht
  rw [hp] at ht
  injection ht with ht
  exact ht.symm

/-- `esds` of MPEG-1 video with a sequence header. -/
def takenEsdsVideo : Bytes :=
  [0, 0, 0, 0, 3, 37, 0, 1, 0, 4, 29, 0x6A, 0x11, 0, 0, 0, 0, 0, 0, 0, 0, 0, 0, 0, 5, 0x80, 13, 0, 0, 1, 0xB3, 22, 0, 0xF0, 0x13, 0xFF, 0xFF, 0xE0, 0x18, 0,
    6, 1, 2]

theorem taken_esds_video_example :
    Spec.Records.IsEsds takenEsdsVideo ⟨1, 0x6A, 4, 0, 0, 0, some [0, 0, 1, 0xB3, 22, 0, 0xF0, 0x13, 0xFF, 0xFF, 0xE0, 0x18, 0]⟩ := by
  refine ⟨[0, 1, 0], [0x6A, 0x11, 0, 0, 0, 0, 0, 0, 0, 0, 0, 0, 0], [5, 0x80, 13, 0, 0, 1, 0xB3, 22, 0, 0xF0, 0x13, 0xFF, 0xFF, 0xE0, 0x18, 0],
    [4, 29, 0x6A, 0x11, 0, 0, 0, 0, 0, 0, 0, 0, 0, 0, 0, 5, 0x80, 13, 0, 0, 1, 0xB3, 22, 0, 0xF0, 0x13, 0xFF, 0xFF, 0xE0, 0x18, 0],
    [6, 1, 2], _, ⟨by decide, by decide⟩, ⟨by decide, by decide⟩, ⟨[0x80, 13], ⟨[0x80], 13, rfl, by decide, by decide, by decide, by decide⟩, rfl⟩,
    ⟨[29], ⟨[], 29, rfl, by decide, by decide, by decide, by decide⟩, rfl⟩,
    ⟨[1], ⟨[], 1, rfl, by decide, by decide, by decide, by decide⟩, rfl⟩,
    ⟨[37], ⟨[], 37, rfl, by decide, by decide, by decide, by decide⟩, rfl⟩, rfl⟩

/-- C91 is false for MPEG-1 video: object type 0x6A is refused. -/
theorem C91_mpeg_video_false : ¬ C91_mpeg_video := by
  intro h
  have := h _ _ _ _ _ taken_visual_example taken_esds_video_example rfl (by decide) (by decide)
  rcases (C91_mp4v _ _ _ _ _ taken_visual_example taken_esds_video_example).1 this with ⟨h, _⟩ | ⟨h, _⟩ | ⟨h, _⟩
  all_goals revert h; decide

/-! ## Examples -/

theorem taken_ok {α : Type} {x : Res α} (h : x.isOk = true) : ∃ a, x = .ok a := by
  cases x with
  | ok a => exact ⟨a, rfl⟩
  | err e => cases h
  | panic => cases h

/-- Two parameter sets of a kind are refused. -/
example (c : Codec) : ¬ CodecReads (fourcc 'a' 'v' 'c' '1') (pack takenVisual.fields) (fourcc 'a' 'v' 'c' 'C')
    (pack { takenAvc with pps := [[0x68, 0xCE], [0x68, 0xCF]] }.fields) c := fun h => by
  have hc : Carries (pack { takenAvc with pps := [[0x68, 0xCE], [0x68, 0xCF]] }.fields) { takenAvc with pps := [[0x68, 0xCE], [0x68, 0xCF]] }.fields :=
    carries_self (by decide) (by decide)
  obtain ⟨_, _, _, h, _⟩ := (C91_h264 _ _ _ _ _ taken_visual_example hc).1 h
  cases h

/-- A record with the fields of the high profiles. -/
def takenAvcHigh : Spec.Records.Avc :=
  { profile := 100, compatibility := 0, level := 12, lengthSizeMinusOne := 3, sps := [h264Mono], pps := [[0x68, 0xCE]],
    high := some ⟨0, 0, 0, [[0x6D, 1]]⟩ }

example : CodecReads (fourcc 'a' 'v' 'c' '1') (pack takenVisual.fields) (fourcc 'a' 'v' 'c' 'C') (pack takenAvcHigh.fields)
    (.h264 h264Mono [0x68, 0xCE]) :=
  (C91_h264 _ _ _ takenAvcHigh _ taken_visual_example (carries_self (by decide) (by decide))).2
    ⟨h264Mono, [0x68, 0xCE], rfl, rfl, ⟨h264MonoSPS, by decide +kernel⟩, by decide, rfl⟩

/-- A record of H265 with an array of SEI, incomplete arrays and one layer more than the code writes. -/
def takenHevc : Spec.Records.Hevc :=
  { profileSpace := 0, tier := 1, profile := 1, compatibility := 0x60000000, constraints := 0x900000000000, level := 93, minSpatialSegmentation := 7,
    parallelism := 0, chroma := 1, luma8 := 0, chroma8 := 0, avgFrameRate := 0, constantFrameRate := 0, numTemporalLayers := 2, temporalIdNested := 1,
    lengthSizeMinusOne := 3, arrays := [⟨0, 39, [[0x4E, 1], [0x4E, 1, 5]]⟩, ⟨0, 32, [[0x40, 1]]⟩, ⟨1, 33, [h265Sample]⟩, ⟨0, 34, [[0x44, 1]]⟩] }

theorem taken_hevc_example : Carries (pack takenHevc.fields) takenHevc.fields := carries_self (by decide) (by decide)

example : CodecReads (fourcc 'h' 'e' 'v' '1') (pack takenVisual.fields) (fourcc 'h' 'v' 'c' 'C') (pack takenHevc.fields)
    (.h265 [0x40, 1] h265Sample [0x44, 1]) := by
  refine (C91_h265 _ _ _ _ takenHevc _ (.inr rfl) taken_visual_example taken_hevc_example).2 ⟨?_, _, _, _, rfl, rfl, rfl, by decide, by decide,
    by decide, rfl⟩
  intro a ha ht
  simp only [takenHevc, List.mem_cons, List.not_mem_nil, or_false] at ha
  rcases ha with rfl | rfl | rfl | rfl
  · simp at ht
  · exact ⟨_, rfl, fun h => by simp at h⟩
  · refine ⟨_, rfl, fun _ => ?_⟩
    have := h265Sample_poc
    obtain ⟨x, hx, _⟩ := Res.bind_eq_ok.1 this
    exact ⟨x, hx⟩
  · exact ⟨_, rfl, fun h => by simp at h⟩

/-- A record of VP9 with a level and colours. -/
example : CodecReads (fourcc 'v' 'p' '0' '9') (pack takenVisual.fields) (fourcc 'v' 'p' 'c' 'C') (pack (Spec.Records.Vpc.fields ⟨2, 41, 10, 1, 1, 9, 16, 9⟩))
    (.vp9 ⟨1920, 1080, 2, 10, 1, true⟩) :=
  (C91_vp9 _ _ _ ⟨2, 41, 10, 1, 1, 9, 16, 9⟩ _ taken_visual_example (carries_self (by decide) (by decide))).2 ⟨by decide, by decide, rfl⟩

/-- A record of Opus with 6 channels and a mapping, in a stereo sample entry. -/
example : CodecReads (fourcc 'O' 'p' 'u' 's') (pack takenAudio.fields) (fourcc 'd' 'O' 'p' 's')
    (pack (Spec.Records.DOps.fields ⟨6, 312, 48000, 0, 1, some ⟨4, 2, [0, 4, 1, 2, 3, 5]⟩⟩)) (.opus 6) :=
  (C91_opus _ _ _ ⟨6, 312, 48000, 0, 1, some ⟨4, 2, [0, 4, 1, 2, 3, 5]⟩⟩ _ taken_audio_example (carries_self (by decide) (by decide))).2 rfl

/-- Records of E-AC-3 with one and with two independent substreams. -/
example : CodecReads (fourcc 'e' 'c' '-' '3') (pack takenAudio.fields) (fourcc 'd' 'e' 'c' '3')
    (pack (Spec.Records.dec3Box 640 [⟨0, 16, 0, 0, 7, 1, 1, 0x101⟩])) (.eac3 ⟨48000, 2, 640, false, 0, 7, true, 1, 0x101⟩) :=
  (C91_eac3 _ _ _ 640 [⟨0, 16, 0, 0, 7, 1, 1, 0x101⟩] _ (by simp) taken_audio_example (carries_self (by decide) (by decide))).2 ⟨_, rfl, rfl⟩

example (c : Codec) : ¬ CodecReads (fourcc 'e' 'c' '-' '3') (pack takenAudio.fields) (fourcc 'd' 'e' 'c' '3')
    (pack (Spec.Records.dec3Box 640 [⟨0, 16, 0, 0, 7, 1, 0, 0⟩, ⟨0, 16, 0, 0, 2, 0, 0, 0⟩])) c := fun h => by
  obtain ⟨_, h, _⟩ := (C91_eac3 _ _ _ 640 [⟨0, 16, 0, 0, 7, 1, 0, 0⟩, ⟨0, 16, 0, 0, 2, 0, 0, 0⟩] _ (by simp) taken_audio_example
    (carries_self (by decide) (by decide))).1 h
  cases h

/-- Little-endian samples of 24 bits. -/
example : CodecReads (fourcc 'i' 'p' 'c' 'm') (pack takenAudio.fields) (fourcc 'p' 'c' 'm' 'C') (pack (Spec.Records.pcm 1 24)) (.lpcm ⟨true, 24, 48000, 2⟩) :=
  (C91_lpcm _ _ _ 1 24 _ taken_audio_example (carries_self (by decide) (by decide))).2 rfl

/-- A padding OBU before the sequence header. -/
example : CodecReads (fourcc 'a' 'v' '0' '1') (pack takenVisual.fields) (fourcc 'a' 'v' '1' 'C')
    (pack [(1, 1), (7, 1), (24, 0x080C00)] ++ [0x7A, 1, 0x80, 10, 11, 0, 0, 0, 66, 167, 191, 228, 96, 13, 0, 64])
    (.av1 [8, 0, 0, 0, 66, 167, 191, 228, 96, 13, 0, 64]) :=
  (C91_av1 _ _ _ _ 0x080C00 _ taken_visual_example (carries_self (by decide) (by decide))).2
    ⟨[[0x78, 0x80], [8, 0, 0, 0, 66, 167, 191, 228, 96, 13, 0, 64]], _,
      ((C18_bitstream_accepts_iff _ _).1 (by decide +kernel)).2, by decide, taken_ok (by decide +kernel), rfl⟩

/-- Another metadata block after the stream information. -/
example : CodecReads (fourcc 'f' 'L' 'a' 'C') (pack takenAudio.fields) (fourcc 'd' 'f' 'L' 'a')
    (pack [(8, 0), (24, 0), (1, 0), (7, 0), (24, 34)] ++ ([16, 0, 16, 0, 0, 0, 14, 0, 35, 40, 10, 196, 66, 240, 0, 15, 66, 64, 7, 7, 7, 7, 7, 7, 7, 7, 7, 7, 7,
      7, 7, 7, 7, 7] ++ [0x81, 0, 0, 1, 0]))
    (.flac (some ⟨4096, 4096, 14, 9000, 44100, 2, 16, 1000000, List.replicate 16 7⟩)) :=
  (C91_flac _ _ _ _ _ 0 34 _ taken_audio_example (carries_self (by decide) (by decide)) (by decide)).2
    ⟨_, by unfold StreamInfoInRange; decide, rfl, by decide +kernel⟩

/-- 5.1 channels. -/
example : CodecReads (fourcc 'a' 'c' '-' '3') (pack { takenAudio with channels := 6 }.fields) (fourcc 'd' 'a' 'c' '3')
    (pack (Spec.Records.dac3 0 8 0 7 1 15)) (.ac3 ⟨48000, 6, 0, 8, 0, 7, true, 15⟩) ∧ Spec.Records.ac3Channels 7 1 = 6 :=
  ⟨(C91_ac3 _ _ { takenAudio with channels := 6 } 0 8 0 7 1 15 _ (carries_self (by decide) (by decide)) (carries_self (by decide) (by decide))).2 rfl,
    by decide⟩

/-- AAC with sizes of one byte. -/
theorem taken_esds_aac : Spec.Records.IsEsds [0, 0, 0, 0, 3, 25, 0, 1, 0, 4, 17, 0x40, 0x15, 0, 0, 0, 0, 0, 0, 0, 0, 0, 0, 0, 5, 2, 0x11, 0x90, 6, 1, 2]
    ⟨1, 0x40, 5, 0, 0, 0, some [0x11, 0x90]⟩ := by
  refine ⟨[0, 1, 0], [0x40, 0x15, 0, 0, 0, 0, 0, 0, 0, 0, 0, 0, 0], [5, 2, 0x11, 0x90],
    [4, 17, 0x40, 0x15, 0, 0, 0, 0, 0, 0, 0, 0, 0, 0, 0, 5, 2, 0x11, 0x90],
    [6, 1, 2], _, ⟨by decide, by decide⟩, ⟨by decide, by decide⟩, ⟨[2], ⟨[], 2, rfl, by decide, by decide, by decide, by decide⟩, rfl⟩,
    ⟨[17], ⟨[], 17, rfl, by decide, by decide, by decide, by decide⟩, rfl⟩,
    ⟨[1], ⟨[], 1, rfl, by decide, by decide, by decide, by decide⟩, rfl⟩,
    ⟨[25], ⟨[], 25, rfl, by decide, by decide, by decide, by decide⟩, rfl⟩, rfl⟩

example : CodecReads (fourcc 'm' 'p' '4' 'a') (pack takenAudio.fields) (fourcc 'e' 's' 'd' 's')
    [0, 0, 0, 0, 3, 25, 0, 1, 0, 4, 17, 0x40, 0x15, 0, 0, 0, 0, 0, 0, 0, 0, 0, 0, 0, 5, 2, 0x11, 0x90, 6, 1, 2]
    (.mpeg4Audio ⟨2, 48000, 2, 2, 0, 0, false, false, 0⟩) :=
  (C91_mp4a _ _ _ _ _ taken_audio_example taken_esds_aac).2 (.inl ⟨rfl, _, rfl, by decide, _, by decide +kernel, rfl⟩)

/-- M-JPEG, whose size comes from the sample entry. -/
theorem taken_esds_mjpeg : Spec.Records.IsEsds (takenEsds 0x6C 4) ⟨1, 0x6C, 4, 0, 0, 0, none⟩ := by
  refine ⟨[0, 1, 0], [0x6C, 0x11, 0, 0, 0, 0, 0, 0, 0, 0, 0, 0, 0], [], [4, 13, 0x6C, 0x11, 0, 0, 0, 0, 0, 0, 0, 0, 0, 0, 0],
    [6, 0x80, 0x80, 1, 2], _, ⟨by decide, by decide⟩, ⟨by decide, by decide⟩, rfl, ⟨[13], ⟨[], 13, rfl, by decide, by decide, by decide, by decide⟩, rfl⟩,
    ⟨[0x80, 0x80, 1], ⟨[0x80, 0x80], 1, rfl, by decide, by decide, by decide, by decide⟩, rfl⟩,
    ⟨[23], ⟨[], 23, rfl, by decide, by decide, by decide, by decide⟩, rfl⟩, rfl⟩

example : CodecReads (fourcc 'm' 'p' '4' 'v') (pack takenVisual.fields) (fourcc 'e' 's' 'd' 's') (takenEsds 0x6C 4) (.mjpeg 1920 1080) :=
  (C91_mp4v _ _ _ _ _ taken_visual_example taken_esds_mjpeg).2 (.inr (.inr ⟨rfl, by decide, by decide, rfl⟩))

/-- Two NAL units with lengths of four bytes. -/
example : FMP4.getH264 { payload := [0, 0, 0, 2, 0x09, 0x10, 0, 0, 0, 3, 0x65, 0x88, 0x84] } = .ok [[0x09, 0x10], [0x65, 0x88, 0x84]] :=
  C91_samples_partial { takenAvc with lengthSizeMinusOne := 3 } [[0x09, 0x10], [0x65, 0x88, 0x84]] rfl (by decide) (by decide) (by decide) (by decide)
    (by decide)

end Verif.Props
