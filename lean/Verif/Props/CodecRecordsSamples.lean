import Verif.Props.CodecRecords

/-!
# Samples of configuration records

For every theorem of C85, something that is written and meets its hypotheses. The parameter sets are those of the tests of the repository.
-/

namespace Verif.Props
open MP4Box MP4Codec Records
open Spec (bitsOf natOfBits)
open Spec.Records (Carries field)

/-- `C85_vp9_partial`, `C85_vp9_level_false`, `C85_vp9_colour_false`, `C85_vp9_matrix_false`: 1920x1080 is more than what level 1 allows, and 4:2:0 is not RGB. -/
example : RecordWritten 1 128825 128825 (.vp9 ⟨1920, 1080, 1, 8, 1, false⟩) [118, 112, 48, 57]
    [0, 0, 0, 0, 0, 0, 0, 1, 0, 0, 0, 0, 0, 0, 0, 0, 0, 0, 0, 0, 0, 0, 0, 0, 7, 128, 4, 56, 0, 72, 0, 0, 0, 72, 0, 0, 0, 0, 0, 0, 0, 1, 0, 0, 0, 0, 0,
    0, 0, 0, 0, 0, 0, 0, 0, 0, 0, 0, 0, 0, 0, 0, 0, 0, 0, 0, 0, 0, 0, 0, 0, 0, 0, 0, 0, 24, 255, 255] [118, 112, 99, 67]
    [1, 0, 0, 0, 1, 10, 130, 0, 0, 0, 0, 0] ∧
    36864 < 1920 * 1080 ∧
    (1 : Nat) % 8 ≠ 3 :=
  ⟨record_written (by decide +kernel), by decide, by decide⟩

/-- `C85_opus_partial`. -/
example : RecordWritten 1 128825 128825 (.opus 2) [79, 112, 117, 115]
    [0, 0, 0, 0, 0, 0, 0, 1, 0, 0, 0, 0, 0, 0, 0, 0, 0, 2, 0, 16, 0, 0, 0, 0, 187, 128, 0, 0] [100, 79, 112, 115]
    [0, 2, 1, 56, 0, 0, 187, 128, 0, 0, 0] :=
  record_written (by decide +kernel)

/-- `C85_opus_false`. -/
example : RecordWritten 1 128825 128825 (.opus 6) [79, 112, 117, 115]
    [0, 0, 0, 0, 0, 0, 0, 1, 0, 0, 0, 0, 0, 0, 0, 0, 0, 6, 0, 16, 0, 0, 0, 0, 187, 128, 0, 0] [100, 79, 112, 115]
    [0, 6, 1, 56, 0, 0, 187, 128, 0, 0, 0] ∧
    (2 : Nat) < 6 :=
  ⟨record_written (by decide +kernel), by decide⟩

/-- `C85_flac`. -/
example : RecordWritten 1 128825 128825 (.flac (some ⟨4096, 4096, 14, 9000, 44100, 2, 16, 1000000, List.replicate 16 7⟩)) [102, 76, 97, 67]
    [0, 0, 0, 0, 0, 0, 0, 1, 0, 0, 0, 0, 0, 0, 0, 0, 0, 2, 0, 16, 0, 0, 0, 0, 172, 68, 0, 0] [100, 102, 76, 97]
    [0, 0, 0, 0, 128, 0, 0, 34, 16, 0, 16, 0, 0, 0, 14, 0, 35, 40, 10, 196, 66, 240, 0, 15, 66, 64, 7, 7, 7, 7, 7, 7, 7, 7, 7, 7, 7, 7, 7, 7, 7, 7] ∧
    StreamInfoInRange ⟨4096, 4096, 14, 9000, 44100, 2, 16, 1000000, List.replicate 16 7⟩ :=
  ⟨record_written (by decide +kernel), by unfold StreamInfoInRange; decide⟩

/-- `C85_ac3`. -/
example : RecordWritten 1 128825 128825 (.ac3 ⟨48000, 6, 0, 8, 0, 7, true, 15⟩) [97, 99, 45, 51]
    [0, 0, 0, 0, 0, 0, 0, 1, 0, 0, 0, 0, 0, 0, 0, 0, 0, 6, 0, 16, 0, 0, 0, 0, 187, 128, 0, 0] [100, 97, 99, 51]
    [16, 61, 224] :=
  record_written (by decide +kernel)

/-- `C85_eac3`. -/
example : RecordWritten 1 128825 128825 (.eac3 ⟨48000, 6, 640, false, 0, 7, true, 0, 0⟩) [101, 99, 45, 51]
    [0, 0, 0, 0, 0, 0, 0, 1, 0, 0, 0, 0, 0, 0, 0, 0, 0, 6, 0, 16, 0, 0, 0, 0, 187, 128, 0, 0] [100, 101, 99, 51]
    [20, 0, 32, 15, 0] :=
  record_written (by decide +kernel)

/-- `C85_lpcm`. -/
example : RecordWritten 1 128825 128825 (.lpcm ⟨false, 24, 48000, 2⟩) [105, 112, 99, 109]
    [0, 0, 0, 0, 0, 0, 0, 1, 0, 0, 0, 0, 0, 0, 0, 0, 0, 2, 0, 24, 0, 0, 0, 0, 187, 128, 0, 0] [112, 99, 109, 67]
    [0, 0, 0, 0, 0, 24] :=
  record_written (by decide +kernel)

/-- `C85_mpeg4_video`. -/
example : RecordWritten 1 128825 128825 (.mpeg4Video [0, 0, 1, 176, 1]) [109, 112, 52, 118]
    [0, 0, 0, 0, 0, 0, 0, 1, 0, 0, 0, 0, 0, 0, 0, 0, 0, 0, 0, 0, 0, 0, 0, 0, 3, 32, 2, 88, 0, 72, 0, 0, 0, 72, 0, 0, 0, 0, 0, 0, 0, 1, 0, 0, 0, 0, 0,
    0, 0, 0, 0, 0, 0, 0, 0, 0, 0, 0, 0, 0, 0, 0, 0, 0, 0, 0, 0, 0, 0, 0, 0, 0, 0, 0, 0, 24, 255, 255] [101, 115, 100, 115]
    [0, 0, 0, 0, 3, 128, 128, 128, 37, 0, 1, 0, 4, 128, 128, 128, 23, 32, 17, 0, 0, 0, 0, 1, 247, 57, 0, 1, 247, 57, 5, 128, 128, 128, 5, 0, 0, 1,
    176, 1, 6, 128, 128, 128, 1, 2] :=
  record_written (by decide +kernel)

/-- The configuration of a MPEG-2 video stream, main profile. -/
def recordMpeg2 : Bytes := [0, 0, 1, 179, 120, 4, 56, 53, 255, 255, 224, 24, 0, 0, 1, 181, 20, 74, 0, 1, 0, 0]

/-- The configuration of a MPEG-1 video stream. -/
def recordMpeg1 : Bytes := [0, 0, 1, 179, 22, 0, 240, 21, 255, 255, 224, 24]

/-- `C85_mpeg_video_partial`. -/
example : RecordWritten 1 128825 128825 (.mpeg1Video recordMpeg2) [109, 112, 52, 118]
    [0, 0, 0, 0, 0, 0, 0, 1, 0, 0, 0, 0, 0, 0, 0, 0, 0, 0, 0, 0, 0, 0, 0, 0, 3, 32, 2, 88, 0, 72, 0, 0, 0, 72, 0, 0, 0, 0, 0, 0, 0, 1, 0, 0, 0, 0, 0,
    0, 0, 0, 0, 0, 0, 0, 0, 0, 0, 0, 0, 0, 0, 0, 0, 0, 0, 0, 0, 0, 0, 0, 0, 0, 0, 0, 0, 24, 255, 255] [101, 115, 100, 115]
    [0, 0, 0, 0, 3, 128, 128, 128, 54, 0, 1, 0, 4, 128, 128, 128, 40, 97, 17, 0, 0, 0, 0, 1, 247, 57, 0, 1, 247, 57, 5, 128, 128, 128, 22, 0, 0, 1,
    179, 120, 4, 56, 53, 255, 255, 224, 24, 0, 0, 1, 181, 20, 74, 0, 1, 0, 0, 6, 128, 128, 128, 1, 2] ∧
    Spec.Records.sequenceProfile recordMpeg2 = some 4 :=
  ⟨record_written (by decide +kernel), by decide +kernel⟩

/-- `C85_mpeg_video_false`. -/
example : RecordWritten 1 128825 128825 (.mpeg1Video recordMpeg1) [109, 112, 52, 118]
    [0, 0, 0, 0, 0, 0, 0, 1, 0, 0, 0, 0, 0, 0, 0, 0, 0, 0, 0, 0, 0, 0, 0, 0, 3, 32, 2, 88, 0, 72, 0, 0, 0, 72, 0, 0, 0, 0, 0, 0, 0, 1, 0, 0, 0, 0, 0,
    0, 0, 0, 0, 0, 0, 0, 0, 0, 0, 0, 0, 0, 0, 0, 0, 0, 0, 0, 0, 0, 0, 0, 0, 0, 0, 0, 0, 24, 255, 255] [101, 115, 100, 115]
    [0, 0, 0, 0, 3, 128, 128, 128, 44, 0, 1, 0, 4, 128, 128, 128, 30, 97, 17, 0, 0, 0, 0, 1, 247, 57, 0, 1, 247, 57, 5, 128, 128, 128, 12, 0, 0, 1,
    179, 22, 0, 240, 21, 255, 255, 224, 24, 6, 128, 128, 128, 1, 2] ∧
    Spec.Records.sequenceProfile recordMpeg1 ≠ some 4 ∧
    Spec.Records.mpegVideoType recordMpeg1 = some 0x6A :=
  ⟨record_written (by decide +kernel), by decide +kernel, by decide +kernel⟩

/-- `C85_mjpeg`. -/
example : RecordWritten 1 128825 128825 (.mjpeg 640 480) [109, 112, 52, 118]
    [0, 0, 0, 0, 0, 0, 0, 1, 0, 0, 0, 0, 0, 0, 0, 0, 0, 0, 0, 0, 0, 0, 0, 0, 2, 128, 1, 224, 0, 72, 0, 0, 0, 72, 0, 0, 0, 0, 0, 0, 0, 1, 0, 0, 0, 0,
    0, 0, 0, 0, 0, 0, 0, 0, 0, 0, 0, 0, 0, 0, 0, 0, 0, 0, 0, 0, 0, 0, 0, 0, 0, 0, 0, 0, 0, 24, 255, 255] [101, 115, 100, 115]
    [0, 0, 0, 0, 3, 128, 128, 128, 27, 0, 1, 0, 4, 128, 128, 128, 13, 108, 17, 0, 0, 0, 0, 1, 247, 57, 0, 1, 247, 57, 6, 128, 128, 128, 1, 2] :=
  record_written (by decide +kernel)

/-- `C85_mpeg_audio_partial`. -/
example : RecordWritten 1 128825 128825 (.mpeg1Audio 48000 2) [109, 112, 52, 97]
    [0, 0, 0, 0, 0, 0, 0, 1, 0, 0, 0, 0, 0, 0, 0, 0, 0, 2, 0, 16, 0, 0, 0, 0, 187, 128, 0, 0] [101, 115, 100, 115]
    [0, 0, 0, 0, 3, 128, 128, 128, 27, 0, 1, 0, 4, 128, 128, 128, 13, 107, 21, 0, 0, 0, 0, 1, 247, 57, 0, 1, 247, 57, 6, 128, 128, 128, 1, 2] :=
  record_written (by decide +kernel)

/-- `C85_mpeg_audio_false`. -/
example : RecordWritten 1 128825 128825 (.mpeg1Audio 22050 2) [109, 112, 52, 97]
    [0, 0, 0, 0, 0, 0, 0, 1, 0, 0, 0, 0, 0, 0, 0, 0, 0, 2, 0, 16, 0, 0, 0, 0, 86, 34, 0, 0] [101, 115, 100, 115]
    [0, 0, 0, 0, 3, 128, 128, 128, 27, 0, 1, 0, 4, 128, 128, 128, 13, 107, 21, 0, 0, 0, 0, 1, 247, 57, 0, 1, 247, 57, 6, 128, 128, 128, 1, 2] ∧
    Spec.Records.mpegAudioType 22050 = some 0x69 :=
  ⟨record_written (by decide +kernel), by decide +kernel⟩

/-- `C85_mpeg4_audio`: channel configuration 7 has eight channels. -/
example : RecordWritten 1 128825 128825 (.mpeg4Audio ⟨2, 44100, 7, 0, 0, 0, false, false, 0⟩) [109, 112, 52, 97]
    [0, 0, 0, 0, 0, 0, 0, 1, 0, 0, 0, 0, 0, 0, 0, 0, 0, 8, 0, 16, 0, 0, 0, 0, 172, 68, 0, 0] [101, 115, 100, 115]
    [0, 0, 0, 0, 3, 128, 128, 128, 34, 0, 1, 0, 4, 128, 128, 128, 20, 64, 21, 0, 0, 0, 0, 1, 247, 57, 0, 1, 247, 57, 5, 128, 128, 128, 2, 18, 56, 6,
    128, 128, 128, 1, 2] ∧
    Spec.Records.channelsOf 7 = some 8 ∧
    (⟨2, 44100, 7, 0, 0, 0, false, false, 0⟩ : MPEG4Audio.ASC).marshal = .ok [18, 56] :=
  ⟨record_written (by decide +kernel), by decide +kernel, by decide +kernel⟩

/-- A SPS of baseline profile, 1920x1080. -/
def recordSps264 : Bytes :=
  [103, 66, 192, 40, 217, 0, 120, 2, 39, 229, 132, 0, 0, 3, 0, 4, 0, 0, 3, 0, 240, 60, 96, 201, 32]

/-- A SPS of high profile. -/
def recordSps264High : Bytes := [103, 100, 0, 12, 172, 59, 80, 176, 75, 66, 0, 0, 3, 0, 2, 0, 0, 3, 0, 61, 8]

/-- `C85_avc_partial`. -/
example : RecordWritten 1 128825 128825 (.h264 recordSps264 [8]) [97, 118, 99, 49]
    [0, 0, 0, 0, 0, 0, 0, 1, 0, 0, 0, 0, 0, 0, 0, 0, 0, 0, 0, 0, 0, 0, 0, 0, 7, 128, 4, 56, 0, 72, 0, 0, 0, 72, 0, 0, 0, 0, 0, 0, 0, 1, 0, 0, 0, 0, 0,
    0, 0, 0, 0, 0, 0, 0, 0, 0, 0, 0, 0, 0, 0, 0, 0, 0, 0, 0, 0, 0, 0, 0, 0, 0, 0, 0, 0, 24, 255, 255] [97, 118, 99, 67]
    [1, 66, 192, 40, 255, 225, 0, 25, 103, 66, 192, 40, 217, 0, 120, 2, 39, 229, 132, 0, 0, 3, 0, 4, 0, 0, 3, 0, 240, 60, 96, 201, 32, 1, 0, 1, 8] ∧
    field (Spec.Records.avcRbsp recordSps264) 0 8 ∉ Spec.Records.highProfiles :=
  ⟨record_written (by decide +kernel), by decide +kernel⟩

/-- `C85_avc_high_false`. -/
example : RecordWritten 1 128825 128825 (.h264 recordSps264High [8]) [97, 118, 99, 49]
    [0, 0, 0, 0, 0, 0, 0, 1, 0, 0, 0, 0, 0, 0, 0, 0, 0, 0, 0, 0, 0, 0, 0, 0, 1, 96, 1, 32, 0, 72, 0, 0, 0, 72, 0, 0, 0, 0, 0, 0, 0, 1, 0, 0, 0, 0, 0,
    0, 0, 0, 0, 0, 0, 0, 0, 0, 0, 0, 0, 0, 0, 0, 0, 0, 0, 0, 0, 0, 0, 0, 0, 0, 0, 0, 0, 24, 255, 255] [97, 118, 99, 67]
    [1, 100, 0, 12, 255, 225, 0, 21, 103, 100, 0, 12, 172, 59, 80, 176, 75, 66, 0, 0, 3, 0, 2, 0, 0, 3, 0, 61, 8, 1, 0, 1, 8] ∧
    field (Spec.Records.avcRbsp recordSps264High) 0 8 ∈ Spec.Records.highProfiles :=
  ⟨record_written (by decide +kernel), by decide +kernel⟩

/-- A SPS of main profile and main tier, 1920x1080, with one temporal layer. -/
def recordSps265 : Bytes :=
  [66, 1, 1, 1, 96, 0, 0, 3, 0, 144, 0, 0, 3, 0, 0, 3, 0, 120, 160, 3, 192, 128, 16, 229, 150, 102, 105, 36, 202, 224, 16, 0, 0, 3, 0, 16, 0, 0,
    3, 1, 224, 128]

/-- A SPS of main 10 profile and high tier. -/
def recordSps265High : Bytes :=
  [66, 1, 1, 34, 32, 0, 0, 3, 0, 144, 0, 0, 3, 0, 0, 3, 0, 120, 160, 3, 192, 128, 16, 228, 217, 102, 102, 146, 76, 175, 1, 1, 0, 0, 3, 0, 100,
    0, 0, 11, 181, 8]

/-- What the theorems about H265 ask of a SPS. -/
def recordAsks (sps : Bytes) : Bool :=
  match ({} : H265.SPS).unmarshal sps with
  | .ok s => s.bitDepthLumaMinus8 < 8 && s.bitDepthChromaMinus8 < 8 && s.maxSubLayersMinus1 != 1
  | _ => false

/-- `C85_hevc_partial`, `C85_hevc_false`, `C85_hevc_layers_false`, `C85_hevc_constraints_false`: the constraint flags of the SPS are
90 00 00 00 00 00, those of the record 03 00 90 00 00 03. -/
example : RecordWritten 1 128825 128825 (.h265 [1, 2, 3, 4] recordSps265 [8]) [104, 118, 99, 49]
    [0, 0, 0, 0, 0, 0, 0, 1, 0, 0, 0, 0, 0, 0, 0, 0, 0, 0, 0, 0, 0, 0, 0, 0, 7, 128, 4, 56, 0, 72, 0, 0, 0, 72, 0, 0, 0, 0, 0, 0, 0, 1, 0, 0, 0, 0, 0,
    0, 0, 0, 0, 0, 0, 0, 0, 0, 0, 0, 0, 0, 0, 0, 0, 0, 0, 0, 0, 0, 0, 0, 0, 0, 0, 0, 0, 24, 255, 255] [104, 118, 99, 67]
    [1, 1, 96, 0, 0, 0, 3, 0, 144, 0, 0, 3, 120, 240, 0, 252, 253, 248, 248, 0, 0, 19, 3, 32, 0, 1, 0, 4, 1, 2, 3, 4, 33, 0, 1, 0, 42, 66, 1, 1, 1,
    96, 0, 0, 3, 0, 144, 0, 0, 3, 0, 0, 3, 0, 120, 160, 3, 192, 128, 16, 229, 150, 102, 105, 36, 202, 224, 16, 0, 0, 3, 0, 16, 0, 0, 3, 1, 224, 128,
    34, 0, 1, 0, 1, 8] ∧
    recordAsks recordSps265 = true ∧
    field (Spec.Records.hevcRbsp recordSps265) 48 48 = 0x900000000000 ∧
    natOfBits (bitsOf ((recordSps265.drop 7).take 6)) = 0x030090000003 :=
  ⟨record_written (by decide +kernel), by decide +kernel, by decide +kernel, by decide +kernel⟩

/-- `C85_hevc_tier_false`. -/
example : RecordWritten 1 128825 128825 (.h265 [1, 2, 3, 4] recordSps265High [8]) [104, 118, 99, 49]
    [0, 0, 0, 0, 0, 0, 0, 1, 0, 0, 0, 0, 0, 0, 0, 0, 0, 0, 0, 0, 0, 0, 0, 0, 7, 128, 4, 56, 0, 72, 0, 0, 0, 72, 0, 0, 0, 0, 0, 0, 0, 1, 0, 0, 0, 0, 0,
    0, 0, 0, 0, 0, 0, 0, 0, 0, 0, 0, 0, 0, 0, 0, 0, 0, 0, 0, 0, 0, 0, 0, 0, 0, 0, 0, 0, 24, 255, 255] [104, 118, 99, 67]
    [1, 2, 32, 0, 0, 0, 3, 0, 144, 0, 0, 3, 120, 240, 0, 252, 253, 250, 250, 0, 0, 19, 3, 32, 0, 1, 0, 4, 1, 2, 3, 4, 33, 0, 1, 0, 42, 66, 1, 1, 34,
    32, 0, 0, 3, 0, 144, 0, 0, 3, 0, 0, 3, 0, 120, 160, 3, 192, 128, 16, 228, 217, 102, 102, 146, 76, 175, 1, 1, 0, 0, 3, 0, 100, 0, 0, 11, 181, 8,
    34, 0, 1, 0, 1, 8] ∧
    recordAsks recordSps265High = true ∧
    field (Spec.Records.hevcRbsp recordSps265High) 10 1 = 1 :=
  ⟨record_written (by decide +kernel), by decide +kernel, by decide +kernel⟩

/-- `C85_av1`. -/
example : RecordWritten 1 128825 128825 (.av1 [8, 0, 0, 0, 66, 167, 191, 228, 96, 13, 0, 64]) [97, 118, 48, 49]
    [0, 0, 0, 0, 0, 0, 0, 1, 0, 0, 0, 0, 0, 0, 0, 0, 0, 0, 0, 0, 0, 0, 0, 0, 7, 128, 3, 36, 0, 72, 0, 0, 0, 72, 0, 0, 0, 0, 0, 0, 0, 1, 0, 0, 0, 0, 0,
    0, 0, 0, 0, 0, 0, 0, 0, 0, 0, 0, 0, 0, 0, 0, 0, 0, 0, 0, 0, 0, 0, 0, 0, 0, 0, 0, 0, 24, 255, 255] [97, 118, 49, 67]
    [129, 8, 12, 0, 10, 11, 0, 0, 0, 66, 167, 191, 228, 96, 13, 0, 64] ∧
    AV1.ValidObu [8, 0, 0, 0, 66, 167, 191, 228, 96, 13, 0, 64] :=
  ⟨record_written (by decide +kernel), 8, _, rfl, by decide, by decide, by decide, by decide⟩

/-- `C85_stsd_fmp4` and `C85_stsd_mp4`. -/
example : ∃ f info, fill (some (.opus 2)) = .ok info ∧
    FMP4Init.writeStsd (FMP4.full []) { id := 1, timeScale := 48000, codec := some (.opus 2) } (.opus 2) info = .ok f ∧ f.buf.length = 91 :=
  ⟨_, _, rfl, rfl, by decide +kernel⟩

example : ∃ f info, fill (some (.opus 2)) = .ok info ∧ PMP4File.writeStsd (FMP4.full []) 1 (.opus 2) info = .ok f ∧ f.buf.length = 71 :=
  ⟨_, _, rfl, rfl, by decide +kernel⟩

end Verif.Props
