import Verif.Model.FMP4Init

/-!
# Samples of /repo/pkg/formats/fmp4/init_test.go

These are tests of the model: the 17 byte strings that the tests of the repository give for `Init.Marshal` and `Init.Unmarshal`.
-/

namespace Verif.Props
open FMP4Init MP4Codec

/-- The bytes of "av1". -/
def initSampleAv1Bytes : Bytes := [0, 0, 0, 32, 102, 116, 121, 112, 109, 112, 52, 50, 0, 0, 0, 1, 109, 112, 52, 49, 109, 112, 52, 50, 105, 115, 111, 109, 104, 108, 115,
    102, 0, 0, 2, 116, 109, 111, 111, 118, 0, 0, 0, 108, 109, 118, 104, 100, 0, 0, 0, 0, 0, 0, 0, 0, 0, 0, 0, 0, 0, 0, 3, 232, 0, 0, 0,
    0, 0, 1, 0, 0, 1, 0, 0, 0, 0, 0, 0, 0, 0, 0, 0, 0, 0, 1, 0, 0, 0, 0, 0, 0, 0, 0, 0, 0, 0, 0, 0, 0, 0, 1, 0, 0, 0, 0, 0, 0, 0, 0, 0,
    0, 0, 0, 0, 0, 64, 0, 0, 0, 0, 0, 0, 0, 0, 0, 0, 0, 0, 0, 0, 0, 0, 0, 0, 0, 0, 0, 0, 0, 0, 0, 0, 0, 255, 255, 255, 255, 0, 0, 1, 216,
    116, 114, 97, 107, 0, 0, 0, 92, 116, 107, 104, 100, 0, 0, 0, 3, 0, 0, 0, 0, 0, 0, 0, 0, 0, 0, 0, 1, 0, 0, 0, 0, 0, 0, 0, 0, 0, 0, 0,
    0, 0, 0, 0, 0, 0, 0, 0, 0, 0, 0, 0, 0, 0, 1, 0, 0, 0, 0, 0, 0, 0, 0, 0, 0, 0, 0, 0, 0, 0, 1, 0, 0, 0, 0, 0, 0, 0, 0, 0, 0, 0, 0, 0,
    0, 64, 0, 0, 0, 7, 128, 0, 0, 3, 36, 0, 0, 0, 0, 1, 116, 109, 100, 105, 97, 0, 0, 0, 32, 109, 100, 104, 100, 0, 0, 0, 0, 0, 0, 0, 0,
    0, 0, 0, 0, 0, 1, 95, 144, 0, 0, 0, 0, 85, 196, 0, 0, 0, 0, 0, 45, 104, 100, 108, 114, 0, 0, 0, 0, 0, 0, 0, 0, 118, 105, 100, 101, 0,
    0, 0, 0, 0, 0, 0, 0, 0, 0, 0, 0, 86, 105, 100, 101, 111, 72, 97, 110, 100, 108, 101, 114, 0, 0, 0, 1, 31, 109, 105, 110, 102, 0, 0,
    0, 20, 118, 109, 104, 100, 0, 0, 0, 1, 0, 0, 0, 0, 0, 0, 0, 0, 0, 0, 0, 36, 100, 105, 110, 102, 0, 0, 0, 28, 100, 114, 101, 102, 0,
    0, 0, 0, 0, 0, 0, 1, 0, 0, 0, 12, 117, 114, 108, 32, 0, 0, 0, 1, 0, 0, 0, 223, 115, 116, 98, 108, 0, 0, 0, 147, 115, 116, 115, 100,
    0, 0, 0, 0, 0, 0, 0, 1, 0, 0, 0, 131, 97, 118, 48, 49, 0, 0, 0, 0, 0, 0, 0, 1, 0, 0, 0, 0, 0, 0, 0, 0, 0, 0, 0, 0, 0, 0, 0, 0, 7,
    128, 3, 36, 0, 72, 0, 0, 0, 72, 0, 0, 0, 0, 0, 0, 0, 1, 0, 0, 0, 0, 0, 0, 0, 0, 0, 0, 0, 0, 0, 0, 0, 0, 0, 0, 0, 0, 0, 0, 0, 0, 0, 0,
    0, 0, 0, 0, 0, 0, 0, 24, 255, 255, 0, 0, 0, 25, 97, 118, 49, 67, 129, 8, 12, 0, 10, 11, 0, 0, 0, 66, 167, 191, 228, 96, 13, 0, 64, 0,
    0, 0, 20, 98, 116, 114, 116, 0, 0, 0, 0, 0, 15, 66, 64, 0, 15, 66, 64, 0, 0, 0, 16, 115, 116, 116, 115, 0, 0, 0, 0, 0, 0, 0, 0, 0, 0,
    0, 16, 115, 116, 115, 99, 0, 0, 0, 0, 0, 0, 0, 0, 0, 0, 0, 20, 115, 116, 115, 122, 0, 0, 0, 0, 0, 0, 0, 0, 0, 0, 0, 0, 0, 0, 0, 16,
    115, 116, 99, 111, 0, 0, 0, 0, 0, 0, 0, 0, 0, 0, 0, 40, 109, 118, 101, 120, 0, 0, 0, 32, 116, 114, 101, 120, 0, 0, 0, 0, 0, 0, 0, 1,
    0, 0, 0, 1, 0, 0, 0, 0, 0, 0, 0, 0, 0, 0, 0, 0]

/-- The value of "av1". -/
def initSampleAv1 : Init :=
  { tracks := [{ id := 1, timeScale := 90000, codec := some (.av1 [8, 0, 0, 0, 66, 167, 191, 228, 96, 13, 0, 64]) }] }

example : (marshal ⟨[], 0⟩ initSampleAv1).bind (fun f => .ok f.buf) = .ok initSampleAv1Bytes := by decide +kernel

example : unmarshal isoFields initSampleAv1Bytes = .ok initSampleAv1 := by decide +kernel

/-- The bytes of "vp9". -/
def initSampleVp9Bytes : Bytes := [0, 0, 0, 32, 102, 116, 121, 112, 109, 112, 52, 50, 0, 0, 0, 1, 109, 112, 52, 49, 109, 112, 52, 50, 105, 115, 111, 109, 104, 108, 115,
    102, 0, 0, 2, 111, 109, 111, 111, 118, 0, 0, 0, 108, 109, 118, 104, 100, 0, 0, 0, 0, 0, 0, 0, 0, 0, 0, 0, 0, 0, 0, 3, 232, 0, 0, 0,
    0, 0, 1, 0, 0, 1, 0, 0, 0, 0, 0, 0, 0, 0, 0, 0, 0, 0, 1, 0, 0, 0, 0, 0, 0, 0, 0, 0, 0, 0, 0, 0, 0, 0, 1, 0, 0, 0, 0, 0, 0, 0, 0, 0,
    0, 0, 0, 0, 0, 64, 0, 0, 0, 0, 0, 0, 0, 0, 0, 0, 0, 0, 0, 0, 0, 0, 0, 0, 0, 0, 0, 0, 0, 0, 0, 0, 0, 255, 255, 255, 255, 0, 0, 1, 211,
    116, 114, 97, 107, 0, 0, 0, 92, 116, 107, 104, 100, 0, 0, 0, 3, 0, 0, 0, 0, 0, 0, 0, 0, 0, 0, 0, 1, 0, 0, 0, 0, 0, 0, 0, 0, 0, 0, 0,
    0, 0, 0, 0, 0, 0, 0, 0, 0, 0, 0, 0, 0, 0, 1, 0, 0, 0, 0, 0, 0, 0, 0, 0, 0, 0, 0, 0, 0, 0, 1, 0, 0, 0, 0, 0, 0, 0, 0, 0, 0, 0, 0, 0,
    0, 64, 0, 0, 0, 7, 128, 0, 0, 4, 56, 0, 0, 0, 0, 1, 111, 109, 100, 105, 97, 0, 0, 0, 32, 109, 100, 104, 100, 0, 0, 0, 0, 0, 0, 0, 0,
    0, 0, 0, 0, 0, 1, 95, 144, 0, 0, 0, 0, 85, 196, 0, 0, 0, 0, 0, 45, 104, 100, 108, 114, 0, 0, 0, 0, 0, 0, 0, 0, 118, 105, 100, 101, 0,
    0, 0, 0, 0, 0, 0, 0, 0, 0, 0, 0, 86, 105, 100, 101, 111, 72, 97, 110, 100, 108, 101, 114, 0, 0, 0, 1, 26, 109, 105, 110, 102, 0, 0,
    0, 20, 118, 109, 104, 100, 0, 0, 0, 1, 0, 0, 0, 0, 0, 0, 0, 0, 0, 0, 0, 36, 100, 105, 110, 102, 0, 0, 0, 28, 100, 114, 101, 102, 0,
    0, 0, 0, 0, 0, 0, 1, 0, 0, 0, 12, 117, 114, 108, 32, 0, 0, 0, 1, 0, 0, 0, 218, 115, 116, 98, 108, 0, 0, 0, 142, 115, 116, 115, 100,
    0, 0, 0, 0, 0, 0, 0, 1, 0, 0, 0, 126, 118, 112, 48, 57, 0, 0, 0, 0, 0, 0, 0, 1, 0, 0, 0, 0, 0, 0, 0, 0, 0, 0, 0, 0, 0, 0, 0, 0, 7,
    128, 4, 56, 0, 72, 0, 0, 0, 72, 0, 0, 0, 0, 0, 0, 0, 1, 0, 0, 0, 0, 0, 0, 0, 0, 0, 0, 0, 0, 0, 0, 0, 0, 0, 0, 0, 0, 0, 0, 0, 0, 0, 0,
    0, 0, 0, 0, 0, 0, 0, 24, 255, 255, 0, 0, 0, 20, 118, 112, 99, 67, 1, 0, 0, 0, 1, 10, 130, 0, 0, 0, 0, 0, 0, 0, 0, 20, 98, 116, 114,
    116, 0, 0, 0, 0, 0, 15, 66, 64, 0, 15, 66, 64, 0, 0, 0, 16, 115, 116, 116, 115, 0, 0, 0, 0, 0, 0, 0, 0, 0, 0, 0, 16, 115, 116, 115,
    99, 0, 0, 0, 0, 0, 0, 0, 0, 0, 0, 0, 20, 115, 116, 115, 122, 0, 0, 0, 0, 0, 0, 0, 0, 0, 0, 0, 0, 0, 0, 0, 16, 115, 116, 99, 111, 0,
    0, 0, 0, 0, 0, 0, 0, 0, 0, 0, 40, 109, 118, 101, 120, 0, 0, 0, 32, 116, 114, 101, 120, 0, 0, 0, 0, 0, 0, 0, 1, 0, 0, 0, 1, 0, 0, 0,
    0, 0, 0, 0, 0, 0, 0, 0, 0]

/-- The value of "vp9". -/
def initSampleVp9 : Init :=
  { tracks := [{ id := 1, timeScale := 90000, codec := some (.vp9 ⟨1920, 1080, 1, 8, 1, false⟩) }] }

example : (marshal ⟨[], 0⟩ initSampleVp9).bind (fun f => .ok f.buf) = .ok initSampleVp9Bytes := by decide +kernel

example : unmarshal isoFields initSampleVp9Bytes = .ok initSampleVp9 := by decide +kernel

/-- The bytes of "h265". -/
def initSampleH265Bytes : Bytes := [0, 0, 0, 32, 102, 116, 121, 112, 109, 112, 52, 50, 0, 0, 0, 1, 109, 112, 52, 49, 109, 112, 52, 50, 105, 115, 111, 109, 104, 108, 115,
    102, 0, 0, 2, 184, 109, 111, 111, 118, 0, 0, 0, 108, 109, 118, 104, 100, 0, 0, 0, 0, 0, 0, 0, 0, 0, 0, 0, 0, 0, 0, 3, 232, 0, 0, 0,
    0, 0, 1, 0, 0, 1, 0, 0, 0, 0, 0, 0, 0, 0, 0, 0, 0, 0, 1, 0, 0, 0, 0, 0, 0, 0, 0, 0, 0, 0, 0, 0, 0, 0, 1, 0, 0, 0, 0, 0, 0, 0, 0, 0,
    0, 0, 0, 0, 0, 64, 0, 0, 0, 0, 0, 0, 0, 0, 0, 0, 0, 0, 0, 0, 0, 0, 0, 0, 0, 0, 0, 0, 0, 0, 0, 0, 0, 255, 255, 255, 255, 0, 0, 2, 28,
    116, 114, 97, 107, 0, 0, 0, 92, 116, 107, 104, 100, 0, 0, 0, 3, 0, 0, 0, 0, 0, 0, 0, 0, 0, 0, 0, 1, 0, 0, 0, 0, 0, 0, 0, 0, 0, 0, 0,
    0, 0, 0, 0, 0, 0, 0, 0, 0, 0, 0, 0, 0, 0, 1, 0, 0, 0, 0, 0, 0, 0, 0, 0, 0, 0, 0, 0, 0, 0, 1, 0, 0, 0, 0, 0, 0, 0, 0, 0, 0, 0, 0, 0,
    0, 64, 0, 0, 0, 7, 128, 0, 0, 4, 56, 0, 0, 0, 0, 1, 184, 109, 100, 105, 97, 0, 0, 0, 32, 109, 100, 104, 100, 0, 0, 0, 0, 0, 0, 0, 0,
    0, 0, 0, 0, 0, 1, 95, 144, 0, 0, 0, 0, 85, 196, 0, 0, 0, 0, 0, 45, 104, 100, 108, 114, 0, 0, 0, 0, 0, 0, 0, 0, 118, 105, 100, 101, 0,
    0, 0, 0, 0, 0, 0, 0, 0, 0, 0, 0, 86, 105, 100, 101, 111, 72, 97, 110, 100, 108, 101, 114, 0, 0, 0, 1, 99, 109, 105, 110, 102, 0, 0,
    0, 20, 118, 109, 104, 100, 0, 0, 0, 1, 0, 0, 0, 0, 0, 0, 0, 0, 0, 0, 0, 36, 100, 105, 110, 102, 0, 0, 0, 28, 100, 114, 101, 102, 0,
    0, 0, 0, 0, 0, 0, 1, 0, 0, 0, 12, 117, 114, 108, 32, 0, 0, 0, 1, 0, 0, 1, 35, 115, 116, 98, 108, 0, 0, 0, 215, 115, 116, 115, 100, 0,
    0, 0, 0, 0, 0, 0, 1, 0, 0, 0, 199, 104, 118, 99, 49, 0, 0, 0, 0, 0, 0, 0, 1, 0, 0, 0, 0, 0, 0, 0, 0, 0, 0, 0, 0, 0, 0, 0, 0, 7, 128,
    4, 56, 0, 72, 0, 0, 0, 72, 0, 0, 0, 0, 0, 0, 0, 1, 0, 0, 0, 0, 0, 0, 0, 0, 0, 0, 0, 0, 0, 0, 0, 0, 0, 0, 0, 0, 0, 0, 0, 0, 0, 0, 0,
    0, 0, 0, 0, 0, 0, 24, 255, 255, 0, 0, 0, 93, 104, 118, 99, 67, 1, 1, 96, 0, 0, 0, 3, 0, 144, 0, 0, 3, 120, 240, 0, 252, 253, 248,
    248, 0, 0, 19, 3, 32, 0, 1, 0, 4, 1, 2, 3, 4, 33, 0, 1, 0, 42, 66, 1, 1, 1, 96, 0, 0, 3, 0, 144, 0, 0, 3, 0, 0, 3, 0, 120, 160, 3,
    192, 128, 16, 229, 150, 102, 105, 36, 202, 224, 16, 0, 0, 3, 0, 16, 0, 0, 3, 1, 224, 128, 34, 0, 1, 0, 1, 8, 0, 0, 0, 20, 98, 116,
    114, 116, 0, 0, 0, 0, 0, 15, 66, 64, 0, 15, 66, 64, 0, 0, 0, 16, 115, 116, 116, 115, 0, 0, 0, 0, 0, 0, 0, 0, 0, 0, 0, 16, 115, 116,
    115, 99, 0, 0, 0, 0, 0, 0, 0, 0, 0, 0, 0, 20, 115, 116, 115, 122, 0, 0, 0, 0, 0, 0, 0, 0, 0, 0, 0, 0, 0, 0, 0, 16, 115, 116, 99, 111,
    0, 0, 0, 0, 0, 0, 0, 0, 0, 0, 0, 40, 109, 118, 101, 120, 0, 0, 0, 32, 116, 114, 101, 120, 0, 0, 0, 0, 0, 0, 0, 1, 0, 0, 0, 1, 0, 0,
    0, 0, 0, 0, 0, 0, 0, 0, 0, 0]

/-- The value of "h265". -/
def initSampleH265 : Init :=
  { tracks := [{ id := 1, timeScale := 90000, codec := some (.h265 [1, 2, 3, 4] [66, 1, 1, 1, 96, 0, 0, 3, 0, 144, 0, 0, 3, 0, 0, 3, 0, 120, 160, 3, 192, 128, 16, 229, 150, 102, 105, 36, 202, 224, 16, 0, 0, 3, 0,
      16, 0, 0, 3, 1, 224, 128]
      [8]) }] }

example : (marshal ⟨[], 0⟩ initSampleH265).bind (fun f => .ok f.buf) = .ok initSampleH265Bytes := by decide +kernel

example : unmarshal isoFields initSampleH265Bytes = .ok initSampleH265 := by decide +kernel

/-- The bytes of "h264". -/
def initSampleH264Bytes : Bytes := [0, 0, 0, 32, 102, 116, 121, 112, 109, 112, 52, 50, 0, 0, 0, 1, 109, 112, 52, 49, 109, 112, 52, 50, 105, 115, 111, 109, 104, 108, 115,
    102, 0, 0, 2, 136, 109, 111, 111, 118, 0, 0, 0, 108, 109, 118, 104, 100, 0, 0, 0, 0, 0, 0, 0, 0, 0, 0, 0, 0, 0, 0, 3, 232, 0, 0, 0,
    0, 0, 1, 0, 0, 1, 0, 0, 0, 0, 0, 0, 0, 0, 0, 0, 0, 0, 1, 0, 0, 0, 0, 0, 0, 0, 0, 0, 0, 0, 0, 0, 0, 0, 1, 0, 0, 0, 0, 0, 0, 0, 0, 0,
    0, 0, 0, 0, 0, 64, 0, 0, 0, 0, 0, 0, 0, 0, 0, 0, 0, 0, 0, 0, 0, 0, 0, 0, 0, 0, 0, 0, 0, 0, 0, 0, 0, 255, 255, 255, 255, 0, 0, 1, 236,
    116, 114, 97, 107, 0, 0, 0, 92, 116, 107, 104, 100, 0, 0, 0, 3, 0, 0, 0, 0, 0, 0, 0, 0, 0, 0, 0, 1, 0, 0, 0, 0, 0, 0, 0, 0, 0, 0, 0,
    0, 0, 0, 0, 0, 0, 0, 0, 0, 0, 0, 0, 0, 0, 1, 0, 0, 0, 0, 0, 0, 0, 0, 0, 0, 0, 0, 0, 0, 0, 1, 0, 0, 0, 0, 0, 0, 0, 0, 0, 0, 0, 0, 0,
    0, 64, 0, 0, 0, 7, 128, 0, 0, 4, 56, 0, 0, 0, 0, 1, 136, 109, 100, 105, 97, 0, 0, 0, 32, 109, 100, 104, 100, 0, 0, 0, 0, 0, 0, 0, 0,
    0, 0, 0, 0, 0, 1, 95, 144, 0, 0, 0, 0, 85, 196, 0, 0, 0, 0, 0, 45, 104, 100, 108, 114, 0, 0, 0, 0, 0, 0, 0, 0, 118, 105, 100, 101, 0,
    0, 0, 0, 0, 0, 0, 0, 0, 0, 0, 0, 86, 105, 100, 101, 111, 72, 97, 110, 100, 108, 101, 114, 0, 0, 0, 1, 51, 109, 105, 110, 102, 0, 0,
    0, 20, 118, 109, 104, 100, 0, 0, 0, 1, 0, 0, 0, 0, 0, 0, 0, 0, 0, 0, 0, 36, 100, 105, 110, 102, 0, 0, 0, 28, 100, 114, 101, 102, 0,
    0, 0, 0, 0, 0, 0, 1, 0, 0, 0, 12, 117, 114, 108, 32, 0, 0, 0, 1, 0, 0, 0, 243, 115, 116, 98, 108, 0, 0, 0, 167, 115, 116, 115, 100,
    0, 0, 0, 0, 0, 0, 0, 1, 0, 0, 0, 151, 97, 118, 99, 49, 0, 0, 0, 0, 0, 0, 0, 1, 0, 0, 0, 0, 0, 0, 0, 0, 0, 0, 0, 0, 0, 0, 0, 0, 7,
    128, 4, 56, 0, 72, 0, 0, 0, 72, 0, 0, 0, 0, 0, 0, 0, 1, 0, 0, 0, 0, 0, 0, 0, 0, 0, 0, 0, 0, 0, 0, 0, 0, 0, 0, 0, 0, 0, 0, 0, 0, 0, 0,
    0, 0, 0, 0, 0, 0, 0, 24, 255, 255, 0, 0, 0, 45, 97, 118, 99, 67, 1, 66, 192, 40, 255, 225, 0, 25, 103, 66, 192, 40, 217, 0, 120, 2,
    39, 229, 132, 0, 0, 3, 0, 4, 0, 0, 3, 0, 240, 60, 96, 201, 32, 1, 0, 1, 8, 0, 0, 0, 20, 98, 116, 114, 116, 0, 0, 0, 0, 0, 15, 66, 64,
    0, 15, 66, 64, 0, 0, 0, 16, 115, 116, 116, 115, 0, 0, 0, 0, 0, 0, 0, 0, 0, 0, 0, 16, 115, 116, 115, 99, 0, 0, 0, 0, 0, 0, 0, 0, 0, 0,
    0, 20, 115, 116, 115, 122, 0, 0, 0, 0, 0, 0, 0, 0, 0, 0, 0, 0, 0, 0, 0, 16, 115, 116, 99, 111, 0, 0, 0, 0, 0, 0, 0, 0, 0, 0, 0, 40,
    109, 118, 101, 120, 0, 0, 0, 32, 116, 114, 101, 120, 0, 0, 0, 0, 0, 0, 0, 1, 0, 0, 0, 1, 0, 0, 0, 0, 0, 0, 0, 0, 0, 0, 0, 0]

/-- The value of "h264". -/
def initSampleH264 : Init :=
  { tracks := [{ id := 1, timeScale := 90000, codec := some (.h264 [103, 66, 192, 40, 217, 0, 120, 2, 39, 229, 132, 0, 0, 3, 0, 4, 0, 0, 3, 0, 240, 60, 96, 201, 32] [8]) }] }

example : (marshal ⟨[], 0⟩ initSampleH264).bind (fun f => .ok f.buf) = .ok initSampleH264Bytes := by decide +kernel

example : unmarshal isoFields initSampleH264Bytes = .ok initSampleH264 := by decide +kernel

/-- The bytes of "mpeg-4 video". -/
def initSampleMpeg4VideoBytes : Bytes := [0, 0, 0, 32, 102, 116, 121, 112, 109, 112, 52, 50, 0, 0, 0, 1, 109, 112, 52, 49, 109, 112, 52, 50, 105, 115, 111, 109, 104, 108, 115,
    102, 0, 0, 2, 188, 109, 111, 111, 118, 0, 0, 0, 108, 109, 118, 104, 100, 0, 0, 0, 0, 0, 0, 0, 0, 0, 0, 0, 0, 0, 0, 3, 232, 0, 0, 0,
    0, 0, 1, 0, 0, 1, 0, 0, 0, 0, 0, 0, 0, 0, 0, 0, 0, 0, 1, 0, 0, 0, 0, 0, 0, 0, 0, 0, 0, 0, 0, 0, 0, 0, 1, 0, 0, 0, 0, 0, 0, 0, 0, 0,
    0, 0, 0, 0, 0, 64, 0, 0, 0, 0, 0, 0, 0, 0, 0, 0, 0, 0, 0, 0, 0, 0, 0, 0, 0, 0, 0, 0, 0, 0, 0, 0, 0, 255, 255, 255, 255, 0, 0, 2, 32,
    116, 114, 97, 107, 0, 0, 0, 92, 116, 107, 104, 100, 0, 0, 0, 3, 0, 0, 0, 0, 0, 0, 0, 0, 0, 0, 0, 1, 0, 0, 0, 0, 0, 0, 0, 0, 0, 0, 0,
    0, 0, 0, 0, 0, 0, 0, 0, 0, 0, 0, 0, 0, 0, 1, 0, 0, 0, 0, 0, 0, 0, 0, 0, 0, 0, 0, 0, 0, 0, 1, 0, 0, 0, 0, 0, 0, 0, 0, 0, 0, 0, 0, 0,
    0, 64, 0, 0, 0, 3, 32, 0, 0, 2, 88, 0, 0, 0, 0, 1, 188, 109, 100, 105, 97, 0, 0, 0, 32, 109, 100, 104, 100, 0, 0, 0, 0, 0, 0, 0, 0,
    0, 0, 0, 0, 0, 1, 95, 144, 0, 0, 0, 0, 85, 196, 0, 0, 0, 0, 0, 45, 104, 100, 108, 114, 0, 0, 0, 0, 0, 0, 0, 0, 118, 105, 100, 101, 0,
    0, 0, 0, 0, 0, 0, 0, 0, 0, 0, 0, 86, 105, 100, 101, 111, 72, 97, 110, 100, 108, 101, 114, 0, 0, 0, 1, 103, 109, 105, 110, 102, 0, 0,
    0, 20, 118, 109, 104, 100, 0, 0, 0, 1, 0, 0, 0, 0, 0, 0, 0, 0, 0, 0, 0, 36, 100, 105, 110, 102, 0, 0, 0, 28, 100, 114, 101, 102, 0,
    0, 0, 0, 0, 0, 0, 1, 0, 0, 0, 12, 117, 114, 108, 32, 0, 0, 0, 1, 0, 0, 1, 39, 115, 116, 98, 108, 0, 0, 0, 219, 115, 116, 115, 100, 0,
    0, 0, 0, 0, 0, 0, 1, 0, 0, 0, 203, 109, 112, 52, 118, 0, 0, 0, 0, 0, 0, 0, 1, 0, 0, 0, 0, 0, 0, 0, 0, 0, 0, 0, 0, 0, 0, 0, 0, 3, 32,
    2, 88, 0, 72, 0, 0, 0, 72, 0, 0, 0, 0, 0, 0, 0, 1, 0, 0, 0, 0, 0, 0, 0, 0, 0, 0, 0, 0, 0, 0, 0, 0, 0, 0, 0, 0, 0, 0, 0, 0, 0, 0, 0,
    0, 0, 0, 0, 0, 0, 24, 255, 255, 0, 0, 0, 97, 101, 115, 100, 115, 0, 0, 0, 0, 3, 128, 128, 128, 80, 0, 1, 0, 4, 128, 128, 128, 66, 32,
    17, 0, 0, 0, 0, 15, 66, 64, 0, 15, 66, 64, 5, 128, 128, 128, 48, 0, 0, 1, 176, 1, 0, 0, 1, 181, 137, 19, 0, 0, 1, 0, 0, 0, 1, 32, 0,
    196, 141, 136, 0, 245, 60, 4, 135, 20, 99, 0, 0, 1, 178, 76, 97, 118, 99, 53, 56, 46, 49, 51, 52, 46, 49, 48, 48, 6, 128, 128, 128,
    1, 2, 0, 0, 0, 20, 98, 116, 114, 116, 0, 0, 0, 0, 0, 15, 66, 64, 0, 15, 66, 64, 0, 0, 0, 16, 115, 116, 116, 115, 0, 0, 0, 0, 0, 0, 0,
    0, 0, 0, 0, 16, 115, 116, 115, 99, 0, 0, 0, 0, 0, 0, 0, 0, 0, 0, 0, 20, 115, 116, 115, 122, 0, 0, 0, 0, 0, 0, 0, 0, 0, 0, 0, 0, 0, 0,
    0, 16, 115, 116, 99, 111, 0, 0, 0, 0, 0, 0, 0, 0, 0, 0, 0, 40, 109, 118, 101, 120, 0, 0, 0, 32, 116, 114, 101, 120, 0, 0, 0, 0, 0, 0,
    0, 1, 0, 0, 0, 1, 0, 0, 0, 0, 0, 0, 0, 0, 0, 0, 0, 0]

/-- The value of "mpeg-4 video". -/
def initSampleMpeg4Video : Init :=
  { tracks := [{ id := 1, timeScale := 90000, codec := some (.mpeg4Video [0, 0, 1, 176, 1, 0, 0, 1, 181, 137, 19, 0, 0, 1, 0, 0, 0, 1, 32, 0, 196, 141, 136, 0, 245, 60, 4, 135, 20, 99, 0, 0, 1, 178, 76,
      97, 118, 99, 53, 56, 46, 49, 51, 52, 46, 49, 48, 48]) }] }

example : (marshal ⟨[], 0⟩ initSampleMpeg4Video).bind (fun f => .ok f.buf) = .ok initSampleMpeg4VideoBytes := by decide +kernel

example : unmarshal isoFields initSampleMpeg4VideoBytes = .ok initSampleMpeg4Video := by decide +kernel

/-- The bytes of "mpeg-1 video". -/
def initSampleMpeg1VideoBytes : Bytes := [0, 0, 0, 32, 102, 116, 121, 112, 109, 112, 52, 50, 0, 0, 0, 1, 109, 112, 52, 49, 109, 112, 52, 50, 105, 115, 111, 109, 104, 108, 115,
    102, 0, 0, 2, 162, 109, 111, 111, 118, 0, 0, 0, 108, 109, 118, 104, 100, 0, 0, 0, 0, 0, 0, 0, 0, 0, 0, 0, 0, 0, 0, 3, 232, 0, 0, 0,
    0, 0, 1, 0, 0, 1, 0, 0, 0, 0, 0, 0, 0, 0, 0, 0, 0, 0, 1, 0, 0, 0, 0, 0, 0, 0, 0, 0, 0, 0, 0, 0, 0, 0, 1, 0, 0, 0, 0, 0, 0, 0, 0, 0,
    0, 0, 0, 0, 0, 64, 0, 0, 0, 0, 0, 0, 0, 0, 0, 0, 0, 0, 0, 0, 0, 0, 0, 0, 0, 0, 0, 0, 0, 0, 0, 0, 0, 255, 255, 255, 255, 0, 0, 2, 6,
    116, 114, 97, 107, 0, 0, 0, 92, 116, 107, 104, 100, 0, 0, 0, 3, 0, 0, 0, 0, 0, 0, 0, 0, 0, 0, 0, 1, 0, 0, 0, 0, 0, 0, 0, 0, 0, 0, 0,
    0, 0, 0, 0, 0, 0, 0, 0, 0, 0, 0, 0, 0, 0, 1, 0, 0, 0, 0, 0, 0, 0, 0, 0, 0, 0, 0, 0, 0, 0, 1, 0, 0, 0, 0, 0, 0, 0, 0, 0, 0, 0, 0, 0,
    0, 64, 0, 0, 0, 3, 32, 0, 0, 2, 88, 0, 0, 0, 0, 1, 162, 109, 100, 105, 97, 0, 0, 0, 32, 109, 100, 104, 100, 0, 0, 0, 0, 0, 0, 0, 0,
    0, 0, 0, 0, 0, 1, 95, 144, 0, 0, 0, 0, 85, 196, 0, 0, 0, 0, 0, 45, 104, 100, 108, 114, 0, 0, 0, 0, 0, 0, 0, 0, 118, 105, 100, 101, 0,
    0, 0, 0, 0, 0, 0, 0, 0, 0, 0, 0, 86, 105, 100, 101, 111, 72, 97, 110, 100, 108, 101, 114, 0, 0, 0, 1, 77, 109, 105, 110, 102, 0, 0,
    0, 20, 118, 109, 104, 100, 0, 0, 0, 1, 0, 0, 0, 0, 0, 0, 0, 0, 0, 0, 0, 36, 100, 105, 110, 102, 0, 0, 0, 28, 100, 114, 101, 102, 0,
    0, 0, 0, 0, 0, 0, 1, 0, 0, 0, 12, 117, 114, 108, 32, 0, 0, 0, 1, 0, 0, 1, 13, 115, 116, 98, 108, 0, 0, 0, 193, 115, 116, 115, 100, 0,
    0, 0, 0, 0, 0, 0, 1, 0, 0, 0, 177, 109, 112, 52, 118, 0, 0, 0, 0, 0, 0, 0, 1, 0, 0, 0, 0, 0, 0, 0, 0, 0, 0, 0, 0, 0, 0, 0, 0, 3, 32,
    2, 88, 0, 72, 0, 0, 0, 72, 0, 0, 0, 0, 0, 0, 0, 1, 0, 0, 0, 0, 0, 0, 0, 0, 0, 0, 0, 0, 0, 0, 0, 0, 0, 0, 0, 0, 0, 0, 0, 0, 0, 0, 0,
    0, 0, 0, 0, 0, 0, 24, 255, 255, 0, 0, 0, 71, 101, 115, 100, 115, 0, 0, 0, 0, 3, 128, 128, 128, 54, 0, 1, 0, 4, 128, 128, 128, 40, 97,
    17, 0, 0, 0, 0, 15, 66, 64, 0, 15, 66, 64, 5, 128, 128, 128, 22, 0, 0, 1, 179, 120, 4, 56, 53, 255, 255, 224, 24, 0, 0, 1, 181, 20,
    74, 0, 1, 0, 0, 6, 128, 128, 128, 1, 2, 0, 0, 0, 20, 98, 116, 114, 116, 0, 0, 0, 0, 0, 15, 66, 64, 0, 15, 66, 64, 0, 0, 0, 16, 115,
    116, 116, 115, 0, 0, 0, 0, 0, 0, 0, 0, 0, 0, 0, 16, 115, 116, 115, 99, 0, 0, 0, 0, 0, 0, 0, 0, 0, 0, 0, 20, 115, 116, 115, 122, 0, 0,
    0, 0, 0, 0, 0, 0, 0, 0, 0, 0, 0, 0, 0, 16, 115, 116, 99, 111, 0, 0, 0, 0, 0, 0, 0, 0, 0, 0, 0, 40, 109, 118, 101, 120, 0, 0, 0, 32,
    116, 114, 101, 120, 0, 0, 0, 0, 0, 0, 0, 1, 0, 0, 0, 1, 0, 0, 0, 0, 0, 0, 0, 0, 0, 0, 0, 0]

/-- The value of "mpeg-1 video". -/
def initSampleMpeg1Video : Init :=
  { tracks := [{ id := 1, timeScale := 90000, codec := some (.mpeg1Video [0, 0, 1, 179, 120, 4, 56, 53, 255, 255, 224, 24, 0, 0, 1, 181, 20, 74, 0, 1, 0, 0]) }] }

example : (marshal ⟨[], 0⟩ initSampleMpeg1Video).bind (fun f => .ok f.buf) = .ok initSampleMpeg1VideoBytes := by decide +kernel

example : unmarshal isoFields initSampleMpeg1VideoBytes = .ok initSampleMpeg1Video := by decide +kernel

/-- The bytes of "mjpeg video". -/
def initSampleMjpegVideoBytes : Bytes := [0, 0, 0, 32, 102, 116, 121, 112, 109, 112, 52, 50, 0, 0, 0, 1, 109, 112, 52, 49, 109, 112, 52, 50, 105, 115, 111, 109, 104, 108, 115,
    102, 0, 0, 2, 135, 109, 111, 111, 118, 0, 0, 0, 108, 109, 118, 104, 100, 0, 0, 0, 0, 0, 0, 0, 0, 0, 0, 0, 0, 0, 0, 3, 232, 0, 0, 0,
    0, 0, 1, 0, 0, 1, 0, 0, 0, 0, 0, 0, 0, 0, 0, 0, 0, 0, 1, 0, 0, 0, 0, 0, 0, 0, 0, 0, 0, 0, 0, 0, 0, 0, 1, 0, 0, 0, 0, 0, 0, 0, 0, 0,
    0, 0, 0, 0, 0, 64, 0, 0, 0, 0, 0, 0, 0, 0, 0, 0, 0, 0, 0, 0, 0, 0, 0, 0, 0, 0, 0, 0, 0, 0, 0, 0, 0, 255, 255, 255, 255, 0, 0, 1, 235,
    116, 114, 97, 107, 0, 0, 0, 92, 116, 107, 104, 100, 0, 0, 0, 3, 0, 0, 0, 0, 0, 0, 0, 0, 0, 0, 0, 1, 0, 0, 0, 0, 0, 0, 0, 0, 0, 0, 0,
    0, 0, 0, 0, 0, 0, 0, 0, 0, 0, 0, 0, 0, 0, 1, 0, 0, 0, 0, 0, 0, 0, 0, 0, 0, 0, 0, 0, 0, 0, 1, 0, 0, 0, 0, 0, 0, 0, 0, 0, 0, 0, 0, 0,
    0, 64, 0, 0, 0, 2, 128, 0, 0, 1, 224, 0, 0, 0, 0, 1, 135, 109, 100, 105, 97, 0, 0, 0, 32, 109, 100, 104, 100, 0, 0, 0, 0, 0, 0, 0, 0,
    0, 0, 0, 0, 0, 1, 95, 144, 0, 0, 0, 0, 85, 196, 0, 0, 0, 0, 0, 45, 104, 100, 108, 114, 0, 0, 0, 0, 0, 0, 0, 0, 118, 105, 100, 101, 0,
    0, 0, 0, 0, 0, 0, 0, 0, 0, 0, 0, 86, 105, 100, 101, 111, 72, 97, 110, 100, 108, 101, 114, 0, 0, 0, 1, 50, 109, 105, 110, 102, 0, 0,
    0, 20, 118, 109, 104, 100, 0, 0, 0, 1, 0, 0, 0, 0, 0, 0, 0, 0, 0, 0, 0, 36, 100, 105, 110, 102, 0, 0, 0, 28, 100, 114, 101, 102, 0,
    0, 0, 0, 0, 0, 0, 1, 0, 0, 0, 12, 117, 114, 108, 32, 0, 0, 0, 1, 0, 0, 0, 242, 115, 116, 98, 108, 0, 0, 0, 166, 115, 116, 115, 100,
    0, 0, 0, 0, 0, 0, 0, 1, 0, 0, 0, 150, 109, 112, 52, 118, 0, 0, 0, 0, 0, 0, 0, 1, 0, 0, 0, 0, 0, 0, 0, 0, 0, 0, 0, 0, 0, 0, 0, 0, 2,
    128, 1, 224, 0, 72, 0, 0, 0, 72, 0, 0, 0, 0, 0, 0, 0, 1, 0, 0, 0, 0, 0, 0, 0, 0, 0, 0, 0, 0, 0, 0, 0, 0, 0, 0, 0, 0, 0, 0, 0, 0, 0,
    0, 0, 0, 0, 0, 0, 0, 0, 24, 255, 255, 0, 0, 0, 44, 101, 115, 100, 115, 0, 0, 0, 0, 3, 128, 128, 128, 27, 0, 1, 0, 4, 128, 128, 128,
    13, 108, 17, 0, 0, 0, 0, 15, 66, 64, 0, 15, 66, 64, 6, 128, 128, 128, 1, 2, 0, 0, 0, 20, 98, 116, 114, 116, 0, 0, 0, 0, 0, 15, 66,
    64, 0, 15, 66, 64, 0, 0, 0, 16, 115, 116, 116, 115, 0, 0, 0, 0, 0, 0, 0, 0, 0, 0, 0, 16, 115, 116, 115, 99, 0, 0, 0, 0, 0, 0, 0, 0,
    0, 0, 0, 20, 115, 116, 115, 122, 0, 0, 0, 0, 0, 0, 0, 0, 0, 0, 0, 0, 0, 0, 0, 16, 115, 116, 99, 111, 0, 0, 0, 0, 0, 0, 0, 0, 0, 0, 0,
    40, 109, 118, 101, 120, 0, 0, 0, 32, 116, 114, 101, 120, 0, 0, 0, 0, 0, 0, 0, 1, 0, 0, 0, 1, 0, 0, 0, 0, 0, 0, 0, 0, 0, 0, 0, 0]

/-- The value of "mjpeg video". -/
def initSampleMjpegVideo : Init :=
  { tracks := [{ id := 1, timeScale := 90000, codec := some (.mjpeg 640 480) }] }

example : (marshal ⟨[], 0⟩ initSampleMjpegVideo).bind (fun f => .ok f.buf) = .ok initSampleMjpegVideoBytes := by decide +kernel

example : unmarshal isoFields initSampleMjpegVideoBytes = .ok initSampleMjpegVideo := by decide +kernel

/-- The bytes of "opus". -/
def initSampleOpusBytes : Bytes := [0, 0, 0, 32, 102, 116, 121, 112, 109, 112, 52, 50, 0, 0, 0, 1, 109, 112, 52, 49, 109, 112, 52, 50, 105, 115, 111, 109, 104, 108, 115,
    102, 0, 0, 2, 56, 109, 111, 111, 118, 0, 0, 0, 108, 109, 118, 104, 100, 0, 0, 0, 0, 0, 0, 0, 0, 0, 0, 0, 0, 0, 0, 3, 232, 0, 0, 0, 0,
    0, 1, 0, 0, 1, 0, 0, 0, 0, 0, 0, 0, 0, 0, 0, 0, 0, 1, 0, 0, 0, 0, 0, 0, 0, 0, 0, 0, 0, 0, 0, 0, 0, 1, 0, 0, 0, 0, 0, 0, 0, 0, 0, 0,
    0, 0, 0, 0, 64, 0, 0, 0, 0, 0, 0, 0, 0, 0, 0, 0, 0, 0, 0, 0, 0, 0, 0, 0, 0, 0, 0, 0, 0, 0, 0, 0, 255, 255, 255, 255, 0, 0, 1, 156,
    116, 114, 97, 107, 0, 0, 0, 92, 116, 107, 104, 100, 0, 0, 0, 3, 0, 0, 0, 0, 0, 0, 0, 0, 0, 0, 0, 1, 0, 0, 0, 0, 0, 0, 0, 0, 0, 0, 0,
    0, 0, 0, 0, 0, 0, 0, 0, 1, 1, 0, 0, 0, 0, 1, 0, 0, 0, 0, 0, 0, 0, 0, 0, 0, 0, 0, 0, 0, 0, 1, 0, 0, 0, 0, 0, 0, 0, 0, 0, 0, 0, 0, 0,
    0, 64, 0, 0, 0, 0, 0, 0, 0, 0, 0, 0, 0, 0, 0, 1, 56, 109, 100, 105, 97, 0, 0, 0, 32, 109, 100, 104, 100, 0, 0, 0, 0, 0, 0, 0, 0, 0,
    0, 0, 0, 0, 0, 187, 128, 0, 0, 0, 0, 85, 196, 0, 0, 0, 0, 0, 45, 104, 100, 108, 114, 0, 0, 0, 0, 0, 0, 0, 0, 115, 111, 117, 110, 0,
    0, 0, 0, 0, 0, 0, 0, 0, 0, 0, 0, 83, 111, 117, 110, 100, 72, 97, 110, 100, 108, 101, 114, 0, 0, 0, 0, 227, 109, 105, 110, 102, 0, 0,
    0, 16, 115, 109, 104, 100, 0, 0, 0, 0, 0, 0, 0, 0, 0, 0, 0, 36, 100, 105, 110, 102, 0, 0, 0, 28, 100, 114, 101, 102, 0, 0, 0, 0, 0,
    0, 0, 1, 0, 0, 0, 12, 117, 114, 108, 32, 0, 0, 0, 1, 0, 0, 0, 167, 115, 116, 98, 108, 0, 0, 0, 91, 115, 116, 115, 100, 0, 0, 0, 0, 0,
    0, 0, 1, 0, 0, 0, 75, 79, 112, 117, 115, 0, 0, 0, 0, 0, 0, 0, 1, 0, 0, 0, 0, 0, 0, 0, 0, 0, 2, 0, 16, 0, 0, 0, 0, 187, 128, 0, 0, 0,
    0, 0, 19, 100, 79, 112, 115, 0, 2, 1, 56, 0, 0, 187, 128, 0, 0, 0, 0, 0, 0, 20, 98, 116, 114, 116, 0, 0, 0, 0, 0, 1, 247, 57, 0, 1,
    247, 57, 0, 0, 0, 16, 115, 116, 116, 115, 0, 0, 0, 0, 0, 0, 0, 0, 0, 0, 0, 16, 115, 116, 115, 99, 0, 0, 0, 0, 0, 0, 0, 0, 0, 0, 0,
    20, 115, 116, 115, 122, 0, 0, 0, 0, 0, 0, 0, 0, 0, 0, 0, 0, 0, 0, 0, 16, 115, 116, 99, 111, 0, 0, 0, 0, 0, 0, 0, 0, 0, 0, 0, 40, 109,
    118, 101, 120, 0, 0, 0, 32, 116, 114, 101, 120, 0, 0, 0, 0, 0, 0, 0, 1, 0, 0, 0, 1, 0, 0, 0, 0, 0, 0, 0, 0, 0, 0, 0, 0]

/-- The value of "opus". -/
def initSampleOpus : Init :=
  { tracks := [{ id := 1, timeScale := 48000, codec := some (.opus 2) }] }

example : (marshal ⟨[], 0⟩ initSampleOpus).bind (fun f => .ok f.buf) = .ok initSampleOpusBytes := by decide +kernel

example : unmarshal isoFields initSampleOpusBytes = .ok initSampleOpus := by decide +kernel

/-- The bytes of "flac". -/
def initSampleFlacBytes : Bytes := [0, 0, 0, 32, 102, 116, 121, 112, 109, 112, 52, 50, 0, 0, 0, 1, 109, 112, 52, 49, 109, 112, 52, 50, 105, 115, 111, 109, 104, 108, 115,
    102, 0, 0, 2, 87, 109, 111, 111, 118, 0, 0, 0, 108, 109, 118, 104, 100, 0, 0, 0, 0, 0, 0, 0, 0, 0, 0, 0, 0, 0, 0, 3, 232, 0, 0, 0, 0,
    0, 1, 0, 0, 1, 0, 0, 0, 0, 0, 0, 0, 0, 0, 0, 0, 0, 1, 0, 0, 0, 0, 0, 0, 0, 0, 0, 0, 0, 0, 0, 0, 0, 1, 0, 0, 0, 0, 0, 0, 0, 0, 0, 0,
    0, 0, 0, 0, 64, 0, 0, 0, 0, 0, 0, 0, 0, 0, 0, 0, 0, 0, 0, 0, 0, 0, 0, 0, 0, 0, 0, 0, 0, 0, 0, 0, 255, 255, 255, 255, 0, 0, 1, 187,
    116, 114, 97, 107, 0, 0, 0, 92, 116, 107, 104, 100, 0, 0, 0, 3, 0, 0, 0, 0, 0, 0, 0, 0, 0, 0, 0, 1, 0, 0, 0, 0, 0, 0, 0, 0, 0, 0, 0,
    0, 0, 0, 0, 0, 0, 0, 0, 1, 1, 0, 0, 0, 0, 1, 0, 0, 0, 0, 0, 0, 0, 0, 0, 0, 0, 0, 0, 0, 0, 1, 0, 0, 0, 0, 0, 0, 0, 0, 0, 0, 0, 0, 0,
    0, 64, 0, 0, 0, 0, 0, 0, 0, 0, 0, 0, 0, 0, 0, 1, 87, 109, 100, 105, 97, 0, 0, 0, 32, 109, 100, 104, 100, 0, 0, 0, 0, 0, 0, 0, 0, 0,
    0, 0, 0, 0, 0, 172, 68, 0, 0, 0, 0, 85, 196, 0, 0, 0, 0, 0, 45, 104, 100, 108, 114, 0, 0, 0, 0, 0, 0, 0, 0, 115, 111, 117, 110, 0, 0,
    0, 0, 0, 0, 0, 0, 0, 0, 0, 0, 83, 111, 117, 110, 100, 72, 97, 110, 100, 108, 101, 114, 0, 0, 0, 1, 2, 109, 105, 110, 102, 0, 0, 0,
    16, 115, 109, 104, 100, 0, 0, 0, 0, 0, 0, 0, 0, 0, 0, 0, 36, 100, 105, 110, 102, 0, 0, 0, 28, 100, 114, 101, 102, 0, 0, 0, 0, 0, 0,
    0, 1, 0, 0, 0, 12, 117, 114, 108, 32, 0, 0, 0, 1, 0, 0, 0, 198, 115, 116, 98, 108, 0, 0, 0, 122, 115, 116, 115, 100, 0, 0, 0, 0, 0,
    0, 0, 1, 0, 0, 0, 106, 102, 76, 97, 67, 0, 0, 0, 0, 0, 0, 0, 1, 0, 0, 0, 0, 0, 0, 0, 0, 0, 2, 0, 16, 0, 0, 0, 0, 172, 68, 0, 0, 0, 0,
    0, 50, 100, 102, 76, 97, 0, 0, 0, 0, 128, 0, 0, 34, 0, 0, 0, 0, 0, 0, 0, 0, 0, 0, 10, 196, 66, 240, 0, 0, 0, 0, 0, 0, 0, 0, 0, 0, 0,
    0, 0, 0, 0, 0, 0, 0, 0, 0, 0, 0, 0, 20, 98, 116, 114, 116, 0, 0, 0, 0, 0, 1, 247, 57, 0, 1, 247, 57, 0, 0, 0, 16, 115, 116, 116, 115,
    0, 0, 0, 0, 0, 0, 0, 0, 0, 0, 0, 16, 115, 116, 115, 99, 0, 0, 0, 0, 0, 0, 0, 0, 0, 0, 0, 20, 115, 116, 115, 122, 0, 0, 0, 0, 0, 0, 0,
    0, 0, 0, 0, 0, 0, 0, 0, 16, 115, 116, 99, 111, 0, 0, 0, 0, 0, 0, 0, 0, 0, 0, 0, 40, 109, 118, 101, 120, 0, 0, 0, 32, 116, 114, 101,
    120, 0, 0, 0, 0, 0, 0, 0, 1, 0, 0, 0, 1, 0, 0, 0, 0, 0, 0, 0, 0, 0, 0, 0, 0]

/-- The value of "flac". -/
def initSampleFlac : Init :=
  { tracks := [{ id := 1, timeScale := 44100, codec := some (.flac (some ⟨0, 0, 0, 0, 44100, 2, 16, 0, List.replicate 16 0⟩)) }] }

example : (marshal ⟨[], 0⟩ initSampleFlac).bind (fun f => .ok f.buf) = .ok initSampleFlacBytes := by decide +kernel

example : unmarshal isoFields initSampleFlacBytes = .ok initSampleFlac := by decide +kernel

/-- The bytes of "mpeg-4 audio". -/
def initSampleMpeg4AudioBytes : Bytes := [0, 0, 0, 32, 102, 116, 121, 112, 109, 112, 52, 50, 0, 0, 0, 1, 109, 112, 52, 49, 109, 112, 52, 50, 105, 115, 111, 109, 104, 108, 115,
    102, 0, 0, 2, 88, 109, 111, 111, 118, 0, 0, 0, 108, 109, 118, 104, 100, 0, 0, 0, 0, 0, 0, 0, 0, 0, 0, 0, 0, 0, 0, 3, 232, 0, 0, 0, 0,
    0, 1, 0, 0, 1, 0, 0, 0, 0, 0, 0, 0, 0, 0, 0, 0, 0, 1, 0, 0, 0, 0, 0, 0, 0, 0, 0, 0, 0, 0, 0, 0, 0, 1, 0, 0, 0, 0, 0, 0, 0, 0, 0, 0,
    0, 0, 0, 0, 64, 0, 0, 0, 0, 0, 0, 0, 0, 0, 0, 0, 0, 0, 0, 0, 0, 0, 0, 0, 0, 0, 0, 0, 0, 0, 0, 0, 255, 255, 255, 255, 0, 0, 1, 188,
    116, 114, 97, 107, 0, 0, 0, 92, 116, 107, 104, 100, 0, 0, 0, 3, 0, 0, 0, 0, 0, 0, 0, 0, 0, 0, 0, 1, 0, 0, 0, 0, 0, 0, 0, 0, 0, 0, 0,
    0, 0, 0, 0, 0, 0, 0, 0, 1, 1, 0, 0, 0, 0, 1, 0, 0, 0, 0, 0, 0, 0, 0, 0, 0, 0, 0, 0, 0, 0, 1, 0, 0, 0, 0, 0, 0, 0, 0, 0, 0, 0, 0, 0,
    0, 64, 0, 0, 0, 0, 0, 0, 0, 0, 0, 0, 0, 0, 0, 1, 88, 109, 100, 105, 97, 0, 0, 0, 32, 109, 100, 104, 100, 0, 0, 0, 0, 0, 0, 0, 0, 0,
    0, 0, 0, 0, 0, 172, 68, 0, 0, 0, 0, 85, 196, 0, 0, 0, 0, 0, 45, 104, 100, 108, 114, 0, 0, 0, 0, 0, 0, 0, 0, 115, 111, 117, 110, 0, 0,
    0, 0, 0, 0, 0, 0, 0, 0, 0, 0, 83, 111, 117, 110, 100, 72, 97, 110, 100, 108, 101, 114, 0, 0, 0, 1, 3, 109, 105, 110, 102, 0, 0, 0,
    16, 115, 109, 104, 100, 0, 0, 0, 0, 0, 0, 0, 0, 0, 0, 0, 36, 100, 105, 110, 102, 0, 0, 0, 28, 100, 114, 101, 102, 0, 0, 0, 0, 0, 0,
    0, 1, 0, 0, 0, 12, 117, 114, 108, 32, 0, 0, 0, 1, 0, 0, 0, 199, 115, 116, 98, 108, 0, 0, 0, 123, 115, 116, 115, 100, 0, 0, 0, 0, 0,
    0, 0, 1, 0, 0, 0, 107, 109, 112, 52, 97, 0, 0, 0, 0, 0, 0, 0, 1, 0, 0, 0, 0, 0, 0, 0, 0, 0, 2, 0, 16, 0, 0, 0, 0, 172, 68, 0, 0, 0,
    0, 0, 51, 101, 115, 100, 115, 0, 0, 0, 0, 3, 128, 128, 128, 34, 0, 1, 0, 4, 128, 128, 128, 20, 64, 21, 0, 0, 0, 0, 1, 247, 57, 0, 1,
    247, 57, 5, 128, 128, 128, 2, 18, 16, 6, 128, 128, 128, 1, 2, 0, 0, 0, 20, 98, 116, 114, 116, 0, 0, 0, 0, 0, 1, 247, 57, 0, 1, 247,
    57, 0, 0, 0, 16, 115, 116, 116, 115, 0, 0, 0, 0, 0, 0, 0, 0, 0, 0, 0, 16, 115, 116, 115, 99, 0, 0, 0, 0, 0, 0, 0, 0, 0, 0, 0, 20,
    115, 116, 115, 122, 0, 0, 0, 0, 0, 0, 0, 0, 0, 0, 0, 0, 0, 0, 0, 16, 115, 116, 99, 111, 0, 0, 0, 0, 0, 0, 0, 0, 0, 0, 0, 40, 109,
    118, 101, 120, 0, 0, 0, 32, 116, 114, 101, 120, 0, 0, 0, 0, 0, 0, 0, 1, 0, 0, 0, 1, 0, 0, 0, 0, 0, 0, 0, 0, 0, 0, 0, 0]

/-- The value of "mpeg-4 audio". -/
def initSampleMpeg4Audio : Init :=
  { tracks := [{ id := 1, timeScale := 44100, codec := some (.mpeg4Audio ⟨2, 44100, 2, 2, 0, 0, false, false, 0⟩) }] }

example : (marshal ⟨[], 0⟩ initSampleMpeg4Audio).bind (fun f => .ok f.buf) = .ok initSampleMpeg4AudioBytes := by decide +kernel

example : unmarshal isoFields initSampleMpeg4AudioBytes = .ok initSampleMpeg4Audio := by decide +kernel

/-- The bytes of "mpeg-1 audio". -/
def initSampleMpeg1AudioBytes : Bytes := [0, 0, 0, 32, 102, 116, 121, 112, 109, 112, 52, 50, 0, 0, 0, 1, 109, 112, 52, 49, 109, 112, 52, 50, 105, 115, 111, 109, 104, 108, 115,
    102, 0, 0, 2, 81, 109, 111, 111, 118, 0, 0, 0, 108, 109, 118, 104, 100, 0, 0, 0, 0, 0, 0, 0, 0, 0, 0, 0, 0, 0, 0, 3, 232, 0, 0, 0, 0,
    0, 1, 0, 0, 1, 0, 0, 0, 0, 0, 0, 0, 0, 0, 0, 0, 0, 1, 0, 0, 0, 0, 0, 0, 0, 0, 0, 0, 0, 0, 0, 0, 0, 1, 0, 0, 0, 0, 0, 0, 0, 0, 0, 0,
    0, 0, 0, 0, 64, 0, 0, 0, 0, 0, 0, 0, 0, 0, 0, 0, 0, 0, 0, 0, 0, 0, 0, 0, 0, 0, 0, 0, 0, 0, 0, 0, 255, 255, 255, 255, 0, 0, 1, 181,
    116, 114, 97, 107, 0, 0, 0, 92, 116, 107, 104, 100, 0, 0, 0, 3, 0, 0, 0, 0, 0, 0, 0, 0, 0, 0, 0, 1, 0, 0, 0, 0, 0, 0, 0, 0, 0, 0, 0,
    0, 0, 0, 0, 0, 0, 0, 0, 1, 1, 0, 0, 0, 0, 1, 0, 0, 0, 0, 0, 0, 0, 0, 0, 0, 0, 0, 0, 0, 0, 1, 0, 0, 0, 0, 0, 0, 0, 0, 0, 0, 0, 0, 0,
    0, 64, 0, 0, 0, 0, 0, 0, 0, 0, 0, 0, 0, 0, 0, 1, 81, 109, 100, 105, 97, 0, 0, 0, 32, 109, 100, 104, 100, 0, 0, 0, 0, 0, 0, 0, 0, 0,
    0, 0, 0, 0, 1, 95, 144, 0, 0, 0, 0, 85, 196, 0, 0, 0, 0, 0, 45, 104, 100, 108, 114, 0, 0, 0, 0, 0, 0, 0, 0, 115, 111, 117, 110, 0, 0,
    0, 0, 0, 0, 0, 0, 0, 0, 0, 0, 83, 111, 117, 110, 100, 72, 97, 110, 100, 108, 101, 114, 0, 0, 0, 0, 252, 109, 105, 110, 102, 0, 0, 0,
    16, 115, 109, 104, 100, 0, 0, 0, 0, 0, 0, 0, 0, 0, 0, 0, 36, 100, 105, 110, 102, 0, 0, 0, 28, 100, 114, 101, 102, 0, 0, 0, 0, 0, 0,
    0, 1, 0, 0, 0, 12, 117, 114, 108, 32, 0, 0, 0, 1, 0, 0, 0, 192, 115, 116, 98, 108, 0, 0, 0, 116, 115, 116, 115, 100, 0, 0, 0, 0, 0,
    0, 0, 1, 0, 0, 0, 100, 109, 112, 52, 97, 0, 0, 0, 0, 0, 0, 0, 1, 0, 0, 0, 0, 0, 0, 0, 0, 0, 2, 0, 16, 0, 0, 0, 0, 187, 128, 0, 0, 0,
    0, 0, 44, 101, 115, 100, 115, 0, 0, 0, 0, 3, 128, 128, 128, 27, 0, 1, 0, 4, 128, 128, 128, 13, 107, 21, 0, 0, 0, 0, 1, 247, 57, 0, 1,
    247, 57, 6, 128, 128, 128, 1, 2, 0, 0, 0, 20, 98, 116, 114, 116, 0, 0, 0, 0, 0, 1, 247, 57, 0, 1, 247, 57, 0, 0, 0, 16, 115, 116,
    116, 115, 0, 0, 0, 0, 0, 0, 0, 0, 0, 0, 0, 16, 115, 116, 115, 99, 0, 0, 0, 0, 0, 0, 0, 0, 0, 0, 0, 20, 115, 116, 115, 122, 0, 0, 0,
    0, 0, 0, 0, 0, 0, 0, 0, 0, 0, 0, 0, 16, 115, 116, 99, 111, 0, 0, 0, 0, 0, 0, 0, 0, 0, 0, 0, 40, 109, 118, 101, 120, 0, 0, 0, 32, 116,
    114, 101, 120, 0, 0, 0, 0, 0, 0, 0, 1, 0, 0, 0, 1, 0, 0, 0, 0, 0, 0, 0, 0, 0, 0, 0, 0]

/-- The value of "mpeg-1 audio". -/
def initSampleMpeg1Audio : Init :=
  { tracks := [{ id := 1, timeScale := 90000, codec := some (.mpeg1Audio 48000 2) }] }

example : (marshal ⟨[], 0⟩ initSampleMpeg1Audio).bind (fun f => .ok f.buf) = .ok initSampleMpeg1AudioBytes := by decide +kernel

example : unmarshal isoFields initSampleMpeg1AudioBytes = .ok initSampleMpeg1Audio := by decide +kernel

/-- The bytes of "ac-3". -/
def initSampleAc3Bytes : Bytes := [0, 0, 0, 32, 102, 116, 121, 112, 109, 112, 52, 50, 0, 0, 0, 1, 109, 112, 52, 49, 109, 112, 52, 50, 105, 115, 111, 109, 104, 108, 115,
    102, 0, 0, 2, 48, 109, 111, 111, 118, 0, 0, 0, 108, 109, 118, 104, 100, 0, 0, 0, 0, 0, 0, 0, 0, 0, 0, 0, 0, 0, 0, 3, 232, 0, 0, 0, 0,
    0, 1, 0, 0, 1, 0, 0, 0, 0, 0, 0, 0, 0, 0, 0, 0, 0, 1, 0, 0, 0, 0, 0, 0, 0, 0, 0, 0, 0, 0, 0, 0, 0, 1, 0, 0, 0, 0, 0, 0, 0, 0, 0, 0,
    0, 0, 0, 0, 64, 0, 0, 0, 0, 0, 0, 0, 0, 0, 0, 0, 0, 0, 0, 0, 0, 0, 0, 0, 0, 0, 0, 0, 0, 0, 0, 0, 255, 255, 255, 255, 0, 0, 1, 148,
    116, 114, 97, 107, 0, 0, 0, 92, 116, 107, 104, 100, 0, 0, 0, 3, 0, 0, 0, 0, 0, 0, 0, 0, 0, 0, 0, 1, 0, 0, 0, 0, 0, 0, 0, 0, 0, 0, 0,
    0, 0, 0, 0, 0, 0, 0, 0, 1, 1, 0, 0, 0, 0, 1, 0, 0, 0, 0, 0, 0, 0, 0, 0, 0, 0, 0, 0, 0, 0, 1, 0, 0, 0, 0, 0, 0, 0, 0, 0, 0, 0, 0, 0,
    0, 64, 0, 0, 0, 0, 0, 0, 0, 0, 0, 0, 0, 0, 0, 1, 48, 109, 100, 105, 97, 0, 0, 0, 32, 109, 100, 104, 100, 0, 0, 0, 0, 0, 0, 0, 0, 0,
    0, 0, 0, 0, 1, 95, 144, 0, 0, 0, 0, 85, 196, 0, 0, 0, 0, 0, 45, 104, 100, 108, 114, 0, 0, 0, 0, 0, 0, 0, 0, 115, 111, 117, 110, 0, 0,
    0, 0, 0, 0, 0, 0, 0, 0, 0, 0, 83, 111, 117, 110, 100, 72, 97, 110, 100, 108, 101, 114, 0, 0, 0, 0, 219, 109, 105, 110, 102, 0, 0, 0,
    16, 115, 109, 104, 100, 0, 0, 0, 0, 0, 0, 0, 0, 0, 0, 0, 36, 100, 105, 110, 102, 0, 0, 0, 28, 100, 114, 101, 102, 0, 0, 0, 0, 0, 0,
    0, 1, 0, 0, 0, 12, 117, 114, 108, 32, 0, 0, 0, 1, 0, 0, 0, 159, 115, 116, 98, 108, 0, 0, 0, 83, 115, 116, 115, 100, 0, 0, 0, 0, 0, 0,
    0, 1, 0, 0, 0, 67, 97, 99, 45, 51, 0, 0, 0, 0, 0, 0, 0, 1, 0, 0, 0, 0, 0, 0, 0, 0, 0, 6, 0, 16, 0, 0, 0, 0, 187, 128, 0, 0, 0, 0, 0,
    11, 100, 97, 99, 51, 16, 61, 224, 0, 0, 0, 20, 98, 116, 114, 116, 0, 0, 0, 0, 0, 1, 247, 57, 0, 1, 247, 57, 0, 0, 0, 16, 115, 116,
    116, 115, 0, 0, 0, 0, 0, 0, 0, 0, 0, 0, 0, 16, 115, 116, 115, 99, 0, 0, 0, 0, 0, 0, 0, 0, 0, 0, 0, 20, 115, 116, 115, 122, 0, 0, 0,
    0, 0, 0, 0, 0, 0, 0, 0, 0, 0, 0, 0, 16, 115, 116, 99, 111, 0, 0, 0, 0, 0, 0, 0, 0, 0, 0, 0, 40, 109, 118, 101, 120, 0, 0, 0, 32, 116,
    114, 101, 120, 0, 0, 0, 0, 0, 0, 0, 1, 0, 0, 0, 1, 0, 0, 0, 0, 0, 0, 0, 0, 0, 0, 0, 0]

/-- The value of "ac-3". -/
def initSampleAc3 : Init :=
  { tracks := [{ id := 1, timeScale := 90000, codec := some (.ac3 ⟨48000, 6, 0, 8, 0, 7, true, 15⟩) }] }

example : (marshal ⟨[], 0⟩ initSampleAc3).bind (fun f => .ok f.buf) = .ok initSampleAc3Bytes := by decide +kernel

example : unmarshal isoFields initSampleAc3Bytes = .ok initSampleAc3 := by decide +kernel

/-- The bytes of "e-ac-3 5.1". -/
def initSampleEAc351Bytes : Bytes := [0, 0, 0, 32, 102, 116, 121, 112, 109, 112, 52, 50, 0, 0, 0, 1, 109, 112, 52, 49, 109, 112, 52, 50, 105, 115, 111, 109, 104, 108, 115,
    102, 0, 0, 2, 50, 109, 111, 111, 118, 0, 0, 0, 108, 109, 118, 104, 100, 0, 0, 0, 0, 0, 0, 0, 0, 0, 0, 0, 0, 0, 0, 3, 232, 0, 0, 0, 0,
    0, 1, 0, 0, 1, 0, 0, 0, 0, 0, 0, 0, 0, 0, 0, 0, 0, 1, 0, 0, 0, 0, 0, 0, 0, 0, 0, 0, 0, 0, 0, 0, 0, 1, 0, 0, 0, 0, 0, 0, 0, 0, 0, 0,
    0, 0, 0, 0, 64, 0, 0, 0, 0, 0, 0, 0, 0, 0, 0, 0, 0, 0, 0, 0, 0, 0, 0, 0, 0, 0, 0, 0, 0, 0, 0, 0, 255, 255, 255, 255, 0, 0, 1, 150,
    116, 114, 97, 107, 0, 0, 0, 92, 116, 107, 104, 100, 0, 0, 0, 3, 0, 0, 0, 0, 0, 0, 0, 0, 0, 0, 0, 1, 0, 0, 0, 0, 0, 0, 0, 0, 0, 0, 0,
    0, 0, 0, 0, 0, 0, 0, 0, 1, 1, 0, 0, 0, 0, 1, 0, 0, 0, 0, 0, 0, 0, 0, 0, 0, 0, 0, 0, 0, 0, 1, 0, 0, 0, 0, 0, 0, 0, 0, 0, 0, 0, 0, 0,
    0, 64, 0, 0, 0, 0, 0, 0, 0, 0, 0, 0, 0, 0, 0, 1, 50, 109, 100, 105, 97, 0, 0, 0, 32, 109, 100, 104, 100, 0, 0, 0, 0, 0, 0, 0, 0, 0,
    0, 0, 0, 0, 1, 95, 144, 0, 0, 0, 0, 85, 196, 0, 0, 0, 0, 0, 45, 104, 100, 108, 114, 0, 0, 0, 0, 0, 0, 0, 0, 115, 111, 117, 110, 0, 0,
    0, 0, 0, 0, 0, 0, 0, 0, 0, 0, 83, 111, 117, 110, 100, 72, 97, 110, 100, 108, 101, 114, 0, 0, 0, 0, 221, 109, 105, 110, 102, 0, 0, 0,
    16, 115, 109, 104, 100, 0, 0, 0, 0, 0, 0, 0, 0, 0, 0, 0, 36, 100, 105, 110, 102, 0, 0, 0, 28, 100, 114, 101, 102, 0, 0, 0, 0, 0, 0,
    0, 1, 0, 0, 0, 12, 117, 114, 108, 32, 0, 0, 0, 1, 0, 0, 0, 161, 115, 116, 98, 108, 0, 0, 0, 85, 115, 116, 115, 100, 0, 0, 0, 0, 0, 0,
    0, 1, 0, 0, 0, 69, 101, 99, 45, 51, 0, 0, 0, 0, 0, 0, 0, 1, 0, 0, 0, 0, 0, 0, 0, 0, 0, 6, 0, 16, 0, 0, 0, 0, 187, 128, 0, 0, 0, 0, 0,
    13, 100, 101, 99, 51, 20, 0, 32, 15, 0, 0, 0, 0, 20, 98, 116, 114, 116, 0, 0, 0, 0, 0, 1, 247, 57, 0, 1, 247, 57, 0, 0, 0, 16, 115,
    116, 116, 115, 0, 0, 0, 0, 0, 0, 0, 0, 0, 0, 0, 16, 115, 116, 115, 99, 0, 0, 0, 0, 0, 0, 0, 0, 0, 0, 0, 20, 115, 116, 115, 122, 0, 0,
    0, 0, 0, 0, 0, 0, 0, 0, 0, 0, 0, 0, 0, 16, 115, 116, 99, 111, 0, 0, 0, 0, 0, 0, 0, 0, 0, 0, 0, 40, 109, 118, 101, 120, 0, 0, 0, 32,
    116, 114, 101, 120, 0, 0, 0, 0, 0, 0, 0, 1, 0, 0, 0, 1, 0, 0, 0, 0, 0, 0, 0, 0, 0, 0, 0, 0]

/-- The value of "e-ac-3 5.1". -/
def initSampleEAc351 : Init :=
  { tracks := [{ id := 1, timeScale := 90000, codec := some (.eac3 ⟨48000, 6, 640, false, 0, 7, true, 0, 0⟩) }] }

example : (marshal ⟨[], 0⟩ initSampleEAc351).bind (fun f => .ok f.buf) = .ok initSampleEAc351Bytes := by decide +kernel

example : unmarshal isoFields initSampleEAc351Bytes = .ok initSampleEAc351 := by decide +kernel

/-- The bytes of "e-ac-3 7.1". -/
def initSampleEAc371Bytes : Bytes := [0, 0, 0, 32, 102, 116, 121, 112, 109, 112, 52, 50, 0, 0, 0, 1, 109, 112, 52, 49, 109, 112, 52, 50, 105, 115, 111, 109, 104, 108, 115,
    102, 0, 0, 2, 51, 109, 111, 111, 118, 0, 0, 0, 108, 109, 118, 104, 100, 0, 0, 0, 0, 0, 0, 0, 0, 0, 0, 0, 0, 0, 0, 3, 232, 0, 0, 0, 0,
    0, 1, 0, 0, 1, 0, 0, 0, 0, 0, 0, 0, 0, 0, 0, 0, 0, 1, 0, 0, 0, 0, 0, 0, 0, 0, 0, 0, 0, 0, 0, 0, 0, 1, 0, 0, 0, 0, 0, 0, 0, 0, 0, 0,
    0, 0, 0, 0, 64, 0, 0, 0, 0, 0, 0, 0, 0, 0, 0, 0, 0, 0, 0, 0, 0, 0, 0, 0, 0, 0, 0, 0, 0, 0, 0, 0, 255, 255, 255, 255, 0, 0, 1, 151,
    116, 114, 97, 107, 0, 0, 0, 92, 116, 107, 104, 100, 0, 0, 0, 3, 0, 0, 0, 0, 0, 0, 0, 0, 0, 0, 0, 1, 0, 0, 0, 0, 0, 0, 0, 0, 0, 0, 0,
    0, 0, 0, 0, 0, 0, 0, 0, 1, 1, 0, 0, 0, 0, 1, 0, 0, 0, 0, 0, 0, 0, 0, 0, 0, 0, 0, 0, 0, 0, 1, 0, 0, 0, 0, 0, 0, 0, 0, 0, 0, 0, 0, 0,
    0, 64, 0, 0, 0, 0, 0, 0, 0, 0, 0, 0, 0, 0, 0, 1, 51, 109, 100, 105, 97, 0, 0, 0, 32, 109, 100, 104, 100, 0, 0, 0, 0, 0, 0, 0, 0, 0,
    0, 0, 0, 0, 1, 95, 144, 0, 0, 0, 0, 85, 196, 0, 0, 0, 0, 0, 45, 104, 100, 108, 114, 0, 0, 0, 0, 0, 0, 0, 0, 115, 111, 117, 110, 0, 0,
    0, 0, 0, 0, 0, 0, 0, 0, 0, 0, 83, 111, 117, 110, 100, 72, 97, 110, 100, 108, 101, 114, 0, 0, 0, 0, 222, 109, 105, 110, 102, 0, 0, 0,
    16, 115, 109, 104, 100, 0, 0, 0, 0, 0, 0, 0, 0, 0, 0, 0, 36, 100, 105, 110, 102, 0, 0, 0, 28, 100, 114, 101, 102, 0, 0, 0, 0, 0, 0,
    0, 1, 0, 0, 0, 12, 117, 114, 108, 32, 0, 0, 0, 1, 0, 0, 0, 162, 115, 116, 98, 108, 0, 0, 0, 86, 115, 116, 115, 100, 0, 0, 0, 0, 0, 0,
    0, 1, 0, 0, 0, 70, 101, 99, 45, 51, 0, 0, 0, 0, 0, 0, 0, 1, 0, 0, 0, 0, 0, 0, 0, 0, 0, 8, 0, 16, 0, 0, 0, 0, 187, 128, 0, 0, 0, 0, 0,
    14, 100, 101, 99, 51, 24, 0, 32, 15, 2, 24, 0, 0, 0, 20, 98, 116, 114, 116, 0, 0, 0, 0, 0, 1, 247, 57, 0, 1, 247, 57, 0, 0, 0, 16,
    115, 116, 116, 115, 0, 0, 0, 0, 0, 0, 0, 0, 0, 0, 0, 16, 115, 116, 115, 99, 0, 0, 0, 0, 0, 0, 0, 0, 0, 0, 0, 20, 115, 116, 115, 122,
    0, 0, 0, 0, 0, 0, 0, 0, 0, 0, 0, 0, 0, 0, 0, 16, 115, 116, 99, 111, 0, 0, 0, 0, 0, 0, 0, 0, 0, 0, 0, 40, 109, 118, 101, 120, 0, 0, 0,
    32, 116, 114, 101, 120, 0, 0, 0, 0, 0, 0, 0, 1, 0, 0, 0, 1, 0, 0, 0, 0, 0, 0, 0, 0, 0, 0, 0, 0]

/-- The value of "e-ac-3 7.1". -/
def initSampleEAc371 : Init :=
  { tracks := [{ id := 1, timeScale := 90000, codec := some (.eac3 ⟨48000, 8, 768, false, 0, 7, true, 1, 0b000011000⟩) }] }

example : (marshal ⟨[], 0⟩ initSampleEAc371).bind (fun f => .ok f.buf) = .ok initSampleEAc371Bytes := by decide +kernel

example : unmarshal isoFields initSampleEAc371Bytes = .ok initSampleEAc371 := by decide +kernel

/-- The bytes of "lpcm". -/
def initSampleLpcmBytes : Bytes := [0, 0, 0, 32, 102, 116, 121, 112, 109, 112, 52, 50, 0, 0, 0, 1, 109, 112, 52, 49, 109, 112, 52, 50, 105, 115, 111, 109, 104, 108, 115,
    102, 0, 0, 2, 51, 109, 111, 111, 118, 0, 0, 0, 108, 109, 118, 104, 100, 0, 0, 0, 0, 0, 0, 0, 0, 0, 0, 0, 0, 0, 0, 3, 232, 0, 0, 0, 0,
    0, 1, 0, 0, 1, 0, 0, 0, 0, 0, 0, 0, 0, 0, 0, 0, 0, 1, 0, 0, 0, 0, 0, 0, 0, 0, 0, 0, 0, 0, 0, 0, 0, 1, 0, 0, 0, 0, 0, 0, 0, 0, 0, 0,
    0, 0, 0, 0, 64, 0, 0, 0, 0, 0, 0, 0, 0, 0, 0, 0, 0, 0, 0, 0, 0, 0, 0, 0, 0, 0, 0, 0, 0, 0, 0, 0, 255, 255, 255, 255, 0, 0, 1, 151,
    116, 114, 97, 107, 0, 0, 0, 92, 116, 107, 104, 100, 0, 0, 0, 3, 0, 0, 0, 0, 0, 0, 0, 0, 0, 0, 0, 1, 0, 0, 0, 0, 0, 0, 0, 0, 0, 0, 0,
    0, 0, 0, 0, 0, 0, 0, 0, 1, 1, 0, 0, 0, 0, 1, 0, 0, 0, 0, 0, 0, 0, 0, 0, 0, 0, 0, 0, 0, 0, 1, 0, 0, 0, 0, 0, 0, 0, 0, 0, 0, 0, 0, 0,
    0, 64, 0, 0, 0, 0, 0, 0, 0, 0, 0, 0, 0, 0, 0, 1, 51, 109, 100, 105, 97, 0, 0, 0, 32, 109, 100, 104, 100, 0, 0, 0, 0, 0, 0, 0, 0, 0,
    0, 0, 0, 0, 1, 95, 144, 0, 0, 0, 0, 85, 196, 0, 0, 0, 0, 0, 45, 104, 100, 108, 114, 0, 0, 0, 0, 0, 0, 0, 0, 115, 111, 117, 110, 0, 0,
    0, 0, 0, 0, 0, 0, 0, 0, 0, 0, 83, 111, 117, 110, 100, 72, 97, 110, 100, 108, 101, 114, 0, 0, 0, 0, 222, 109, 105, 110, 102, 0, 0, 0,
    16, 115, 109, 104, 100, 0, 0, 0, 0, 0, 0, 0, 0, 0, 0, 0, 36, 100, 105, 110, 102, 0, 0, 0, 28, 100, 114, 101, 102, 0, 0, 0, 0, 0, 0,
    0, 1, 0, 0, 0, 12, 117, 114, 108, 32, 0, 0, 0, 1, 0, 0, 0, 162, 115, 116, 98, 108, 0, 0, 0, 86, 115, 116, 115, 100, 0, 0, 0, 0, 0, 0,
    0, 1, 0, 0, 0, 70, 105, 112, 99, 109, 0, 0, 0, 0, 0, 0, 0, 1, 0, 0, 0, 0, 0, 0, 0, 0, 0, 2, 0, 24, 0, 0, 0, 0, 187, 128, 0, 0, 0, 0,
    0, 14, 112, 99, 109, 67, 0, 0, 0, 0, 0, 24, 0, 0, 0, 20, 98, 116, 114, 116, 0, 0, 0, 0, 0, 1, 247, 57, 0, 1, 247, 57, 0, 0, 0, 16,
    115, 116, 116, 115, 0, 0, 0, 0, 0, 0, 0, 0, 0, 0, 0, 16, 115, 116, 115, 99, 0, 0, 0, 0, 0, 0, 0, 0, 0, 0, 0, 20, 115, 116, 115, 122,
    0, 0, 0, 0, 0, 0, 0, 0, 0, 0, 0, 0, 0, 0, 0, 16, 115, 116, 99, 111, 0, 0, 0, 0, 0, 0, 0, 0, 0, 0, 0, 40, 109, 118, 101, 120, 0, 0, 0,
    32, 116, 114, 101, 120, 0, 0, 0, 0, 0, 0, 0, 1, 0, 0, 0, 1, 0, 0, 0, 0, 0, 0, 0, 0, 0, 0, 0, 0]

/-- The value of "lpcm". -/
def initSampleLpcm : Init :=
  { tracks := [{ id := 1, timeScale := 90000, codec := some (.lpcm ⟨false, 24, 48000, 2⟩) }] }

example : (marshal ⟨[], 0⟩ initSampleLpcm).bind (fun f => .ok f.buf) = .ok initSampleLpcmBytes := by decide +kernel

example : unmarshal isoFields initSampleLpcmBytes = .ok initSampleLpcm := by decide +kernel

/-- The bytes of "h264 + mpeg-4 audio". -/
def initSampleH264Mpeg4AudioBytes : Bytes := [0, 0, 0, 32, 102, 116, 121, 112, 109, 112, 52, 50, 0, 0, 0, 1, 109, 112, 52, 49, 109, 112, 52, 50, 105, 115, 111, 109, 104, 108, 115,
    102, 0, 0, 4, 100, 109, 111, 111, 118, 0, 0, 0, 108, 109, 118, 104, 100, 0, 0, 0, 0, 0, 0, 0, 0, 0, 0, 0, 0, 0, 0, 3, 232, 0, 0, 0,
    0, 0, 1, 0, 0, 1, 0, 0, 0, 0, 0, 0, 0, 0, 0, 0, 0, 0, 1, 0, 0, 0, 0, 0, 0, 0, 0, 0, 0, 0, 0, 0, 0, 0, 1, 0, 0, 0, 0, 0, 0, 0, 0, 0,
    0, 0, 0, 0, 0, 64, 0, 0, 0, 0, 0, 0, 0, 0, 0, 0, 0, 0, 0, 0, 0, 0, 0, 0, 0, 0, 0, 0, 0, 0, 0, 0, 0, 255, 255, 255, 255, 0, 0, 1, 236,
    116, 114, 97, 107, 0, 0, 0, 92, 116, 107, 104, 100, 0, 0, 0, 3, 0, 0, 0, 0, 0, 0, 0, 0, 0, 0, 0, 1, 0, 0, 0, 0, 0, 0, 0, 0, 0, 0, 0,
    0, 0, 0, 0, 0, 0, 0, 0, 0, 0, 0, 0, 0, 0, 1, 0, 0, 0, 0, 0, 0, 0, 0, 0, 0, 0, 0, 0, 0, 0, 1, 0, 0, 0, 0, 0, 0, 0, 0, 0, 0, 0, 0, 0,
    0, 64, 0, 0, 0, 7, 128, 0, 0, 4, 56, 0, 0, 0, 0, 1, 136, 109, 100, 105, 97, 0, 0, 0, 32, 109, 100, 104, 100, 0, 0, 0, 0, 0, 0, 0, 0,
    0, 0, 0, 0, 0, 1, 95, 144, 0, 0, 0, 0, 85, 196, 0, 0, 0, 0, 0, 45, 104, 100, 108, 114, 0, 0, 0, 0, 0, 0, 0, 0, 118, 105, 100, 101, 0,
    0, 0, 0, 0, 0, 0, 0, 0, 0, 0, 0, 86, 105, 100, 101, 111, 72, 97, 110, 100, 108, 101, 114, 0, 0, 0, 1, 51, 109, 105, 110, 102, 0, 0,
    0, 20, 118, 109, 104, 100, 0, 0, 0, 1, 0, 0, 0, 0, 0, 0, 0, 0, 0, 0, 0, 36, 100, 105, 110, 102, 0, 0, 0, 28, 100, 114, 101, 102, 0,
    0, 0, 0, 0, 0, 0, 1, 0, 0, 0, 12, 117, 114, 108, 32, 0, 0, 0, 1, 0, 0, 0, 243, 115, 116, 98, 108, 0, 0, 0, 167, 115, 116, 115, 100,
    0, 0, 0, 0, 0, 0, 0, 1, 0, 0, 0, 151, 97, 118, 99, 49, 0, 0, 0, 0, 0, 0, 0, 1, 0, 0, 0, 0, 0, 0, 0, 0, 0, 0, 0, 0, 0, 0, 0, 0, 7,
    128, 4, 56, 0, 72, 0, 0, 0, 72, 0, 0, 0, 0, 0, 0, 0, 1, 0, 0, 0, 0, 0, 0, 0, 0, 0, 0, 0, 0, 0, 0, 0, 0, 0, 0, 0, 0, 0, 0, 0, 0, 0, 0,
    0, 0, 0, 0, 0, 0, 0, 24, 255, 255, 0, 0, 0, 45, 97, 118, 99, 67, 1, 66, 192, 40, 255, 225, 0, 25, 103, 66, 192, 40, 217, 0, 120, 2,
    39, 229, 132, 0, 0, 3, 0, 4, 0, 0, 3, 0, 240, 60, 96, 201, 32, 1, 0, 1, 8, 0, 0, 0, 20, 98, 116, 114, 116, 0, 0, 0, 0, 0, 15, 66, 64,
    0, 15, 66, 64, 0, 0, 0, 16, 115, 116, 116, 115, 0, 0, 0, 0, 0, 0, 0, 0, 0, 0, 0, 16, 115, 116, 115, 99, 0, 0, 0, 0, 0, 0, 0, 0, 0, 0,
    0, 20, 115, 116, 115, 122, 0, 0, 0, 0, 0, 0, 0, 0, 0, 0, 0, 0, 0, 0, 0, 16, 115, 116, 99, 111, 0, 0, 0, 0, 0, 0, 0, 0, 0, 0, 1, 188,
    116, 114, 97, 107, 0, 0, 0, 92, 116, 107, 104, 100, 0, 0, 0, 3, 0, 0, 0, 0, 0, 0, 0, 0, 0, 0, 0, 2, 0, 0, 0, 0, 0, 0, 0, 0, 0, 0, 0,
    0, 0, 0, 0, 0, 0, 0, 0, 1, 1, 0, 0, 0, 0, 1, 0, 0, 0, 0, 0, 0, 0, 0, 0, 0, 0, 0, 0, 0, 0, 1, 0, 0, 0, 0, 0, 0, 0, 0, 0, 0, 0, 0, 0,
    0, 64, 0, 0, 0, 0, 0, 0, 0, 0, 0, 0, 0, 0, 0, 1, 88, 109, 100, 105, 97, 0, 0, 0, 32, 109, 100, 104, 100, 0, 0, 0, 0, 0, 0, 0, 0, 0,
    0, 0, 0, 0, 0, 172, 68, 0, 0, 0, 0, 85, 196, 0, 0, 0, 0, 0, 45, 104, 100, 108, 114, 0, 0, 0, 0, 0, 0, 0, 0, 115, 111, 117, 110, 0, 0,
    0, 0, 0, 0, 0, 0, 0, 0, 0, 0, 83, 111, 117, 110, 100, 72, 97, 110, 100, 108, 101, 114, 0, 0, 0, 1, 3, 109, 105, 110, 102, 0, 0, 0,
    16, 115, 109, 104, 100, 0, 0, 0, 0, 0, 0, 0, 0, 0, 0, 0, 36, 100, 105, 110, 102, 0, 0, 0, 28, 100, 114, 101, 102, 0, 0, 0, 0, 0, 0,
    0, 1, 0, 0, 0, 12, 117, 114, 108, 32, 0, 0, 0, 1, 0, 0, 0, 199, 115, 116, 98, 108, 0, 0, 0, 123, 115, 116, 115, 100, 0, 0, 0, 0, 0,
    0, 0, 1, 0, 0, 0, 107, 109, 112, 52, 97, 0, 0, 0, 0, 0, 0, 0, 1, 0, 0, 0, 0, 0, 0, 0, 0, 0, 2, 0, 16, 0, 0, 0, 0, 172, 68, 0, 0, 0,
    0, 0, 51, 101, 115, 100, 115, 0, 0, 0, 0, 3, 128, 128, 128, 34, 0, 2, 0, 4, 128, 128, 128, 20, 64, 21, 0, 0, 0, 0, 1, 247, 57, 0, 1,
    247, 57, 5, 128, 128, 128, 2, 18, 16, 6, 128, 128, 128, 1, 2, 0, 0, 0, 20, 98, 116, 114, 116, 0, 0, 0, 0, 0, 1, 247, 57, 0, 1, 247,
    57, 0, 0, 0, 16, 115, 116, 116, 115, 0, 0, 0, 0, 0, 0, 0, 0, 0, 0, 0, 16, 115, 116, 115, 99, 0, 0, 0, 0, 0, 0, 0, 0, 0, 0, 0, 20,
    115, 116, 115, 122, 0, 0, 0, 0, 0, 0, 0, 0, 0, 0, 0, 0, 0, 0, 0, 16, 115, 116, 99, 111, 0, 0, 0, 0, 0, 0, 0, 0, 0, 0, 0, 72, 109,
    118, 101, 120, 0, 0, 0, 32, 116, 114, 101, 120, 0, 0, 0, 0, 0, 0, 0, 1, 0, 0, 0, 1, 0, 0, 0, 0, 0, 0, 0, 0, 0, 0, 0, 0, 0, 0, 0, 32,
    116, 114, 101, 120, 0, 0, 0, 0, 0, 0, 0, 2, 0, 0, 0, 1, 0, 0, 0, 0, 0, 0, 0, 0, 0, 0, 0, 0]

/-- The value of "h264 + mpeg-4 audio". -/
def initSampleH264Mpeg4Audio : Init :=
  { tracks := [{ id := 1, timeScale := 90000, codec := some (.h264 [103, 66, 192, 40, 217, 0, 120, 2, 39, 229, 132, 0, 0, 3, 0, 4, 0, 0, 3, 0, 240, 60, 96, 201, 32] [8]) },
    { id := 2, timeScale := 44100, codec := some (.mpeg4Audio ⟨2, 44100, 2, 2, 0, 0, false, false, 0⟩) }] }

example : (marshal ⟨[], 0⟩ initSampleH264Mpeg4Audio).bind (fun f => .ok f.buf) = .ok initSampleH264Mpeg4AudioBytes := by decide +kernel

example : unmarshal isoFields initSampleH264Mpeg4AudioBytes = .ok initSampleH264Mpeg4Audio := by decide +kernel

/-- The bytes of "user data". -/
def initSampleUserDataBytes : Bytes := [0, 0, 0, 32, 102, 116, 121, 112, 109, 112, 52, 50, 0, 0, 0, 1, 109, 112, 52, 49, 109, 112, 52, 50, 105, 115, 111, 109, 104, 108, 115,
    102, 0, 0, 2, 198, 109, 111, 111, 118, 0, 0, 0, 108, 109, 118, 104, 100, 0, 0, 0, 0, 0, 0, 0, 0, 0, 0, 0, 0, 0, 0, 3, 232, 0, 0, 0,
    0, 0, 1, 0, 0, 1, 0, 0, 0, 0, 0, 0, 0, 0, 0, 0, 0, 0, 1, 0, 0, 0, 0, 0, 0, 0, 0, 0, 0, 0, 0, 0, 0, 0, 1, 0, 0, 0, 0, 0, 0, 0, 0, 0,
    0, 0, 0, 0, 0, 64, 0, 0, 0, 0, 0, 0, 0, 0, 0, 0, 0, 0, 0, 0, 0, 0, 0, 0, 0, 0, 0, 0, 0, 0, 0, 0, 0, 255, 255, 255, 255, 0, 0, 1, 239,
    116, 114, 97, 107, 0, 0, 0, 92, 116, 107, 104, 100, 0, 0, 0, 3, 0, 0, 0, 0, 0, 0, 0, 0, 0, 0, 0, 1, 0, 0, 0, 0, 0, 0, 0, 0, 0, 0, 0,
    0, 0, 0, 0, 0, 0, 0, 0, 0, 0, 0, 0, 0, 0, 1, 0, 0, 0, 0, 0, 0, 0, 0, 0, 0, 0, 0, 0, 0, 0, 1, 0, 0, 0, 0, 0, 0, 0, 0, 0, 0, 0, 0, 0,
    0, 64, 0, 0, 0, 3, 192, 0, 0, 2, 28, 0, 0, 0, 0, 1, 139, 109, 100, 105, 97, 0, 0, 0, 32, 109, 100, 104, 100, 0, 0, 0, 0, 0, 0, 0, 0,
    0, 0, 0, 0, 0, 1, 95, 144, 0, 0, 0, 0, 85, 196, 0, 0, 0, 0, 0, 45, 104, 100, 108, 114, 0, 0, 0, 0, 0, 0, 0, 0, 118, 105, 100, 101, 0,
    0, 0, 0, 0, 0, 0, 0, 0, 0, 0, 0, 86, 105, 100, 101, 111, 72, 97, 110, 100, 108, 101, 114, 0, 0, 0, 1, 54, 109, 105, 110, 102, 0, 0,
    0, 20, 118, 109, 104, 100, 0, 0, 0, 1, 0, 0, 0, 0, 0, 0, 0, 0, 0, 0, 0, 36, 100, 105, 110, 102, 0, 0, 0, 28, 100, 114, 101, 102, 0,
    0, 0, 0, 0, 0, 0, 1, 0, 0, 0, 12, 117, 114, 108, 32, 0, 0, 0, 1, 0, 0, 0, 246, 115, 116, 98, 108, 0, 0, 0, 170, 115, 116, 115, 100,
    0, 0, 0, 0, 0, 0, 0, 1, 0, 0, 0, 154, 97, 118, 99, 49, 0, 0, 0, 0, 0, 0, 0, 1, 0, 0, 0, 0, 0, 0, 0, 0, 0, 0, 0, 0, 0, 0, 0, 0, 3,
    192, 2, 28, 0, 72, 0, 0, 0, 72, 0, 0, 0, 0, 0, 0, 0, 1, 0, 0, 0, 0, 0, 0, 0, 0, 0, 0, 0, 0, 0, 0, 0, 0, 0, 0, 0, 0, 0, 0, 0, 0, 0, 0,
    0, 0, 0, 0, 0, 0, 0, 24, 255, 255, 0, 0, 0, 48, 97, 118, 99, 67, 1, 66, 192, 31, 255, 225, 0, 25, 103, 66, 192, 31, 217, 0, 240, 17,
    126, 240, 17, 0, 0, 3, 0, 1, 0, 0, 3, 0, 48, 143, 24, 50, 72, 1, 0, 4, 104, 203, 140, 178, 0, 0, 0, 20, 98, 116, 114, 116, 0, 0, 0,
    0, 0, 15, 66, 64, 0, 15, 66, 64, 0, 0, 0, 16, 115, 116, 116, 115, 0, 0, 0, 0, 0, 0, 0, 0, 0, 0, 0, 16, 115, 116, 115, 99, 0, 0, 0, 0,
    0, 0, 0, 0, 0, 0, 0, 20, 115, 116, 115, 122, 0, 0, 0, 0, 0, 0, 0, 0, 0, 0, 0, 0, 0, 0, 0, 16, 115, 116, 99, 111, 0, 0, 0, 0, 0, 0, 0,
    0, 0, 0, 0, 40, 109, 118, 101, 120, 0, 0, 0, 32, 116, 114, 101, 120, 0, 0, 0, 0, 0, 0, 0, 1, 0, 0, 0, 1, 0, 0, 0, 0, 0, 0, 0, 0, 0,
    0, 0, 0, 0, 0, 0, 59, 117, 100, 116, 97, 0, 0, 0, 19, 99, 111, 108, 114, 110, 99, 108, 120, 24, 178, 0, 0, 0, 0, 0, 0, 0, 0, 32, 115,
    105, 100, 120, 0, 0, 0, 0, 0, 69, 4, 226, 0, 0, 0, 0, 0, 0, 0, 0, 0, 0, 0, 0, 0, 0, 0, 0]

/-- The value of "user data". -/
def initSampleUserData : Init :=
  { tracks := [{ id := 1, timeScale := 90000, codec := some (.h264 [103, 66, 192, 31, 217, 0, 240, 17, 126, 240, 17, 0, 0, 3, 0, 1, 0, 0, 3, 0, 48, 143, 24, 50, 72] [104, 203, 140, 178]) }],
    userData := [([99, 111, 108, 114], [110, 99, 108, 120, 24, 178, 0, 0, 0, 0, 0]), ([115, 105, 100, 120], [0, 0, 0, 0, 0, 69, 4, 226, 0, 0, 0, 0, 0, 0, 0, 0, 0, 0, 0, 0, 0, 0, 0, 0])] }

example : (marshal ⟨[], 0⟩ initSampleUserData).bind (fun f => .ok f.buf) = .ok initSampleUserDataBytes := by decide +kernel

example : unmarshal isoFields initSampleUserDataBytes = .ok initSampleUserData := by decide +kernel

/-- The bytes of "h264" of `TestInitUnmarshalOnly`. -/
def initOnlyH264Bytes : Bytes := [0, 0, 0, 28, 102, 116, 121, 112, 100, 97, 115, 104, 0, 0, 0, 1, 105, 115, 111, 109, 97, 118, 99, 49, 100, 97, 115, 104, 0, 0, 2, 146,
    109, 111, 111, 118, 0, 0, 0, 108, 109, 118, 104, 100, 0, 0, 0, 0, 0, 0, 0, 0, 0, 0, 0, 0, 0, 152, 150, 128, 0, 0, 0, 0, 0, 1, 0, 0,
    1, 0, 0, 0, 0, 0, 0, 0, 0, 0, 0, 0, 0, 1, 0, 0, 0, 0, 0, 0, 0, 0, 0, 0, 0, 0, 0, 0, 0, 1, 0, 0, 0, 0, 0, 0, 0, 0, 0, 0, 0, 0, 0, 0,
    64, 0, 0, 0, 0, 0, 0, 0, 0, 0, 0, 0, 0, 0, 0, 0, 0, 0, 0, 0, 0, 0, 0, 0, 0, 0, 0, 0, 255, 255, 255, 255, 0, 0, 1, 246, 116, 114, 97,
    107, 0, 0, 0, 92, 116, 107, 104, 100, 0, 0, 0, 7, 0, 0, 0, 0, 0, 0, 0, 0, 0, 0, 1, 0, 0, 0, 0, 0, 0, 0, 0, 0, 0, 0, 0, 0, 0, 0, 0, 0,
    0, 0, 0, 0, 0, 0, 0, 0, 0, 1, 0, 0, 0, 0, 0, 0, 0, 0, 0, 0, 0, 0, 0, 0, 0, 1, 0, 0, 0, 0, 0, 0, 0, 0, 0, 0, 0, 0, 0, 0, 64, 0, 0, 0,
    3, 192, 0, 0, 2, 28, 0, 0, 0, 0, 1, 146, 109, 100, 105, 97, 0, 0, 0, 32, 109, 100, 104, 100, 0, 0, 0, 0, 0, 0, 0, 0, 0, 0, 0, 0, 0,
    152, 150, 128, 0, 0, 0, 0, 85, 196, 0, 0, 0, 0, 0, 56, 104, 100, 108, 114, 0, 0, 0, 0, 0, 0, 0, 0, 118, 105, 100, 101, 0, 0, 0, 0, 0,
    0, 0, 0, 0, 0, 0, 0, 66, 114, 111, 97, 100, 112, 101, 97, 107, 32, 86, 105, 100, 101, 111, 32, 72, 97, 110, 100, 108, 101, 114, 0, 0,
    0, 1, 50, 109, 105, 110, 102, 0, 0, 0, 20, 118, 109, 104, 100, 0, 0, 0, 1, 0, 0, 0, 0, 0, 0, 0, 0, 0, 0, 0, 36, 100, 105, 110, 102,
    0, 0, 0, 28, 100, 114, 101, 102, 0, 0, 0, 0, 0, 0, 0, 1, 0, 0, 0, 12, 117, 114, 108, 32, 0, 0, 0, 1, 0, 0, 0, 242, 115, 116, 98, 108,
    0, 0, 0, 166, 115, 116, 115, 100, 0, 0, 0, 0, 0, 0, 0, 1, 0, 0, 0, 150, 97, 118, 99, 49, 0, 0, 0, 0, 0, 0, 0, 1, 0, 0, 0, 0, 0, 0, 0,
    0, 0, 0, 0, 0, 0, 0, 0, 0, 3, 192, 2, 28, 0, 72, 0, 0, 0, 72, 0, 0, 0, 0, 0, 0, 0, 1, 4, 104, 50, 54, 52, 0, 0, 0, 0, 0, 0, 0, 0, 0,
    0, 0, 0, 0, 0, 0, 0, 0, 0, 0, 0, 0, 0, 0, 0, 0, 0, 0, 0, 24, 255, 255, 0, 0, 0, 48, 97, 118, 99, 67, 1, 66, 192, 31, 255, 225, 0, 25,
    103, 66, 192, 31, 217, 0, 240, 17, 126, 240, 17, 0, 0, 3, 0, 1, 0, 0, 3, 0, 48, 143, 24, 50, 72, 1, 0, 4, 104, 203, 140, 178, 0, 0,
    0, 16, 112, 97, 115, 112, 0, 0, 0, 1, 0, 0, 0, 1, 0, 0, 0, 16, 115, 116, 116, 115, 0, 0, 0, 0, 0, 0, 0, 0, 0, 0, 0, 16, 115, 116,
    115, 99, 0, 0, 0, 0, 0, 0, 0, 0, 0, 0, 0, 20, 115, 116, 115, 122, 0, 0, 0, 0, 0, 0, 0, 0, 0, 0, 0, 0, 0, 0, 0, 16, 115, 116, 99, 111,
    0, 0, 0, 0, 0, 0, 0, 0, 0, 0, 0, 40, 109, 118, 101, 120, 0, 0, 0, 32, 116, 114, 101, 120, 0, 0, 0, 0, 0, 0, 1, 0, 0, 0, 0, 1, 0, 0,
    0, 0, 0, 0, 0, 0, 0, 0, 0, 0]

example : unmarshal isoFields initOnlyH264Bytes = .ok { tracks := [{ id := 256, timeScale := 10000000, codec := some (.h264 [103, 66, 192, 31, 217, 0, 240, 17, 126, 240, 17, 0, 0, 3, 0, 1, 0, 0, 3, 0, 48, 143, 24, 50, 72]
      [104, 203, 140, 178]) }] } := by
  decide +kernel

/-- The bytes of "h265 apple" of `TestInitUnmarshalOnly`. -/
def initOnlyH265AppleBytes : Bytes := [0, 0, 0, 32, 102, 116, 121, 112, 109, 112, 52, 50, 0, 0, 0, 1, 109, 112, 52, 49, 109, 112, 52, 50, 105, 115, 111, 109, 104, 108, 115,
    102, 0, 0, 4, 150, 109, 111, 111, 118, 0, 0, 0, 108, 109, 118, 104, 100, 0, 0, 0, 0, 213, 91, 198, 132, 213, 91, 198, 132, 0, 0, 2,
    88, 0, 0, 0, 0, 0, 1, 0, 0, 1, 0, 0, 0, 0, 0, 0, 0, 0, 0, 0, 0, 0, 1, 0, 0, 0, 0, 0, 0, 0, 0, 0, 0, 0, 0, 0, 0, 0, 1, 0, 0, 0, 0, 0,
    0, 0, 0, 0, 0, 0, 0, 0, 0, 64, 0, 0, 0, 0, 0, 0, 0, 0, 0, 0, 0, 0, 0, 0, 0, 0, 0, 0, 0, 0, 0, 0, 0, 0, 0, 0, 0, 0, 0, 0, 3, 0, 0, 2,
    112, 116, 114, 97, 107, 0, 0, 0, 92, 116, 107, 104, 100, 0, 0, 0, 1, 213, 91, 198, 132, 213, 91, 198, 132, 0, 0, 0, 1, 0, 0, 0, 0, 0,
    0, 0, 0, 0, 0, 0, 0, 0, 0, 0, 0, 0, 0, 0, 0, 1, 0, 0, 0, 0, 1, 0, 0, 0, 0, 0, 0, 0, 0, 0, 0, 0, 0, 0, 0, 0, 1, 0, 0, 0, 0, 0, 0, 0,
    0, 0, 0, 0, 0, 0, 0, 64, 0, 0, 0, 3, 192, 0, 0, 2, 28, 0, 0, 0, 0, 2, 12, 109, 100, 105, 97, 0, 0, 0, 32, 109, 100, 104, 100, 0, 0,
    0, 0, 213, 91, 198, 132, 213, 91, 198, 132, 0, 0, 23, 112, 0, 0, 0, 0, 21, 199, 0, 0, 0, 0, 0, 49, 104, 100, 108, 114, 0, 0, 0, 0, 0,
    0, 0, 0, 118, 105, 100, 101, 0, 0, 0, 0, 0, 0, 0, 0, 0, 0, 0, 0, 67, 111, 114, 101, 32, 77, 101, 100, 105, 97, 32, 86, 105, 100, 101,
    111, 0, 0, 0, 1, 179, 109, 105, 110, 102, 0, 0, 0, 20, 118, 109, 104, 100, 0, 0, 0, 1, 0, 0, 0, 0, 0, 0, 0, 0, 0, 0, 0, 36, 100, 105,
    110, 102, 0, 0, 0, 28, 100, 114, 101, 102, 0, 0, 0, 0, 0, 0, 0, 1, 0, 0, 0, 12, 117, 114, 108, 32, 0, 0, 0, 1, 0, 0, 1, 115, 115,
    116, 98, 108, 0, 0, 1, 39, 115, 116, 115, 100, 0, 0, 0, 0, 0, 0, 0, 1, 0, 0, 1, 23, 104, 118, 99, 49, 0, 0, 0, 0, 0, 0, 0, 1, 0, 0,
    0, 0, 0, 0, 0, 0, 0, 0, 0, 0, 0, 0, 0, 0, 3, 192, 2, 28, 0, 72, 0, 0, 0, 72, 0, 0, 0, 0, 0, 0, 0, 1, 0, 0, 0, 0, 0, 0, 0, 0, 0, 0, 0,
    0, 0, 0, 0, 0, 0, 0, 0, 0, 0, 0, 0, 0, 0, 0, 0, 0, 0, 0, 0, 0, 0, 24, 255, 255, 0, 0, 0, 138, 104, 118, 99, 67, 1, 2, 0, 0, 0, 4,
    176, 0, 0, 0, 0, 0, 123, 240, 0, 252, 253, 250, 250, 0, 0, 15, 3, 160, 0, 1, 0, 24, 64, 1, 12, 1, 255, 255, 2, 32, 0, 0, 3, 0, 176,
    0, 0, 3, 0, 0, 3, 0, 123, 24, 176, 36, 161, 0, 1, 0, 60, 66, 1, 1, 2, 32, 0, 0, 3, 0, 176, 0, 0, 3, 0, 0, 3, 0, 123, 160, 7, 130, 0,
    136, 125, 182, 113, 139, 146, 68, 128, 83, 136, 136, 146, 207, 36, 166, 146, 114, 201, 18, 73, 34, 220, 145, 170, 72, 252, 162, 35,
    255, 0, 1, 0, 1, 106, 2, 2, 2, 1, 162, 0, 1, 0, 8, 68, 1, 192, 37, 47, 5, 50, 64, 0, 0, 0, 19, 99, 111, 108, 114, 110, 99, 108, 120,
    0, 1, 0, 1, 0, 1, 0, 0, 0, 0, 10, 102, 105, 101, 108, 1, 0, 0, 0, 0, 10, 99, 104, 114, 109, 0, 0, 0, 0, 0, 16, 112, 97, 115, 112, 0,
    0, 0, 1, 0, 0, 0, 1, 0, 0, 0, 16, 115, 116, 116, 115, 0, 0, 0, 0, 0, 0, 0, 0, 0, 0, 0, 16, 115, 116, 115, 99, 0, 0, 0, 0, 0, 0, 0, 0,
    0, 0, 0, 20, 115, 116, 115, 122, 0, 0, 0, 0, 0, 0, 0, 0, 0, 0, 0, 0, 0, 0, 0, 16, 115, 116, 99, 111, 0, 0, 0, 0, 0, 0, 0, 0, 0, 0, 1,
    106, 116, 114, 97, 107, 0, 0, 0, 92, 116, 107, 104, 100, 0, 0, 0, 1, 213, 91, 198, 132, 213, 91, 198, 132, 0, 0, 0, 2, 0, 0, 0, 0, 0,
    0, 0, 0, 0, 0, 0, 0, 0, 0, 0, 0, 255, 255, 0, 0, 1, 0, 0, 0, 0, 1, 0, 0, 0, 0, 0, 0, 0, 0, 0, 0, 0, 0, 0, 0, 0, 1, 0, 0, 0, 0, 0, 0,
    0, 0, 0, 0, 0, 0, 0, 0, 64, 0, 0, 0, 0, 0, 0, 0, 0, 0, 0, 0, 0, 0, 1, 6, 109, 100, 105, 97, 0, 0, 0, 32, 109, 100, 104, 100, 0, 0, 0,
    0, 213, 91, 198, 132, 213, 91, 198, 132, 0, 0, 117, 48, 0, 0, 0, 0, 21, 199, 0, 0, 0, 0, 0, 58, 104, 100, 108, 114, 0, 0, 0, 0, 0, 0,
    0, 0, 99, 108, 99, 112, 0, 0, 0, 0, 0, 0, 0, 0, 0, 0, 0, 0, 67, 111, 114, 101, 32, 77, 101, 100, 105, 97, 32, 67, 108, 111, 115, 101,
    100, 32, 67, 97, 112, 116, 105, 111, 110, 0, 0, 0, 0, 164, 109, 105, 110, 102, 0, 0, 0, 12, 110, 109, 104, 100, 0, 0, 0, 0, 0, 0, 0,
    36, 100, 105, 110, 102, 0, 0, 0, 28, 100, 114, 101, 102, 0, 0, 0, 0, 0, 0, 0, 1, 0, 0, 0, 12, 117, 114, 108, 32, 0, 0, 0, 1, 0, 0, 0,
    108, 115, 116, 98, 108, 0, 0, 0, 32, 115, 116, 115, 100, 0, 0, 0, 0, 0, 0, 0, 1, 0, 0, 0, 16, 99, 54, 48, 56, 0, 0, 0, 0, 0, 0, 0, 1,
    0, 0, 0, 16, 115, 116, 116, 115, 0, 0, 0, 0, 0, 0, 0, 0, 0, 0, 0, 16, 115, 116, 115, 99, 0, 0, 0, 0, 0, 0, 0, 0, 0, 0, 0, 20, 115,
    116, 115, 122, 0, 0, 0, 0, 0, 0, 0, 0, 0, 0, 0, 0, 0, 0, 0, 16, 115, 116, 99, 111, 0, 0, 0, 0, 0, 0, 0, 0, 0, 0, 0, 72, 109, 118,
    101, 120, 0, 0, 0, 32, 116, 114, 101, 120, 0, 0, 0, 0, 0, 0, 0, 1, 0, 0, 0, 1, 0, 0, 0, 0, 0, 0, 0, 0, 1, 1, 0, 0, 0, 0, 0, 32, 116,
    114, 101, 120, 0, 0, 0, 0, 0, 0, 0, 2, 0, 0, 0, 1, 0, 0, 0, 0, 0, 0, 0, 0, 0, 0, 0, 0]

example : unmarshal isoFields initOnlyH265AppleBytes = .ok { tracks := [{ id := 1, timeScale := 6000, codec := some (.h265 [64, 1, 12, 1, 255, 255, 2, 32, 0, 0, 3, 0, 176, 0, 0, 3, 0, 0, 3, 0, 123, 24, 176, 36]
      [66, 1, 1, 2, 32, 0, 0, 3, 0, 176, 0, 0, 3, 0, 0, 3, 0, 123, 160, 7, 130, 0, 136, 125, 182, 113, 139, 146, 68, 128, 83, 136, 136,
      146, 207, 36, 166, 146, 114, 201, 18, 73, 34, 220, 145, 170, 72, 252, 162, 35, 255, 0, 1, 0, 1, 106, 2, 2, 2, 1]
      [68, 1, 192, 37, 47, 5, 50, 64]) }] } := by
  decide +kernel

/-- The bytes of "mpeg-4 audio" of `TestInitUnmarshalOnly`. -/
def initOnlyMpeg4AudioBytes : Bytes := [0, 0, 0, 24, 102, 116, 121, 112, 105, 115, 111, 53, 0, 0, 0, 1, 105, 115, 111, 53, 100, 97, 115, 104, 0, 0, 2, 67, 109, 111, 111,
    118, 0, 0, 0, 108, 109, 118, 104, 100, 0, 0, 0, 0, 0, 0, 0, 0, 0, 0, 0, 0, 0, 152, 150, 128, 0, 0, 0, 0, 0, 1, 0, 0, 1, 0, 0, 0, 0,
    0, 0, 0, 0, 0, 0, 0, 0, 1, 0, 0, 0, 0, 0, 0, 0, 0, 0, 0, 0, 0, 0, 0, 0, 1, 0, 0, 0, 0, 0, 0, 0, 0, 0, 0, 0, 0, 0, 0, 64, 0, 0, 0, 0,
    0, 0, 0, 0, 0, 0, 0, 0, 0, 0, 0, 0, 0, 0, 0, 0, 0, 0, 0, 0, 0, 0, 0, 255, 255, 255, 255, 0, 0, 1, 167, 116, 114, 97, 107, 0, 0, 0,
    92, 116, 107, 104, 100, 0, 0, 0, 7, 0, 0, 0, 0, 0, 0, 0, 0, 0, 0, 1, 1, 0, 0, 0, 0, 0, 0, 0, 0, 0, 0, 0, 0, 0, 0, 0, 0, 0, 0, 0, 0,
    1, 0, 0, 0, 0, 1, 0, 0, 0, 0, 0, 0, 0, 0, 0, 0, 0, 0, 0, 0, 0, 1, 0, 0, 0, 0, 0, 0, 0, 0, 0, 0, 0, 0, 0, 0, 64, 0, 0, 0, 0, 0, 0, 0,
    0, 0, 0, 0, 0, 0, 1, 67, 109, 100, 105, 97, 0, 0, 0, 32, 109, 100, 104, 100, 0, 0, 0, 0, 0, 0, 0, 0, 0, 0, 0, 0, 0, 152, 150, 128, 0,
    0, 0, 0, 85, 196, 0, 0, 0, 0, 0, 56, 104, 100, 108, 114, 0, 0, 0, 0, 0, 0, 0, 0, 115, 111, 117, 110, 0, 0, 0, 0, 0, 0, 0, 0, 0, 0, 0,
    0, 66, 114, 111, 97, 100, 112, 101, 97, 107, 32, 83, 111, 117, 110, 100, 32, 72, 97, 110, 100, 108, 101, 114, 0, 0, 0, 0, 227, 109,
    105, 110, 102, 0, 0, 0, 16, 115, 109, 104, 100, 0, 0, 0, 0, 0, 0, 0, 0, 0, 0, 0, 36, 100, 105, 110, 102, 0, 0, 0, 28, 100, 114, 101,
    102, 0, 0, 0, 0, 0, 0, 0, 1, 0, 0, 0, 12, 117, 114, 108, 32, 0, 0, 0, 1, 0, 0, 0, 167, 115, 116, 98, 108, 0, 0, 0, 91, 115, 116, 115,
    100, 0, 0, 0, 0, 0, 0, 0, 1, 0, 0, 0, 75, 109, 112, 52, 97, 0, 0, 0, 0, 0, 0, 0, 1, 0, 0, 0, 0, 0, 0, 0, 0, 0, 2, 0, 16, 0, 0, 0, 0,
    187, 128, 0, 0, 0, 0, 0, 39, 101, 115, 100, 115, 0, 0, 0, 0, 3, 25, 0, 0, 0, 4, 17, 64, 21, 0, 48, 0, 0, 17, 148, 0, 0, 17, 148, 0,
    5, 2, 17, 144, 6, 1, 2, 0, 0, 0, 16, 115, 116, 116, 115, 0, 0, 0, 0, 0, 0, 0, 0, 0, 0, 0, 16, 115, 116, 115, 99, 0, 0, 0, 0, 0, 0, 0,
    0, 0, 0, 0, 20, 115, 116, 115, 122, 0, 0, 0, 0, 0, 0, 0, 0, 0, 0, 0, 0, 0, 0, 0, 16, 115, 116, 99, 111, 0, 0, 0, 0, 0, 0, 0, 0, 0, 0,
    0, 40, 109, 118, 101, 120, 0, 0, 0, 32, 116, 114, 101, 120, 0, 0, 0, 0, 0, 0, 1, 1, 0, 0, 0, 1, 0, 0, 0, 0, 0, 0, 0, 0, 0, 0, 0, 0]

example : unmarshal isoFields initOnlyMpeg4AudioBytes = .ok { tracks := [{ id := 257, timeScale := 10000000, codec := some (.mpeg4Audio ⟨2, 48000, 2, 2, 0, 0, false, false, 0⟩) }] } := by
  decide +kernel

/-- The bytes of "ignored closed captions" of `TestInitUnmarshalOnly`. -/
def initOnlyIgnoredClosedCaptionsBytes : Bytes := [0, 0, 0, 32, 102, 116, 121, 112, 109, 112, 52, 50, 0, 0, 0, 1, 109, 112, 52, 49, 109, 112, 52, 50, 105, 115, 111, 109, 104, 108, 115,
    102, 0, 0, 4, 63, 109, 111, 111, 118, 0, 0, 0, 108, 109, 118, 104, 100, 0, 0, 0, 0, 213, 91, 198, 98, 213, 91, 198, 98, 0, 0, 2, 88,
    0, 0, 0, 0, 0, 1, 0, 0, 1, 0, 0, 0, 0, 0, 0, 0, 0, 0, 0, 0, 0, 1, 0, 0, 0, 0, 0, 0, 0, 0, 0, 0, 0, 0, 0, 0, 0, 1, 0, 0, 0, 0, 0, 0,
    0, 0, 0, 0, 0, 0, 0, 0, 64, 0, 0, 0, 0, 0, 0, 0, 0, 0, 0, 0, 0, 0, 0, 0, 0, 0, 0, 0, 0, 0, 0, 0, 0, 0, 0, 0, 0, 0, 0, 3, 0, 0, 2, 25,
    116, 114, 97, 107, 0, 0, 0, 92, 116, 107, 104, 100, 0, 0, 0, 1, 213, 91, 198, 98, 213, 91, 198, 98, 0, 0, 0, 1, 0, 0, 0, 0, 0, 0, 0,
    0, 0, 0, 0, 0, 0, 0, 0, 0, 0, 0, 0, 0, 1, 0, 0, 0, 0, 1, 0, 0, 0, 0, 0, 0, 0, 0, 0, 0, 0, 0, 0, 0, 0, 1, 0, 0, 0, 0, 0, 0, 0, 0, 0,
    0, 0, 0, 0, 0, 64, 0, 0, 0, 7, 128, 0, 0, 4, 56, 0, 0, 0, 0, 1, 181, 109, 100, 105, 97, 0, 0, 0, 32, 109, 100, 104, 100, 0, 0, 0, 0,
    213, 91, 198, 98, 213, 91, 198, 98, 0, 0, 23, 112, 0, 0, 0, 0, 21, 199, 0, 0, 0, 0, 0, 49, 104, 100, 108, 114, 0, 0, 0, 0, 0, 0, 0,
    0, 118, 105, 100, 101, 0, 0, 0, 0, 0, 0, 0, 0, 0, 0, 0, 0, 67, 111, 114, 101, 32, 77, 101, 100, 105, 97, 32, 86, 105, 100, 101, 111,
    0, 0, 0, 1, 92, 109, 105, 110, 102, 0, 0, 0, 20, 118, 109, 104, 100, 0, 0, 0, 1, 0, 0, 0, 0, 0, 0, 0, 0, 0, 0, 0, 36, 100, 105, 110,
    102, 0, 0, 0, 28, 100, 114, 101, 102, 0, 0, 0, 0, 0, 0, 0, 1, 0, 0, 0, 12, 117, 114, 108, 32, 0, 0, 0, 1, 0, 0, 1, 28, 115, 116, 98,
    108, 0, 0, 0, 208, 115, 116, 115, 100, 0, 0, 0, 0, 0, 0, 0, 1, 0, 0, 0, 192, 97, 118, 99, 49, 0, 0, 0, 0, 0, 0, 0, 1, 0, 0, 0, 0, 0,
    0, 0, 0, 0, 0, 0, 0, 0, 0, 0, 0, 7, 128, 4, 56, 0, 72, 0, 0, 0, 72, 0, 0, 0, 0, 0, 0, 0, 1, 0, 0, 0, 0, 0, 0, 0, 0, 0, 0, 0, 0, 0, 0,
    0, 0, 0, 0, 0, 0, 0, 0, 0, 0, 0, 0, 0, 0, 0, 0, 0, 0, 0, 24, 255, 255, 0, 0, 0, 51, 97, 118, 99, 67, 1, 100, 0, 42, 255, 225, 0, 27,
    39, 100, 0, 42, 172, 82, 20, 7, 128, 34, 126, 95, 252, 0, 4, 0, 5, 168, 8, 8, 13, 182, 21, 175, 123, 224, 32, 1, 0, 5, 40, 249, 9, 9,
    203, 0, 0, 0, 19, 99, 111, 108, 114, 110, 99, 108, 120, 0, 1, 0, 1, 0, 1, 0, 0, 0, 0, 10, 102, 105, 101, 108, 1, 0, 0, 0, 0, 10, 99,
    104, 114, 109, 1, 1, 0, 0, 0, 16, 112, 97, 115, 112, 0, 0, 0, 1, 0, 0, 0, 1, 0, 0, 0, 16, 115, 116, 116, 115, 0, 0, 0, 0, 0, 0, 0, 0,
    0, 0, 0, 16, 115, 116, 115, 99, 0, 0, 0, 0, 0, 0, 0, 0, 0, 0, 0, 20, 115, 116, 115, 122, 0, 0, 0, 0, 0, 0, 0, 0, 0, 0, 0, 0, 0, 0, 0,
    16, 115, 116, 99, 111, 0, 0, 0, 0, 0, 0, 0, 0, 0, 0, 1, 106, 116, 114, 97, 107, 0, 0, 0, 92, 116, 107, 104, 100, 0, 0, 0, 1, 213, 91,
    198, 98, 213, 91, 198, 98, 0, 0, 0, 2, 0, 0, 0, 0, 0, 0, 0, 0, 0, 0, 0, 0, 0, 0, 0, 0, 255, 255, 0, 0, 1, 0, 0, 0, 0, 1, 0, 0, 0, 0,
    0, 0, 0, 0, 0, 0, 0, 0, 0, 0, 0, 1, 0, 0, 0, 0, 0, 0, 0, 0, 0, 0, 0, 0, 0, 0, 64, 0, 0, 0, 0, 0, 0, 0, 0, 0, 0, 0, 0, 0, 1, 6, 109,
    100, 105, 97, 0, 0, 0, 32, 109, 100, 104, 100, 0, 0, 0, 0, 213, 91, 198, 98, 213, 91, 198, 98, 0, 0, 117, 48, 0, 0, 0, 0, 21, 199, 0,
    0, 0, 0, 0, 58, 104, 100, 108, 114, 0, 0, 0, 0, 0, 0, 0, 0, 99, 108, 99, 112, 0, 0, 0, 0, 0, 0, 0, 0, 0, 0, 0, 0, 67, 111, 114, 101,
    32, 77, 101, 100, 105, 97, 32, 67, 108, 111, 115, 101, 100, 32, 67, 97, 112, 116, 105, 111, 110, 0, 0, 0, 0, 164, 109, 105, 110, 102,
    0, 0, 0, 12, 110, 109, 104, 100, 0, 0, 0, 0, 0, 0, 0, 36, 100, 105, 110, 102, 0, 0, 0, 28, 100, 114, 101, 102, 0, 0, 0, 0, 0, 0, 0,
    1, 0, 0, 0, 12, 117, 114, 108, 32, 0, 0, 0, 1, 0, 0, 0, 108, 115, 116, 98, 108, 0, 0, 0, 32, 115, 116, 115, 100, 0, 0, 0, 0, 0, 0, 0,
    1, 0, 0, 0, 16, 99, 54, 48, 56, 0, 0, 0, 0, 0, 0, 0, 1, 0, 0, 0, 16, 115, 116, 116, 115, 0, 0, 0, 0, 0, 0, 0, 0, 0, 0, 0, 16, 115,
    116, 115, 99, 0, 0, 0, 0, 0, 0, 0, 0, 0, 0, 0, 20, 115, 116, 115, 122, 0, 0, 0, 0, 0, 0, 0, 0, 0, 0, 0, 0, 0, 0, 0, 16, 115, 116, 99,
    111, 0, 0, 0, 0, 0, 0, 0, 0, 0, 0, 0, 72, 109, 118, 101, 120, 0, 0, 0, 32, 116, 114, 101, 120, 0, 0, 0, 0, 0, 0, 0, 1, 0, 0, 0, 1, 0,
    0, 0, 0, 0, 0, 0, 0, 1, 1, 0, 0, 0, 0, 0, 32, 116, 114, 101, 120, 0, 0, 0, 0, 0, 0, 0, 2, 0, 0, 0, 1, 0, 0, 0, 0, 0, 0, 0, 0, 0, 0,
    0, 0]

example : unmarshal isoFields initOnlyIgnoredClosedCaptionsBytes = .ok { tracks := [{ id := 1, timeScale := 6000, codec := some (.h264 [39, 100, 0, 42, 172, 82, 20, 7, 128, 34, 126, 95, 252, 0, 4, 0, 5, 168, 8, 8, 13, 182, 21, 175, 123, 224, 32]
      [40, 249, 9, 9, 203]) }] } := by
  decide +kernel

/-- The codecs of `TestInitMarshalEmptyParameters` are refused. -/
example : ∀ c ∈ [Codec.av1 [], .vp9 ⟨0, 0, 0, 0, 0, false⟩, .h265 [] [] [], .h264 [] [], .mpeg4Video [], .mpeg1Video [], .mjpeg 0 0],
    (match marshal ⟨[], 0⟩ { tracks := [{ id := 1, timeScale := 90000, codec := some c }] } with | .err _ => true | _ => false) = true := by
  decide +kernel

end Verif.Props
