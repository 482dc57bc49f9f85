import Verif.Model.AV1
import Verif.Model.AV1Seq
import Verif.Model.H264
import Verif.Model.H264SPS
import Verif.Model.H265SPS
import Verif.Model.Float64
import Verif.Model.VP9
import Verif.Model.MPEG4Video
import Verif.Model.JPEG

/-!
# Test vectors of the video codecs

The tables of the unit tests of the repository, evaluated in the model. These are tests, not
proofs: they show that the model and the Go code agree on the inputs whose results the authors of
the Go code wrote down.
-/

namespace Verif.Tests

/-! `pkg/codecs/av1/*_test.go` -/

/-- bitstream: standard -/
def video1 : Bytes :=
  [10, 14, 0, 0, 0, 74, 171, 191, 195, 119, 107, 228, 64, 64, 64, 65, 10, 14, 0, 0, 0, 74, 171,
   191, 195, 119, 107, 228, 64, 64, 64, 65]

#guard AV1.bitstreamUnmarshal video1 = .ok [[8, 0, 0, 0, 74, 171, 191, 195, 119, 107, 228, 64,
   64, 64, 65], [8, 0, 0, 0, 74, 171, 191, 195, 119, 107, 228, 64, 64, 64, 65]]
#guard AV1.bitstreamMarshal [[8, 0, 0, 0, 74, 171, 191, 195, 119, 107, 228, 64, 64, 64, 65], [8,
   0, 0, 0, 74, 171, 191, 195, 119, 107, 228, 64, 64, 64, 65]] = .ok video1

/-- LEB128: a -/
def video2 : Bytes :=
  [135, 173, 75]

#guard AV1.leb128Unmarshal video2 = .ok (1234567, video2.length)
#guard AV1.leb128MarshalTo (List.replicate (AV1.leb128Size 1234567) 0) 0 1234567 = .ok (video2,
   video2.length)

/-- LEB128: b -/
def video3 : Bytes :=
  [127]

#guard AV1.leb128Unmarshal video3 = .ok (127, video3.length)
#guard AV1.leb128MarshalTo (List.replicate (AV1.leb128Size 127) 0) 0 127 = .ok (video3,
   video3.length)

/-- LEB128: c -/
def video4 : Bytes :=
  [254, 191, 201, 182, 2]

#guard AV1.leb128Unmarshal video4 = .ok (651321342, video4.length)
#guard AV1.leb128MarshalTo (List.replicate (AV1.leb128Size 651321342) 0) 0 651321342 = .ok (video4,
   video4.length)

/-- LEB128: max -/
def video5 : Bytes :=
  [255, 255, 255, 255, 15]

#guard AV1.leb128Unmarshal video5 = .ok (4294967295, video5.length)
#guard AV1.leb128MarshalTo (List.replicate (AV1.leb128Size 4294967295) 0) 0 4294967295 = .ok (video5,
   video5.length)

/-- OBU header: sequence header -/
def video6 : Bytes :=
  [10, 14, 0, 0, 0, 74, 171, 191, 195, 119, 107, 228, 64, 64, 64, 65]

#guard AV1.obuHeaderUnmarshal video6 = .ok ({
      type := 1, hasSize := true } : Verif.AV1.OBUHeader)

/-- sequence header: chrome webrtc -/
def video7 : Bytes :=
  [8, 0, 0, 0, 66, 167, 191, 228, 96, 13, 0, 64]

#guard ({} : AV1.SequenceHeader).unmarshal video7 = .ok ({
      operatingPointIdc := [0], seqLevelIdx := [8], seqTier := [false],
      decoderModelPresentForThisOp := [false], initialDisplayPresentForThisOp := [false],
      initialDisplayDelayMinus1 := [0], maxFrameWidthMinus1 := 1919, maxFrameHeightMinus1 := 803,
      seqChooseScreenContentTools := true, seqForceScreenContentTools := 2,
      seqChooseIntegerMv := true, seqForceIntegerMv := 2, enableCdef := true, colorConfig := ({
         bitDepth := 8, colorPrimaries := 2, transferCharacteristics := 2,
         matrixCoefficients := 2, subsamplingX := true, subsamplingY := true
       } : Verif.AV1.ColorConfig) } : Verif.AV1.SequenceHeader)
#guard (({} : AV1.SequenceHeader).unmarshal video7 >>= fun h => .ok (h.width,
   h.height)) = .ok (1920, 804)

/-- sequence header: av1 sample -/
def video8 : Bytes :=
  [10, 11, 0, 0, 0, 66, 167, 191, 230, 46, 223, 200, 66]

#guard ({} : AV1.SequenceHeader).unmarshal video8 = .ok ({
      operatingPointIdc := [0], seqLevelIdx := [8], seqTier := [false],
      decoderModelPresentForThisOp := [false], initialDisplayPresentForThisOp := [false],
      initialDisplayDelayMinus1 := [0], maxFrameWidthMinus1 := 1919, maxFrameHeightMinus1 := 817,
      use128x128Superblock := true, enableFilterIntra := true, enableIntraEdgeFilter := true,
      enableMaskedCompound := true, enableWarpedMotion := true, enableOrderHint := true,
      enableJntComp := true, enableRefFrameMvs := true, seqChooseScreenContentTools := true,
      seqForceScreenContentTools := 2, seqChooseIntegerMv := true, seqForceIntegerMv := 2,
      orderHintBitsMinus1 := 6, enableCdef := true, colorConfig := ({
         bitDepth := 8, colorPrimaries := 2, transferCharacteristics := 2,
         matrixCoefficients := 2, colorRange := true, subsamplingX := true, subsamplingY := true
       } : Verif.AV1.ColorConfig) } : Verif.AV1.SequenceHeader)
#guard (({} : AV1.SequenceHeader).unmarshal video8 >>= fun h => .ok (h.width,
   h.height)) = .ok (1920, 818)

/-- sequence header: libsvtav1 -/
def video9 : Bytes :=
  [8, 0, 0, 0, 66, 171, 191, 195, 113, 171, 230, 1]

#guard ({} : AV1.SequenceHeader).unmarshal video9 = .ok ({
      operatingPointIdc := [0], seqLevelIdx := [8], seqTier := [false],
      decoderModelPresentForThisOp := [false], initialDisplayPresentForThisOp := [false],
      initialDisplayDelayMinus1 := [0], maxFrameWidthMinus1 := 1919,
      maxFrameHeightMinus1 := 1079, enableIntraEdgeFilter := true,
      enableInterintraCompound := true, enableWarpedMotion := true, enableOrderHint := true,
      enableRefFrameMvs := true, seqChooseScreenContentTools := true,
      seqForceScreenContentTools := 2, seqChooseIntegerMv := true, seqForceIntegerMv := 2,
      orderHintBitsMinus1 := 6, enableCdef := true, enableRestoration := true, colorConfig := ({
         bitDepth := 8, colorPrimaries := 2, transferCharacteristics := 2,
         matrixCoefficients := 2, subsamplingX := true, subsamplingY := true
       } : Verif.AV1.ColorConfig) } : Verif.AV1.SequenceHeader)
#guard (({} : AV1.SequenceHeader).unmarshal video9 >>= fun h => .ok (h.width,
   h.height)) = .ok (1920, 1080)

/-- sequence header: amd hardware av1 -/
def video10 : Bytes :=
  [8, 4, 0, 0, 0, 4, 0, 0, 0, 243, 0, 0, 14, 85, 119, 248, 115, 208, 2, 125, 16, 16, 16, 16, 64]

#guard ({} : AV1.SequenceHeader).unmarshal video10 = .ok ({
      timingInfo := (some ({
         numUnitsInDisplayTick := 1, timeScale := 60, equalPictureInterval := true,
         numTicksPerPictureMinus1 := 0 } : Verif.AV1.TimingInfo)), operatingPointIdc := [0],
      seqLevelIdx := [14], seqTier := [false], decoderModelPresentForThisOp := [false],
      initialDisplayPresentForThisOp := [false], initialDisplayDelayMinus1 := [0],
      maxFrameWidthMinus1 := 1919, maxFrameHeightMinus1 := 1081,
      frameIDNumbersPresentFlag := true, deltaFrameIDLengthMinus2 := 13, enableOrderHint := true,
      seqChooseScreenContentTools := true, seqForceScreenContentTools := 2,
      seqChooseIntegerMv := true, seqForceIntegerMv := 2, orderHintBitsMinus1 := 7,
      enableCdef := true, colorConfig := ({
         bitDepth := 8, colorDescriptionPresentFlag := true, colorPrimaries := 1,
         transferCharacteristics := 1, matrixCoefficients := 1, subsamplingX := true,
         subsamplingY := true } : Verif.AV1.ColorConfig) } : Verif.AV1.SequenceHeader)
#guard (({} : AV1.SequenceHeader).unmarshal video10 >>= fun h => .ok (h.width,
   h.height)) = .ok (1920, 1082)

-- is_random_access_test.go
#guard AV1.isRandomAccess2 [[0x12, 0x00, 0x0d, 0x0a, 0x0b, 0x00, 0x00, 0x00, 0x42, 0xab, 0xbf,
   0xc3, 0x71, 0xab, 0xe6, 0x01, 0xa0, 0x0b, 0x32, 0x9c], [0x0a, 0x0b, 0x00, 0x00, 0x00, 0x42,
   0xab, 0xbf, 0xc3, 0x71, 0xab, 0xe6, 0x01, 0xa0, 0x0b, 0x32, 0x9c, 0x73, 0x10, 0xe0]] = true
#guard AV1.isRandomAccess2 [] = false
#guard AV1.isRandomAccess2 [[]] = false

/-! `pkg/codecs/h264/*_test.go` -/

/-- Annex-B: 2 zeros -/
def video12 : Bytes :=
  [0, 0, 1, 170, 187, 0, 0, 1, 204, 221, 0, 0, 1, 238, 255]

#guard H264.annexbUnmarshal video12 = .ok [[170, 187], [204, 221], [238, 255]]
#guard H264.annexbMarshal [[170, 187], [204, 221], [238, 255]] = .ok [0, 0, 0, 1, 170, 187, 0, 0,
   0, 1, 204, 221, 0, 0, 0, 1, 238, 255]

/-- Annex-B: 3 zeros -/
def video13 : Bytes :=
  [0, 0, 0, 1, 170, 187, 0, 0, 0, 1, 204, 221, 0, 0, 0, 1, 238, 255]

#guard H264.annexbUnmarshal video13 = .ok [[170, 187], [204, 221], [238, 255]]
#guard H264.annexbMarshal [[170, 187], [204, 221], [238, 255]] = .ok [0, 0, 0, 1, 170, 187, 0, 0,
   0, 1, 204, 221, 0, 0, 0, 1, 238, 255]

/-- Annex-B: 2 or 3 zeros -/
def video14 : Bytes :=
  [0, 0, 0, 1, 9, 240, 0, 0, 0, 1, 39, 66, 224, 21, 169, 24, 60, 23, 252, 184, 3, 80, 96, 16,
   107, 108, 43, 94, 247, 192, 64, 0, 0, 0, 1, 40, 222, 9, 200, 0, 0, 1, 6, 0, 7, 131, 236, 119,
   0, 0, 0, 0, 1, 3, 0, 64, 128, 0, 0, 1, 6, 5, 17, 3, 135, 244, 78, 205, 10, 75, 220, 161, 148,
   58, 195, 212, 155, 23, 31, 0, 128]

#guard H264.annexbUnmarshal video14 = .ok [[9, 240], [39, 66, 224, 21, 169, 24, 60, 23, 252, 184,
   3, 80, 96, 16, 107, 108, 43, 94, 247, 192, 64], [40, 222, 9, 200], [6, 0, 7, 131, 236, 119,
   0], [3, 0, 64, 128], [6, 5, 17, 3, 135, 244, 78, 205, 10, 75, 220, 161, 148, 58, 195, 212,
   155, 23, 31, 0, 128]]
#guard H264.annexbMarshal [[9, 240], [39, 66, 224, 21, 169, 24, 60, 23, 252, 184, 3, 80, 96, 16,
   107, 108, 43, 94, 247, 192, 64], [40, 222, 9, 200], [6, 0, 7, 131, 236, 119, 0], [3, 0, 64,
   128], [6, 5, 17, 3, 135, 244, 78, 205, 10, 75, 220, 161, 148, 58, 195, 212, 155, 23, 31, 0,
   128]] = .ok [0, 0, 0, 1, 9, 240, 0, 0, 0, 1, 39, 66, 224, 21, 169, 24, 60, 23, 252, 184, 3,
   80, 96, 16, 107, 108, 43, 94, 247, 192, 64, 0, 0, 0, 1, 40, 222, 9, 200, 0, 0, 0, 1, 6, 0, 7,
   131, 236, 119, 0, 0, 0, 0, 1, 3, 0, 64, 128, 0, 0, 0, 1, 6, 5, 17, 3, 135, 244, 78, 205, 10,
   75, 220, 161, 148, 58, 195, 212, 155, 23, 31, 0, 128]

/-- Annex-B: AUs end with zeros -/
def video15 : Bytes :=
  [0, 0, 0, 1, 170, 187, 0, 0, 0, 0, 1, 204, 221, 0, 0, 0, 0, 0, 0, 1, 238, 255, 0, 0, 0, 0, 1,
   26, 27, 28]

#guard H264.annexbUnmarshal video15 = .ok [[170, 187, 0], [204, 221, 0, 0, 0], [238, 255, 0],
   [26, 27, 28]]
#guard H264.annexbMarshal [[170, 187, 0], [204, 221, 0, 0, 0], [238, 255, 0], [26, 27,
   28]] = .ok [0, 0, 0, 1, 170, 187, 0, 0, 0, 0, 1, 204, 221, 0, 0, 0, 0, 0, 0, 1, 238, 255, 0,
   0, 0, 0, 1, 26, 27, 28]

-- annexb_test.go:112-133
#guard H264.annexbUnmarshal [0, 0, 0, 1, 0, 0, 0,
   1] = .err "Annex-B unit doesn't contain any NALU"
#guard H264.annexbUnmarshal [0, 0, 0, 1, 0, 0, 0, 1, 1] = .ok [[1]]
#guard (H264.annexbUnmarshal (List.replicate 51 [0, 0, 0, 1, 0xAA]).flatten).isOk = false
#guard (H264.annexbUnmarshal (List.replicate 50 [0, 0, 0, 1, 0xAA]).flatten).isOk = true

/-- AVCC: single -/
def video17 : Bytes :=
  [0, 0, 0, 3, 170, 187, 204]

#guard H264.avccUnmarshal video17 = .ok [[170, 187, 204]]
#guard H264.avccMarshal [[170, 187, 204]] = .ok video17

/-- AVCC: multiple -/
def video18 : Bytes :=
  [0, 0, 0, 2, 170, 187, 0, 0, 0, 2, 204, 221, 0, 0, 0, 2, 238, 255]

#guard H264.avccUnmarshal video18 = .ok [[170, 187], [204, 221], [238, 255]]
#guard H264.avccMarshal [[170, 187], [204, 221], [238, 255]] = .ok video18

-- avcc_test.go:53-82
#guard H264.avccUnmarshal [0, 0, 0, 0] = .err "AVCC unit doesn't contain any NALU"
#guard H264.avccUnmarshal [0, 0, 0, 0, 0, 0, 0, 3, 1, 2, 3] = .ok [[1, 2, 3]]
#guard (H264.avccUnmarshal (List.replicate 51 [0, 0, 0, 1, 0xAA]).flatten).isOk = false

/-- emulation prevention: base -/
def video20 : Bytes :=
  [0, 0, 3, 0, 0, 0, 3, 1, 0, 0, 3, 2, 0, 0, 3, 3]

#guard H264.emulationPreventionRemove video20 = .ok [0, 0, 0, 0, 0, 1, 0, 0, 2, 0, 0, 3]

/-- emulation prevention: double emulation byte -/
def video21 : Bytes :=
  [0, 0, 3, 0, 0, 3, 0]

#guard H264.emulationPreventionRemove video21 = .ok [0, 0, 0, 0, 0]

/-- emulation prevention: terminal emulation byte -/
def video22 : Bytes :=
  [0, 0, 3]

#guard H264.emulationPreventionRemove video22 = .ok [0, 0]

-- is_random_access_test.go
#guard H264.isRandomAccess [[5], [7]] = .ok true
#guard H264.isRandomAccess [[1]] = .ok false

/-- SPS: 352x288 -/
def video24 : Bytes :=
  [103, 100, 0, 12, 172, 59, 80, 176, 75, 66, 0, 0, 3, 0, 2, 0, 0, 3, 0, 61, 8]

#guard ({} : H264.SPS).unmarshal video24 = .ok ({
      profileIdc := 100, levelIdc := 12, chromaFormatIdc := 1, log2MaxFrameNumMinus4 := 6,
      picOrderCntType := 2, maxNumRefFrames := 1, gapsInFrameNumValueAllowedFlag := true,
      picWidthInMbsMinus1 := 21, picHeightInMapUnitsMinus1 := 17, frameMbsOnlyFlag := true,
      direct8x8InferenceFlag := true, vui := (some ({
         timingInfo := (some ({
            numUnitsInTick := 1, timeScale := 30, fixedFrameRateFlag := true
          } : Verif.H264.TimingInfo)) } : Verif.H264.VUI)) } : Verif.H264.SPS)
#guard (({} : H264.SPS).unmarshal video24 >>= fun s => .ok (s.width, s.height)) = .ok (352, 288)

/-- SPS: 1280x720 -/
def video25 : Bytes :=
  [103, 100, 0, 31, 172, 217, 64, 80, 5, 187, 1, 108, 128, 0, 0, 3, 0, 128, 0, 0, 30, 7, 140, 24,
   203]

#guard ({} : H264.SPS).unmarshal video25 = .ok ({
      profileIdc := 100, levelIdc := 31, chromaFormatIdc := 1, log2MaxPicOrderCntLsbMinus4 := 2,
      maxNumRefFrames := 4, picWidthInMbsMinus1 := 79, picHeightInMapUnitsMinus1 := 44,
      frameMbsOnlyFlag := true, direct8x8InferenceFlag := true, vui := (some ({
         aspectRatioInfoPresentFlag := true, aspectRatioIdc := 1,
         videoSignalTypePresentFlag := true, videoFormat := 5, videoFullRangeFlag := true,
         timingInfo := (some ({
            numUnitsInTick := 1, timeScale := 60 } : Verif.H264.TimingInfo)),
         bitstreamRestriction := (some ({
            motionVectorsOverPicBoundariesFlag := true, log2MaxMvLengthHorizontal := 11,
            log2MaxMvLengthVertical := 11, maxNumReorderFrames := 2, maxDecFrameBuffering := 4
          } : Verif.H264.BitstreamRestriction)) } : Verif.H264.VUI)) } : Verif.H264.SPS)
#guard (({} : H264.SPS).unmarshal video25 >>= fun s => .ok (s.width, s.height)) = .ok (1280, 720)

/-- SPS: 1920x1080 baseline -/
def video26 : Bytes :=
  [103, 66, 192, 40, 217, 0, 120, 2, 39, 229, 132, 0, 0, 3, 0, 4, 0, 0, 3, 0, 240, 60, 96, 201,
   32]

#guard ({} : H264.SPS).unmarshal video26 = .ok ({
      profileIdc := 66, constraintSet0Flag := true, constraintSet1Flag := true, levelIdc := 40,
      chromaFormatIdc := 1, picOrderCntType := 2, maxNumRefFrames := 3,
      picWidthInMbsMinus1 := 119, picHeightInMapUnitsMinus1 := 67, frameMbsOnlyFlag := true,
      direct8x8InferenceFlag := true, frameCropping := (some ({
         bottomOffset := 4 } : Verif.H264.FrameCropping)), vui := (some ({
         timingInfo := (some ({
            numUnitsInTick := 1, timeScale := 60 } : Verif.H264.TimingInfo)),
         bitstreamRestriction := (some ({
            motionVectorsOverPicBoundariesFlag := true, log2MaxMvLengthHorizontal := 11,
            log2MaxMvLengthVertical := 11, maxDecFrameBuffering := 3
          } : Verif.H264.BitstreamRestriction)) } : Verif.H264.VUI)) } : Verif.H264.SPS)
#guard (({} : H264.SPS).unmarshal video26 >>= fun s => .ok (s.width, s.height)) = .ok (1920,
   1080)

/-- SPS: 1920x1080 nvidia -/
def video27 : Bytes :=
  [103, 100, 0, 40, 172, 217, 64, 120, 2, 39, 229, 132, 0, 0, 3, 0, 4, 0, 0, 3, 0, 240, 60, 96,
   198, 88]

#guard ({} : H264.SPS).unmarshal video27 = .ok ({
      profileIdc := 100, levelIdc := 40, chromaFormatIdc := 1, log2MaxPicOrderCntLsbMinus4 := 2,
      maxNumRefFrames := 4, picWidthInMbsMinus1 := 119, picHeightInMapUnitsMinus1 := 67,
      frameMbsOnlyFlag := true, direct8x8InferenceFlag := true, frameCropping := (some ({
         bottomOffset := 4 } : Verif.H264.FrameCropping)), vui := (some ({
         timingInfo := (some ({
            numUnitsInTick := 1, timeScale := 60 } : Verif.H264.TimingInfo)),
         bitstreamRestriction := (some ({
            motionVectorsOverPicBoundariesFlag := true, log2MaxMvLengthHorizontal := 11,
            log2MaxMvLengthVertical := 11, maxNumReorderFrames := 2, maxDecFrameBuffering := 4
          } : Verif.H264.BitstreamRestriction)) } : Verif.H264.VUI)) } : Verif.H264.SPS)
#guard (({} : H264.SPS).unmarshal video27 >>= fun s => .ok (s.width, s.height)) = .ok (1920,
   1080)

/-- SPS: 1920x1080 -/
def video28 : Bytes :=
  [103, 100, 0, 41, 172, 19, 49, 64, 120, 4, 71, 222, 3, 234, 2, 2, 3, 224, 0, 0, 3, 0, 32, 0, 0,
   6, 82]

#guard ({} : H264.SPS).unmarshal video28 = .ok ({
      profileIdc := 100, levelIdc := 41, chromaFormatIdc := 1, log2MaxFrameNumMinus4 := 8,
      log2MaxPicOrderCntLsbMinus4 := 5, maxNumRefFrames := 4, picWidthInMbsMinus1 := 119,
      picHeightInMapUnitsMinus1 := 33, direct8x8InferenceFlag := true, frameCropping := (some ({
         bottomOffset := 2 } : Verif.H264.FrameCropping)), vui := (some ({
         aspectRatioInfoPresentFlag := true, aspectRatioIdc := 1,
         overscanInfoPresentFlag := true, overscanAppropriateFlag := true,
         videoSignalTypePresentFlag := true, videoFormat := 5,
         colourDescriptionPresentFlag := true, colourPrimaries := 1,
         transferCharacteristics := 1, matrixCoefficients := 1, chromaLocInfoPresentFlag := true,
         timingInfo := (some ({
            numUnitsInTick := 1, timeScale := 50, fixedFrameRateFlag := true
          } : Verif.H264.TimingInfo)), picStructPresentFlag := true } : Verif.H264.VUI))
    } : Verif.H264.SPS)
#guard (({} : H264.SPS).unmarshal video28 >>= fun s => .ok (s.width, s.height)) = .ok (1920,
   1080)

/-- SPS: hikvision -/
def video29 : Bytes :=
  [103, 100, 0, 32, 172, 23, 42, 1, 64, 30, 104, 64, 0, 1, 194, 0, 0, 87, 228, 33]

#guard ({} : H264.SPS).unmarshal video29 = .ok ({
      profileIdc := 100, levelIdc := 32, chromaFormatIdc := 1, log2MaxFrameNumMinus4 := 10,
      log2MaxPicOrderCntLsbMinus4 := 4, maxNumRefFrames := 1, picWidthInMbsMinus1 := 79,
      picHeightInMapUnitsMinus1 := 59, frameMbsOnlyFlag := true, direct8x8InferenceFlag := true,
      vui := (some ({
         timingInfo := (some ({
            numUnitsInTick := 1800, timeScale := 90000, fixedFrameRateFlag := true
          } : Verif.H264.TimingInfo)) } : Verif.H264.VUI)) } : Verif.H264.SPS)
#guard (({} : H264.SPS).unmarshal video29 >>= fun s => .ok (s.width, s.height)) = .ok (1280, 960)

/-- SPS: scaling matrix -/
def video30 : Bytes :=
  [103, 100, 0, 50, 173, 132, 1, 12, 32, 8, 97, 0, 67, 8, 2, 24, 64, 16, 194, 0, 132, 59, 80, 20,
   0, 90, 211, 112, 16, 16, 20, 0, 0, 3, 0, 4, 0, 0, 3, 0, 162, 16]

#guard ({} : H264.SPS).unmarshal video30 = .ok ({
      profileIdc := 100, levelIdc := 50, chromaFormatIdc := 1, scalingList4x4 := [[16, 16, 16,
      16, 16, 16, 16, 16, 16, 16, 16, 16, 16, 16, 16, 16], [16, 16, 16, 16, 16, 16, 16, 16, 16,
      16, 16, 16, 16, 16, 16, 16], [16, 16, 16, 16, 16, 16, 16, 16, 16, 16, 16, 16, 16, 16, 16,
      16], [16, 16, 16, 16, 16, 16, 16, 16, 16, 16, 16, 16, 16, 16, 16, 16], [16, 16, 16, 16, 16,
      16, 16, 16, 16, 16, 16, 16, 16, 16, 16, 16], [16, 16, 16, 16, 16, 16, 16, 16, 16, 16, 16,
      16, 16, 16, 16, 16]], useDefaultScalingMatrix4x4Flag := [false, false, false, false, false,
      false], log2MaxFrameNumMinus4 := 6, picOrderCntType := 2, maxNumRefFrames := 1,
      gapsInFrameNumValueAllowedFlag := true, picWidthInMbsMinus1 := 159,
      picHeightInMapUnitsMinus1 := 89, frameMbsOnlyFlag := true, direct8x8InferenceFlag := true,
      vui := (some ({
         videoSignalTypePresentFlag := true, videoFormat := 5, videoFullRangeFlag := true,
         colourDescriptionPresentFlag := true, colourPrimaries := 1,
         transferCharacteristics := 1, matrixCoefficients := 1, timingInfo := (some ({
            numUnitsInTick := 1, timeScale := 40, fixedFrameRateFlag := true
          } : Verif.H264.TimingInfo)) } : Verif.H264.VUI)) } : Verif.H264.SPS)
#guard (({} : H264.SPS).unmarshal video30 >>= fun s => .ok (s.width, s.height)) = .ok (2560,
   1440)

/-- SPS: 1920x1080 nvenc hrd -/
def video31 : Bytes :=
  [103, 100, 0, 42, 172, 44, 172, 7, 128, 34, 126, 92, 5, 168, 8, 8, 10, 0, 0, 7, 208, 0, 3, 169,
   129, 192, 0, 0, 76, 75, 0, 0, 38, 37, 173, 222, 92, 20]

#guard ({} : H264.SPS).unmarshal video31 = .ok ({
      profileIdc := 100, levelIdc := 42, chromaFormatIdc := 1, log2MaxFrameNumMinus4 := 4,
      log2MaxPicOrderCntLsbMinus4 := 4, maxNumRefFrames := 2, picWidthInMbsMinus1 := 119,
      picHeightInMapUnitsMinus1 := 67, frameMbsOnlyFlag := true, direct8x8InferenceFlag := true,
      frameCropping := (some ({
         bottomOffset := 4 } : Verif.H264.FrameCropping)), vui := (some ({
         aspectRatioInfoPresentFlag := true, aspectRatioIdc := 1,
         videoSignalTypePresentFlag := true, videoFormat := 5,
         colourDescriptionPresentFlag := true, colourPrimaries := 1,
         transferCharacteristics := 1, matrixCoefficients := 1, timingInfo := (some ({
            numUnitsInTick := 1000, timeScale := 120000, fixedFrameRateFlag := true
          } : Verif.H264.TimingInfo)), nalHRD := (some ({
            cpbCntMinus1 := 0, bitRateScale := 0, cpbSizeScale := 0,
            bitRateValueMinus1 := [39061], cpbSizeValueMinus1 := [156249], cbrFlag := [true],
            initialCpbRemovalDelayLengthMinus1 := 23, cpbRemovalDelayLengthMinus1 := 15,
            dpbOutputDelayLengthMinus1 := 5, timeOffsetLength := 24 } : Verif.H264.HRD)),
         picStructPresentFlag := true } : Verif.H264.VUI)) } : Verif.H264.SPS)
#guard (({} : H264.SPS).unmarshal video31 >>= fun s => .ok (s.width, s.height)) = .ok (1920,
   1080)

/-- SPS: 1920x1080 hikvision nal hrd + vcl hrd -/
def video32 : Bytes :=
  [103, 77, 0, 41, 154, 100, 3, 192, 17, 63, 46, 2, 220, 4, 4, 5, 0, 0, 3, 3, 232, 0, 0, 195, 80,
   232, 96, 0, 186, 180, 0, 2, 234, 196, 187, 203, 141, 12, 0, 23, 86, 128, 0, 93, 88, 151, 121,
   112, 160]

#guard ({} : H264.SPS).unmarshal video32 = .ok ({
      profileIdc := 77, levelIdc := 41, chromaFormatIdc := 1, log2MaxFrameNumMinus4 := 5,
      log2MaxPicOrderCntLsbMinus4 := 5, maxNumRefFrames := 1, picWidthInMbsMinus1 := 119,
      picHeightInMapUnitsMinus1 := 67, frameMbsOnlyFlag := true, direct8x8InferenceFlag := true,
      frameCropping := (some ({
         bottomOffset := 4 } : Verif.H264.FrameCropping)), vui := (some ({
         aspectRatioInfoPresentFlag := true, aspectRatioIdc := 1,
         videoSignalTypePresentFlag := true, videoFormat := 5, videoFullRangeFlag := true,
         colourDescriptionPresentFlag := true, colourPrimaries := 1,
         transferCharacteristics := 1, matrixCoefficients := 1, timingInfo := (some ({
            numUnitsInTick := 1000, timeScale := 50000, fixedFrameRateFlag := true
          } : Verif.H264.TimingInfo)), nalHRD := (some ({
            cpbCntMinus1 := 0, bitRateScale := 4, cpbSizeScale := 3,
            bitRateValueMinus1 := [11948], cpbSizeValueMinus1 := [95585], cbrFlag := [false],
            initialCpbRemovalDelayLengthMinus1 := 23, cpbRemovalDelayLengthMinus1 := 15,
            dpbOutputDelayLengthMinus1 := 5, timeOffsetLength := 24 } : Verif.H264.HRD)),
         vclHRD := (some ({
            cpbCntMinus1 := 0, bitRateScale := 4, cpbSizeScale := 3,
            bitRateValueMinus1 := [11948], cpbSizeValueMinus1 := [95585], cbrFlag := [false],
            initialCpbRemovalDelayLengthMinus1 := 23, cpbRemovalDelayLengthMinus1 := 15,
            dpbOutputDelayLengthMinus1 := 5, timeOffsetLength := 24 } : Verif.H264.HRD)),
         picStructPresentFlag := true } : Verif.H264.VUI)) } : Verif.H264.SPS)
#guard (({} : H264.SPS).unmarshal video32 >>= fun s => .ok (s.width, s.height)) = .ok (1920,
   1080)

/-- SPS: 1920x1080 mbs_only_flag = 0 -/
def video33 : Bytes :=
  [103, 77, 64, 40, 171, 96, 60, 2, 35, 239, 1, 16, 0, 0, 3, 0, 16, 0, 0, 3, 3, 46, 148, 0, 53,
   100, 6, 178, 133, 8, 14, 226, 197, 34, 192]

#guard ({} : H264.SPS).unmarshal video33 = .ok ({
      profileIdc := 77, constraintSet1Flag := true, levelIdc := 40, chromaFormatIdc := 1,
      log2MaxFrameNumMinus4 := 1, log2MaxPicOrderCntLsbMinus4 := 2, maxNumRefFrames := 2,
      picWidthInMbsMinus1 := 119, picHeightInMapUnitsMinus1 := 33,
      direct8x8InferenceFlag := true, frameCropping := (some ({
         bottomOffset := 2 } : Verif.H264.FrameCropping)), vui := (some ({
         aspectRatioInfoPresentFlag := true, aspectRatioIdc := 1, timingInfo := (some ({
            numUnitsInTick := 1, timeScale := 50, fixedFrameRateFlag := true
          } : Verif.H264.TimingInfo)), nalHRD := (some ({
            cpbCntMinus1 := 0, bitRateScale := 4, cpbSizeScale := 10,
            bitRateValueMinus1 := [3416], cpbSizeValueMinus1 := [213], cbrFlag := [false],
            initialCpbRemovalDelayLengthMinus1 := 20, cpbRemovalDelayLengthMinus1 := 5,
            dpbOutputDelayLengthMinus1 := 1, timeOffsetLength := 0 } : Verif.H264.HRD)),
         picStructPresentFlag := true, bitstreamRestriction := (some ({
            motionVectorsOverPicBoundariesFlag := true, maxBytesPerPicDenom := 2,
            log2MaxMvLengthHorizontal := 10, log2MaxMvLengthVertical := 9,
            maxNumReorderFrames := 1, maxDecFrameBuffering := 4
          } : Verif.H264.BitstreamRestriction)) } : Verif.H264.VUI)) } : Verif.H264.SPS)
#guard (({} : H264.SPS).unmarshal video33 >>= fun s => .ok (s.width, s.height)) = .ok (1920,
   1080)

/-! `pkg/codecs/h265/*_test.go` -/

-- is_random_access_test.go
#guard H264.isRandomAccess265 [[38]] = .ok true
#guard H264.isRandomAccess265 [[0]] = .ok false

/-- PPS: default -/
def video35 : Bytes :=
  [68, 1, 193, 114, 180, 98, 64]

#guard H265.PPS.unmarshal video35 = .ok ({
       } : Verif.H265.PPS)

/-- SPS: 1920x1080 -/
def video36 : Bytes :=
  [66, 1, 1, 1, 96, 0, 0, 3, 0, 144, 0, 0, 3, 0, 0, 3, 0, 120, 160, 3, 192, 128, 16, 229, 150,
   102, 105, 36, 202, 224, 16, 0, 0, 3, 0, 16, 0, 0, 3, 1, 224, 128]

#guard ({} : H265.SPS).unmarshal video36 = .ok ({
      temporalIDNestingFlag := true, profileTierLevel := ({
         generalProfileIdc := 1, generalProfileCompatibilityFlag := [false, true, true, false,
         false, false, false, false, false, false, false, false, false, false, false, false,
         false, false, false, false, false, false, false, false, false, false, false, false,
         false, false, false, false], generalProgressiveSourceFlag := true,
         generalFrameOnlyConstraintFlag := true, generalLevelIdc := 120
       } : Verif.H265.ProfileTierLevel), chromaFormatIdc := 1, picWidthInLumaSamples := 1920,
      picHeightInLumaSamples := 1080, log2MaxPicOrderCntLsbMinus4 := 4,
      subLayerOrderingInfoPresentFlag := true, maxDecPicBufferingMinus1 := [5],
      maxNumReorderPics := [2], maxLatencyIncreasePlus1 := [5],
      log2DiffMaxMinLumaCodingBlockSize := 3, log2DiffMaxMinLumaTransformBlockSize := 3,
      sampleAdaptiveOffsetEnabledFlag := true, temporalMvpEnabledFlag := true,
      strongIntraSmoothingEnabledFlag := true, vui := (some ({
         timingInfo := (some ({
            numUnitsInTick := 1, timeScale := 30 } : Verif.H265.TimingInfo)) } : Verif.H265.VUI))
    } : Verif.H265.SPS)
#guard (({} : H265.SPS).unmarshal video36 >>= fun s => s.width) = .ok 1920
#guard (({} : H265.SPS).unmarshal video36 >>= fun s => s.height) = .ok 1080

/-- SPS: 1920x800 -/
def video37 : Bytes :=
  [66, 1, 1, 1, 96, 0, 0, 3, 0, 144, 0, 0, 3, 0, 0, 3, 0, 120, 160, 3, 192, 128, 50, 22, 89, 89,
   164, 147, 43, 192, 90, 128, 128, 128, 130, 0, 0, 7, 210, 0, 0, 187, 128, 16]

#guard ({} : H265.SPS).unmarshal video37 = .ok ({
      temporalIDNestingFlag := true, profileTierLevel := ({
         generalProfileIdc := 1, generalProfileCompatibilityFlag := [false, true, true, false,
         false, false, false, false, false, false, false, false, false, false, false, false,
         false, false, false, false, false, false, false, false, false, false, false, false,
         false, false, false, false], generalProgressiveSourceFlag := true,
         generalFrameOnlyConstraintFlag := true, generalLevelIdc := 120
       } : Verif.H265.ProfileTierLevel), chromaFormatIdc := 1, picWidthInLumaSamples := 1920,
      picHeightInLumaSamples := 800, log2MaxPicOrderCntLsbMinus4 := 4,
      subLayerOrderingInfoPresentFlag := true, maxDecPicBufferingMinus1 := [4],
      maxNumReorderPics := [2], maxLatencyIncreasePlus1 := [5],
      log2DiffMaxMinLumaCodingBlockSize := 3, log2DiffMaxMinLumaTransformBlockSize := 3,
      sampleAdaptiveOffsetEnabledFlag := true, temporalMvpEnabledFlag := true,
      strongIntraSmoothingEnabledFlag := true, vui := (some ({
         aspectRatioInfoPresentFlag := true, aspectRatioIdc := 1,
         videoSignalTypePresentFlag := true, videoFormat := 5,
         colourDescriptionPresentFlag := true, colourPrimaries := 1,
         transferCharacteristics := 1, matrixCoefficients := 1, timingInfo := (some ({
            numUnitsInTick := 1001, timeScale := 24000 } : Verif.H265.TimingInfo))
       } : Verif.H265.VUI)) } : Verif.H265.SPS)
#guard (({} : H265.SPS).unmarshal video37 >>= fun s => s.width) = .ok 1920
#guard (({} : H265.SPS).unmarshal video37 >>= fun s => s.height) = .ok 800

/-- SPS: 1280x720 -/
def video38 : Bytes :=
  [66, 1, 1, 4, 8, 0, 0, 3, 0, 152, 8, 0, 0, 3, 0, 0, 93, 144, 0, 80, 16, 5, 162, 41, 75, 116,
   148, 152, 95, 254, 0, 2, 0, 2, 212, 4, 4, 4, 16, 0, 0, 3, 0, 16, 0, 0, 3, 1, 224, 128]

#guard ({} : H265.SPS).unmarshal video38 = .ok ({
      temporalIDNestingFlag := true, profileTierLevel := ({
         generalProfileIdc := 4, generalProfileCompatibilityFlag := [false, false, false, false,
         true, false, false, false, false, false, false, false, false, false, false, false,
         false, false, false, false, false, false, false, false, false, false, false, false,
         false, false, false, false], generalProgressiveSourceFlag := true,
         generalFrameOnlyConstraintFlag := true, generalMax12bitConstraintFlag := true,
         generalLowerBitRateConstraintFlag := true, generalLevelIdc := 93
       } : Verif.H265.ProfileTierLevel), chromaFormatIdc := 3, picWidthInLumaSamples := 1280,
      picHeightInLumaSamples := 720, bitDepthLumaMinus8 := 4, bitDepthChromaMinus8 := 4,
      log2MaxPicOrderCntLsbMinus4 := 4, subLayerOrderingInfoPresentFlag := true,
      maxDecPicBufferingMinus1 := [2], maxNumReorderPics := [0], maxLatencyIncreasePlus1 := [1],
      log2MinLumaCodingBlockSizeMinus3 := 1, log2DiffMaxMinLumaCodingBlockSize := 1,
      log2DiffMaxMinLumaTransformBlockSize := 3, temporalMvpEnabledFlag := true,
      strongIntraSmoothingEnabledFlag := true, vui := (some ({
         aspectRatioInfoPresentFlag := true, aspectRatioIdc := 255, sarWidth := 1,
         sarHeight := 1, videoSignalTypePresentFlag := true, videoFormat := 5,
         colourDescriptionPresentFlag := true, colourPrimaries := 1,
         transferCharacteristics := 1, matrixCoefficients := 1, timingInfo := (some ({
            numUnitsInTick := 1, timeScale := 30 } : Verif.H265.TimingInfo)) } : Verif.H265.VUI))
    } : Verif.H265.SPS)
#guard (({} : H265.SPS).unmarshal video38 >>= fun s => s.width) = .ok 1280
#guard (({} : H265.SPS).unmarshal video38 >>= fun s => s.height) = .ok 720

/-- SPS: 10 bit -/
def video39 : Bytes :=
  [66, 1, 1, 34, 32, 0, 0, 3, 0, 144, 0, 0, 3, 0, 0, 3, 0, 120, 160, 3, 192, 128, 16, 228, 217,
   102, 102, 146, 76, 175, 1, 1, 0, 0, 3, 0, 100, 0, 0, 11, 181, 8]

#guard ({} : H265.SPS).unmarshal video39 = .ok ({
      temporalIDNestingFlag := true, profileTierLevel := ({
         generalTierFlag := 1, generalProfileIdc := 2, generalProfileCompatibilityFlag := [false,
         false, true, false, false, false, false, false, false, false, false, false, false,
         false, false, false, false, false, false, false, false, false, false, false, false,
         false, false, false, false, false, false, false], generalProgressiveSourceFlag := true,
         generalFrameOnlyConstraintFlag := true, generalLevelIdc := 120
       } : Verif.H265.ProfileTierLevel), chromaFormatIdc := 1, picWidthInLumaSamples := 1920,
      picHeightInLumaSamples := 1080, bitDepthLumaMinus8 := 2, bitDepthChromaMinus8 := 2,
      log2MaxPicOrderCntLsbMinus4 := 4, subLayerOrderingInfoPresentFlag := true,
      maxDecPicBufferingMinus1 := [5], maxNumReorderPics := [2], maxLatencyIncreasePlus1 := [5],
      log2DiffMaxMinLumaCodingBlockSize := 3, log2DiffMaxMinLumaTransformBlockSize := 3,
      sampleAdaptiveOffsetEnabledFlag := true, temporalMvpEnabledFlag := true,
      strongIntraSmoothingEnabledFlag := true, vui := (some ({
         aspectRatioInfoPresentFlag := true, aspectRatioIdc := 1, timingInfo := (some ({
            numUnitsInTick := 100, timeScale := 2997 } : Verif.H265.TimingInfo))
       } : Verif.H265.VUI)) } : Verif.H265.SPS)
#guard (({} : H265.SPS).unmarshal video39 >>= fun s => s.width) = .ok 1920
#guard (({} : H265.SPS).unmarshal video39 >>= fun s => s.height) = .ok 1080

/-- SPS: nvenc -/
def video40 : Bytes :=
  [66, 1, 1, 1, 64, 0, 0, 3, 0, 0, 3, 0, 0, 3, 0, 0, 3, 0, 123, 160, 3, 192, 128, 17, 7, 203,
   150, 180, 164, 37, 146, 227, 1, 106, 2, 2, 2, 8, 0, 0, 3, 0, 8, 0, 0, 3, 1, 227, 0, 46, 242,
   136, 0, 7, 39, 12, 0, 0, 152, 150, 130]

#guard ({} : H265.SPS).unmarshal video40 = .ok ({
      temporalIDNestingFlag := true, profileTierLevel := ({
         generalProfileIdc := 1, generalProfileCompatibilityFlag := [false, true, false, false,
         false, false, false, false, false, false, false, false, false, false, false, false,
         false, false, false, false, false, false, false, false, false, false, false, false,
         false, false, false, false], generalLevelIdc := 123 } : Verif.H265.ProfileTierLevel),
      chromaFormatIdc := 1, picWidthInLumaSamples := 1920, picHeightInLumaSamples := 1088,
      conformanceWindow := (some ({
         bottomOffset := 4 } : Verif.H265.Window)), log2MaxPicOrderCntLsbMinus4 := 4,
      subLayerOrderingInfoPresentFlag := true, maxDecPicBufferingMinus1 := [1],
      maxNumReorderPics := [0], maxLatencyIncreasePlus1 := [0],
      log2MinLumaCodingBlockSizeMinus3 := 1, log2DiffMaxMinLumaCodingBlockSize := 1,
      log2DiffMaxMinLumaTransformBlockSize := 3, maxTransformHierarchyDepthInter := 3,
      ampEnabledFlag := true, sampleAdaptiveOffsetEnabledFlag := true, shortTermRefPicSets := [({
         numNegativePics := 1, deltaPocS0 := [(-1)], usedByCurrPicS0Flag := [true]
       } : Verif.H265.RPS)], vui := (some ({
         aspectRatioInfoPresentFlag := true, aspectRatioIdc := 1,
         videoSignalTypePresentFlag := true, videoFormat := 5,
         colourDescriptionPresentFlag := true, colourPrimaries := 1,
         transferCharacteristics := 1, matrixCoefficients := 1, timingInfo := (some ({
            numUnitsInTick := 1, timeScale := 60 } : Verif.H265.TimingInfo)) } : Verif.H265.VUI))
    } : Verif.H265.SPS)
#guard (({} : H265.SPS).unmarshal video40 >>= fun s => s.width) = .ok 1920
#guard (({} : H265.SPS).unmarshal video40 >>= fun s => s.height) = .ok 1080

/-- SPS: avigilon -/
def video41 : Bytes :=
  [66, 1, 1, 1, 96, 0, 0, 3, 0, 128, 0, 0, 3, 0, 0, 3, 0, 150, 160, 1, 128, 32, 6, 193, 254, 54,
   187, 181, 55, 119, 37, 214, 2, 220, 4, 4, 4, 16, 0, 0, 62, 128, 0, 4, 38, 135, 33, 222, 229,
   16, 1, 110, 32, 0, 102, 255, 0, 11, 113, 0, 3, 55, 248, 128]

#guard ({} : H265.SPS).unmarshal video41 = .ok ({
      temporalIDNestingFlag := true, profileTierLevel := ({
         generalProfileIdc := 1, generalProfileCompatibilityFlag := [false, true, true, false,
         false, false, false, false, false, false, false, false, false, false, false, false,
         false, false, false, false, false, false, false, false, false, false, false, false,
         false, false, false, false], generalProgressiveSourceFlag := true,
         generalLevelIdc := 150 } : Verif.H265.ProfileTierLevel), chromaFormatIdc := 1,
      picWidthInLumaSamples := 3072, picHeightInLumaSamples := 1728,
      conformanceWindow := (some ({
          } : Verif.H265.Window)), log2MaxPicOrderCntLsbMinus4 := 12,
      subLayerOrderingInfoPresentFlag := true, maxDecPicBufferingMinus1 := [1],
      maxNumReorderPics := [0], maxLatencyIncreasePlus1 := [0],
      log2DiffMaxMinLumaCodingBlockSize := 2, log2DiffMaxMinLumaTransformBlockSize := 2,
      maxTransformHierarchyDepthInter := 1, sampleAdaptiveOffsetEnabledFlag := true,
      pcmEnabledFlag := true, pcmSampleBitDepthLumaMinus1 := 7,
      pcmSampleBitDepthChromaMinus1 := 7, log2MinPcmLumaCodingBlockSizeMinus3 := 2,
      shortTermRefPicSets := [({
         numNegativePics := 1, deltaPocS0 := [(-1)], usedByCurrPicS0Flag := [true]
       } : Verif.H265.RPS)], temporalMvpEnabledFlag := true, vui := (some ({
         aspectRatioInfoPresentFlag := true, aspectRatioIdc := 1,
         videoSignalTypePresentFlag := true, videoFormat := 5, videoFullRangeFlag := true,
         colourDescriptionPresentFlag := true, colourPrimaries := 1,
         transferCharacteristics := 1, matrixCoefficients := 1, timingInfo := (some ({
            numUnitsInTick := 1000, timeScale := 17000 } : Verif.H265.TimingInfo))
       } : Verif.H265.VUI)) } : Verif.H265.SPS)
#guard (({} : H265.SPS).unmarshal video41 >>= fun s => s.width) = .ok 3072
#guard (({} : H265.SPS).unmarshal video41 >>= fun s => s.height) = .ok 1728

/-- SPS: long_term_ref_pics_present_flag -/
def video42 : Bytes :=
  [66, 1, 1, 1, 96, 0, 0, 3, 0, 176, 0, 0, 3, 0, 0, 3, 0, 93, 160, 2, 128, 128, 45, 22, 54, 185,
   36, 203, 240, 8, 0, 0, 3, 0, 8, 0, 0, 3, 1, 149, 8]

#guard ({} : H265.SPS).unmarshal video42 = .ok ({
      temporalIDNestingFlag := true, profileTierLevel := ({
         generalProfileIdc := 1, generalProfileCompatibilityFlag := [false, true, true, false,
         false, false, false, false, false, false, false, false, false, false, false, false,
         false, false, false, false, false, false, false, false, false, false, false, false,
         false, false, false, false], generalProgressiveSourceFlag := true,
         generalNonPackedConstraintFlag := true, generalFrameOnlyConstraintFlag := true,
         generalLevelIdc := 93 } : Verif.H265.ProfileTierLevel), chromaFormatIdc := 1,
      picWidthInLumaSamples := 1280, picHeightInLumaSamples := 720,
      log2MaxPicOrderCntLsbMinus4 := 12, subLayerOrderingInfoPresentFlag := true,
      maxDecPicBufferingMinus1 := [1], maxNumReorderPics := [0], maxLatencyIncreasePlus1 := [0],
      log2DiffMaxMinLumaCodingBlockSize := 3, log2DiffMaxMinLumaTransformBlockSize := 3,
      sampleAdaptiveOffsetEnabledFlag := true, longTermRefPicsPresentFlag := true,
      temporalMvpEnabledFlag := true, strongIntraSmoothingEnabledFlag := true, vui := (some ({
         timingInfo := (some ({
            numUnitsInTick := 1, timeScale := 50, pocProportionalToTimingFlag := true,
            numTicksPOCDiffOneMinus1 := 1 } : Verif.H265.TimingInfo)) } : Verif.H265.VUI))
    } : Verif.H265.SPS)
#guard (({} : H265.SPS).unmarshal video42 >>= fun s => s.width) = .ok 1280
#guard (({} : H265.SPS).unmarshal video42 >>= fun s => s.height) = .ok 720

/-- SPS: scaling list data -/
def video43 : Bytes :=
  [66, 1, 1, 1, 96, 0, 0, 3, 0, 144, 0, 0, 3, 0, 0, 3, 0, 150, 160, 1, 0, 32, 6, 1, 99, 75, 185,
   8, 78, 81, 17, 24, 142, 9, 48, 36, 64, 221, 40, 82, 28, 193, 39, 6, 24, 27, 178, 161, 145, 88,
   174, 22, 192, 241, 7, 208, 128, 32, 130, 140, 22, 112, 53, 124, 165, 36, 153, 58, 175, 75,
   164, 187, 73, 47, 32, 129, 17, 50, 12, 24, 48, 104, 209, 128, 176, 8, 16, 32, 192, 128, 15,
   129, 252, 31, 124, 163, 34, 48, 135, 25, 227, 62, 59, 240, 151, 240, 199, 225, 15, 131, 15, 7,
   223, 242, 161, 18, 52, 78, 79, 37, 92, 149, 185, 41, 91, 154, 35, 19, 16, 8, 1, 4, 16, 130,
   16, 32, 1, 3, 2, 8, 31, 191, 240, 128, 66, 16, 194, 28, 49, 225, 15, 132, 63, 8, 127, 10, 126,
   20, 248, 62, 255, 252, 165, 38, 76, 157, 87, 165, 210, 93, 164, 151, 144, 64, 136, 153, 6, 12,
   24, 52, 104, 192, 88, 4, 8, 16, 96, 64, 7, 192, 254, 15, 190, 81, 4, 136, 194, 28, 103, 140,
   248, 239, 194, 95, 195, 31, 132, 62, 12, 60, 31, 127, 202, 136, 73, 26, 39, 39, 146, 174, 74,
   220, 148, 173, 205, 17, 137, 136, 4, 0, 130, 8, 65, 8, 16, 0, 129, 129, 4, 15, 223, 248, 66,
   16, 132, 48, 135, 12, 120, 67, 225, 15, 194, 31, 194, 159, 133, 62, 15, 191, 255, 41, 73, 147,
   39, 85, 233, 116, 151, 105, 37, 228, 16, 34, 38, 65, 131, 6, 13, 26, 48, 22, 1, 2, 4, 24, 16,
   1, 240, 63, 131, 239, 162, 18, 70, 137, 201, 228, 171, 146, 183, 37, 43, 115, 68, 98, 98, 1,
   0, 32, 130, 16, 66, 4, 0, 32, 96, 65, 3, 247, 253, 60, 184, 154, 129, 1, 1, 2, 0, 0, 3, 0,
   200, 0, 0, 23, 112, 224, 11, 188, 174, 0, 3, 232, 0, 0, 3, 1, 244, 0, 0, 3, 0, 125, 0, 0, 3,
   0, 62, 128, 5, 112, 128, 65]

#guard ({} : H265.SPS).unmarshal video43 = .ok ({
      temporalIDNestingFlag := true, profileTierLevel := ({
         generalProfileIdc := 1, generalProfileCompatibilityFlag := [false, true, true, false,
         false, false, false, false, false, false, false, false, false, false, false, false,
         false, false, false, false, false, false, false, false, false, false, false, false,
         false, false, false, false], generalProgressiveSourceFlag := true,
         generalFrameOnlyConstraintFlag := true, generalLevelIdc := 150
       } : Verif.H265.ProfileTierLevel), chromaFormatIdc := 1, picWidthInLumaSamples := 2048,
      picHeightInLumaSamples := 1536, log2MaxPicOrderCntLsbMinus4 := 12,
      maxDecPicBufferingMinus1 := [1], maxNumReorderPics := [0], maxLatencyIncreasePlus1 := [0],
      log2DiffMaxMinLumaCodingBlockSize := 2, log2DiffMaxMinLumaTransformBlockSize := 3,
      maxTransformHierarchyDepthInter := 3, maxTransformHierarchyDepthIntra := 3,
      scalingListEnabledFlag := true, scalingListData := (some ({
         predModeFlag := [[true, true, false, true, true, false], [true, true, false, true, true,
         false], [true, true, false, true, true, false], [true, false, false, true, false,
         false]], predMatrixIDDelta := [[0, 0, 1, 0, 0, 1], [0, 0, 1, 0, 0, 1], [0, 0, 1, 0, 0,
         1], [0, 0, 0, 0, 0, 0]], dcCoefMinus8 := [[(-2), (-2), 0, 1, 8, 0], [(-2), 0, 0, 1, 0,
         0], [0, 0, 0, 0, 0, 0], [0, 0, 0, 0, 0, 0]] } : Verif.H265.ScalingListData)),
      sampleAdaptiveOffsetEnabledFlag := true, shortTermRefPicSets := [({
          } : Verif.H265.RPS), ({
         numNegativePics := 1, deltaPocS0 := [(-1)], usedByCurrPicS0Flag := [true]
       } : Verif.H265.RPS)], vui := (some ({
         videoSignalTypePresentFlag := true, videoFormat := 5,
         colourDescriptionPresentFlag := true, colourPrimaries := 2,
         transferCharacteristics := 2, matrixCoefficients := 2, timingInfo := (some ({
            numUnitsInTick := 100, timeScale := 3000 } : Verif.H265.TimingInfo))
       } : Verif.H265.VUI)) } : Verif.H265.SPS)
#guard (({} : H265.SPS).unmarshal video43 >>= fun s => s.width) = .ok 2048
#guard (({} : H265.SPS).unmarshal video43 >>= fun s => s.height) = .ok 1536

/-! `pkg/codecs/vp9/*_test.go` -/

/-- header: chrome webrtc -/
def video44 : Bytes :=
  [130, 73, 131, 66, 0, 119, 240, 50, 52, 48, 56, 36, 28, 25, 64, 24, 3, 64, 95, 180]

#guard ({} : VP9.Header).unmarshal video44 = .ok ({
      showFrame := true, colorConfig := (some ({
         tenOrTwelveBit := false, bitDepth := 8, colorSpace := 0, colorRange := false,
         subsamplingX := true, subsamplingY := true } : Verif.VP9.ColorConfig)),
      frameSize := (some ({
         widthMinus1 := 1919, heightMinus1 := 803 } : Verif.VP9.FrameSize)) } : Verif.VP9.Header)
#guard (({} : VP9.Header).unmarshal video44 >>= fun h => .ok (h.width, h.height)) = .ok (1920,
   804)

/-- header: vp9 sample -/
def video45 : Bytes :=
  [130, 73, 131, 66, 64, 239, 240, 134, 244, 4, 33, 160, 224, 0, 48, 112, 0, 0, 0, 1]

#guard ({} : VP9.Header).unmarshal video45 = .ok ({
      showFrame := true, colorConfig := (some ({
         tenOrTwelveBit := false, bitDepth := 8, colorSpace := 2, colorRange := false,
         subsamplingX := true, subsamplingY := true } : Verif.VP9.ColorConfig)),
      frameSize := (some ({
         widthMinus1 := 3839, heightMinus1 := 2159 } : Verif.VP9.FrameSize))
    } : Verif.VP9.Header)
#guard (({} : VP9.Header).unmarshal video45 >>= fun h => .ok (h.width, h.height)) = .ok (3840,
   2160)

/-! `pkg/codecs/mpeg4video/is_valid_config_test.go` -/

/-- a -/
def video46 : Bytes :=
  [0, 0, 1, 176, 1, 0, 0, 1, 181, 137, 19, 0, 0, 1, 0, 0, 0, 1, 32, 0, 196, 141, 136, 0, 245, 60,
   4, 135, 20, 67, 0, 0, 1, 178, 76, 97, 118, 99, 54, 48, 46, 50, 51, 46, 49, 48, 48]

#guard MPEG4Video.isValidConfig video46 = .ok ()

/-- b -/
def video47 : Bytes :=
  [0, 0, 1, 176, 1, 0, 0, 1, 181, 137, 19, 0, 0, 1, 0, 0, 0, 1, 32, 0, 196, 141, 136, 0, 205, 12,
   4, 36, 20, 99, 0, 0, 1, 178, 76, 97, 118, 99, 53, 50, 46, 53, 57, 46, 48]

#guard MPEG4Video.isValidConfig video47 = .ok ()

/-! `pkg/codecs/jpeg/*_test.go` -/

/-- DHT: base -/
def video48 : Bytes :=
  [255, 196, 0, 7, 67, 1, 2, 3, 4]

#guard JPEG.dhtMarshal ({
      codes := [1, 2], symbols := [3, 4], tableNumber := 3, tableClass := 4
    } : Verif.JPEG.DefineHuffmanTable) = video48

/-- DQT: base -/
def video49 : Bytes :=
  [255, 219, 0, 132, 4, 1, 2, 3, 4, 1, 2, 3, 4, 1, 2, 3, 4, 1, 2, 3, 4, 1, 2, 3, 4, 1, 2, 3, 4,
   1, 2, 3, 4, 1, 2, 3, 4, 1, 2, 3, 4, 1, 2, 3, 4, 1, 2, 3, 4, 1, 2, 3, 4, 1, 2, 3, 4, 1, 2, 3,
   4, 1, 2, 3, 4, 1, 2, 3, 4, 5, 5, 6, 7, 8, 5, 6, 7, 8, 5, 6, 7, 8, 5, 6, 7, 8, 5, 6, 7, 8, 5,
   6, 7, 8, 5, 6, 7, 8, 5, 6, 7, 8, 5, 6, 7, 8, 5, 6, 7, 8, 5, 6, 7, 8, 5, 6, 7, 8, 5, 6, 7, 8,
   5, 6, 7, 8, 5, 6, 7, 8, 5, 6, 7, 8]

#guard JPEG.dqtUnmarshal (video49.drop 4) [] = .ok [({
      id := 4, precision := 0, data := (List.replicate 16 [1, 2, 3, 4]).flatten
    } : Verif.JPEG.QuantizationTable), ({
      id := 5, precision := 0, data := (List.replicate 16 [5, 6, 7, 8]).flatten
    } : Verif.JPEG.QuantizationTable)]
#guard JPEG.dqtMarshal [({
      id := 4, precision := 0, data := (List.replicate 16 [1, 2, 3, 4]).flatten
    } : Verif.JPEG.QuantizationTable), ({
      id := 5, precision := 0, data := (List.replicate 16 [5, 6, 7, 8]).flatten
    } : Verif.JPEG.QuantizationTable)] = video49

/-- DRI: base -/
def video50 : Bytes :=
  [255, 221, 0, 4, 208, 199]

#guard JPEG.driUnmarshal (video50.drop 4) = .ok 53447

/-- SOF1: base -/
def video51 : Bytes :=
  [255, 192, 0, 17, 8, 2, 88, 3, 32, 3, 0, 34, 0, 1, 17, 1, 2, 17, 1]

#guard (JPEG.sofUnmarshal (video51.drop 4) >>= fun m => .ok { m with quantizationTableCount := 2 }) = .ok ({
      type := 1, width := 800, height := 600, quantizationTableCount := 2
    } : Verif.JPEG.StartOfFrame1)
#guard JPEG.sofMarshal ({
      type := 1, width := 800, height := 600, quantizationTableCount := 2
    } : Verif.JPEG.StartOfFrame1) = video51

/-- SOS: base -/
def video52 : Bytes :=
  [255, 218, 0, 12, 3, 0, 0, 1, 17, 2, 17, 0, 63, 0]

#guard JPEG.sosUnmarshal (video52.drop 4) = .ok ()
#guard JPEG.sosMarshal = video52

-- start_of_image_test.go
#guard JPEG.soiMarshal = [0xff, 0xd8]

/-! ### Frame rates of the same cases -/

#guard ((({} : H264.SPS).unmarshal video24).bind fun s => .ok s.fps) = .ok (.num 8444249301319680 49)
#guard ((({} : H264.SPS).unmarshal video25).bind fun s => .ok s.fps) = .ok (.num 8444249301319680 48)
#guard ((({} : H264.SPS).unmarshal video26).bind fun s => .ok s.fps) = .ok (.num 8444249301319680 48)
#guard ((({} : H264.SPS).unmarshal video27).bind fun s => .ok s.fps) = .ok (.num 8444249301319680 48)
#guard ((({} : H264.SPS).unmarshal video28).bind fun s => .ok s.fps) = .ok (.num 7036874417766400 48)
#guard ((({} : H264.SPS).unmarshal video29).bind fun s => .ok s.fps) = .ok (.num 7036874417766400 48)
#guard ((({} : H264.SPS).unmarshal video30).bind fun s => .ok s.fps) = .ok (.num 5629499534213120 48)
#guard ((({} : H264.SPS).unmarshal video31).bind fun s => .ok s.fps) = .ok (.num 8444249301319680 47)
#guard ((({} : H264.SPS).unmarshal video32).bind fun s => .ok s.fps) = .ok (.num 7036874417766400 48)
#guard ((({} : H264.SPS).unmarshal video33).bind fun s => .ok s.fps) = .ok (.num 7036874417766400 48)
#guard ((({} : H265.SPS).unmarshal video36).bind fun s => .ok s.fps) = .ok (.num 8444249301319680 48)
#guard ((({} : H265.SPS).unmarshal video37).bind fun s => .ok s.fps) = .ok (.num 6748650790265479 48)
#guard ((({} : H265.SPS).unmarshal video38).bind fun s => .ok s.fps) = .ok (.num 8444249301319680 48)
#guard ((({} : H265.SPS).unmarshal video39).bind fun s => .ok s.fps) = .ok (.num 8435805052018360 48)
#guard ((({} : H265.SPS).unmarshal video40).bind fun s => .ok s.fps) = .ok (.num 8444249301319680 47)
#guard ((({} : H265.SPS).unmarshal video41).bind fun s => .ok s.fps) = .ok (.num 4785074604081152 48)
#guard ((({} : H265.SPS).unmarshal video42).bind fun s => .ok s.fps) = .ok (.num 7036874417766400 47)
#guard ((({} : H265.SPS).unmarshal video43).bind fun s => .ok s.fps) = .ok (.num 8444249301319680 48)

end Verif.Tests
