import Verif.Model.H264
import Verif.Model.BitM

/-!
# H264 sequence parameter set (pkg/codecs/h264/sps.go)

`uint32` and smaller unsigned fields are natural numbers, `int32` fields are integers. What is read into a `uint8` or
`uint16` has at most as many bits. `Unmarshal` is modelled on an `SPS` that may have been used before; fields of the struct
after an error are not modelled. `FPS` is in Float64.lean.
-/

namespace Verif.H264
open Verif.BitM

/-- sps.go:20-28: the part of the loop that reads `delta_scale`. Returns `nextScale` and `useDefaultScalingMatrixFlag`. -/
def scalingDelta (j : Nat) (last next : Int) (flag : Bool) : BitM (Int × Bool) :=
  if next ≠ 0 then do
    let d ← readSE
    let next := (Bits.wrapInt32 (last + d + 256)).tmod 256
    pure (next, j == 0 && next == 0)
  else pure (next, flag)

/-- sps.go:19-37: the loop, with `n` rounds left. -/
def scalingLoop : Nat → Nat → Int → Int → Bool → BitM (List Int × Bool)
  | 0, _, _, _, flag => pure ([], flag)
  | n + 1, j, last, next, flag => do
    let r ← scalingDelta j last next flag
    let v := if r.1 = 0 then last else r.1
    let l ← scalingLoop n (j + 1) v r.1 r.2
    pure (v :: l.1, l.2)

/-- pkg/codecs/h264/sps.go:13-40 (`readScalingList`). -/
def readScalingList (size : Nat) : BitM (List Int × Bool) := scalingLoop size 0 8 8 false

/-- pkg/codecs/h264/sps.go:43-54 (`SPS_HRD`). -/
structure HRD where
  cpbCntMinus1 : Nat
  bitRateScale : Nat
  cpbSizeScale : Nat
  bitRateValueMinus1 : List Nat
  cpbSizeValueMinus1 : List Nat
  cbrFlag : List Bool
  initialCpbRemovalDelayLengthMinus1 : Nat
  cpbRemovalDelayLengthMinus1 : Nat
  dpbOutputDelayLengthMinus1 : Nat
  timeOffsetLength : Nat
  deriving Repr, DecidableEq

/-- sps.go:80-93: one round of the loop. -/
def readCpb : BitM (Nat × Nat × Bool) := do
  let b ← readUE
  let c ← readUE
  let f ← readFlag
  pure (b, c, f)

/-- sps.go:72-106. -/
def HRD.unmarshalRest (cnt : Nat) : BitM HRD := do
  let brs ← readBitsU 4
  let css ← readBitsU 4
  let l ← times readCpb (cnt + 1)
  hasSpace 20
  let a ← readBitsU 5
  let b ← readBitsU 5
  let c ← readBitsU 5
  let d ← readBitsU 5
  pure ⟨cnt, brs, css, l.map (·.1), l.map (·.2.1), l.map (·.2.2), a, b, c, d⟩

/-- pkg/codecs/h264/sps.go:56-107 (`SPS_HRD.unmarshal`). -/
def HRD.unmarshal : BitM HRD := do
  let cnt ← readUE
  hasSpace 8
  if cnt > 31 then fail "invalid cpb_cnt_minus1" else HRD.unmarshalRest cnt

/-- pkg/codecs/h264/sps.go:110-114 (`SPS_TimingInfo`). -/
structure TimingInfo where
  numUnitsInTick : Nat := 0
  timeScale : Nat := 0
  fixedFrameRateFlag : Bool := false
  deriving Repr, DecidableEq

/-- pkg/codecs/h264/sps.go:116-127 (`SPS_TimingInfo.unmarshal`). -/
def TimingInfo.unmarshal : BitM TimingInfo := do
  hasSpace 65
  let n ← readBitsU 32
  let t ← readBitsU 32
  let f ← readFlagU
  pure ⟨n, t, f⟩

/-- pkg/codecs/h264/sps.go:130-138 (`SPS_BitstreamRestriction`). -/
structure BitstreamRestriction where
  motionVectorsOverPicBoundariesFlag : Bool := false
  maxBytesPerPicDenom : Nat := 0
  maxBitsPerMbDenom : Nat := 0
  log2MaxMvLengthHorizontal : Nat := 0
  log2MaxMvLengthVertical : Nat := 0
  maxNumReorderFrames : Nat := 0
  maxDecFrameBuffering : Nat := 0
  deriving Repr, DecidableEq

/-- pkg/codecs/h264/sps.go:140-178 (`SPS_BitstreamRestriction.unmarshal`). -/
def BitstreamRestriction.unmarshal : BitM BitstreamRestriction := do
  let a ← readFlag
  let b ← readUE
  let c ← readUE
  let d ← readUE
  let e ← readUE
  let f ← readUE
  let g ← readUE
  pure ⟨a, b, c, d, e, f, g⟩

/-- pkg/codecs/h264/sps.go:181-218 (`SPS_VUI`); `none` is a nil pointer. -/
structure VUI where
  aspectRatioInfoPresentFlag : Bool := false
  aspectRatioIdc : Nat := 0
  sarWidth : Nat := 0
  sarHeight : Nat := 0
  overscanInfoPresentFlag : Bool := false
  overscanAppropriateFlag : Bool := false
  videoSignalTypePresentFlag : Bool := false
  videoFormat : Nat := 0
  videoFullRangeFlag : Bool := false
  colourDescriptionPresentFlag : Bool := false
  colourPrimaries : Nat := 0
  transferCharacteristics : Nat := 0
  matrixCoefficients : Nat := 0
  chromaLocInfoPresentFlag : Bool := false
  chromaSampleLocTypeTopField : Nat := 0
  chromaSampleLocTypeBottomField : Nat := 0
  timingInfo : Option TimingInfo := none
  nalHRD : Option HRD := none
  vclHRD : Option HRD := none
  lowDelayHrdFlag : Bool := false
  picStructPresentFlag : Bool := false
  bitstreamRestriction : Option BitstreamRestriction := none
  deriving Repr, DecidableEq

/-- sps.go:235-242: the extended sample aspect ratio. -/
def readSar : BitM (Nat × Nat) := do
  hasSpace 32
  let w ← readBitsU 16
  let h ← readBitsU 16
  pure (w, h)

/-- sps.go:228-243: the aspect ratio. -/
def readAspectRatio : BitM (Nat × Nat × Nat) := do
  let idc ← readBits 8
  let s ← cond (idc == 255) readSar (0, 0)
  pure (idc, s.1, s.2)

/-- sps.go:273-281: the colour description. -/
def readColourDescription : BitM (Nat × Nat × Nat) := do
  hasSpace 24
  let a ← readBitsU 8
  let b ← readBitsU 8
  let c ← readBitsU 8
  pure (a, b, c)

/-- sps.go:264-282: the video signal type. -/
def readVideoSignal : BitM (Nat × Bool × Bool × Nat × Nat × Nat) := do
  hasSpace 5
  let f ← readBitsU 3
  let r ← readFlagU
  let p ← readFlagU
  let d ← cond p readColourDescription (0, 0, 0)
  pure (f, r, p, d)

/-- sps.go:291-299: the chroma location. -/
def readChromaLoc : BitM (Nat × Nat) := do
  let t ← readUE
  let b ← readUE
  pure (t, b)

/-- A pointer to a new struct. -/
def some' {α} (p : BitM α) : BitM (Option α) := do
  let a ← p
  pure (some a)

/-- pkg/codecs/h264/sps.go:220-367 (`SPS_VUI.unmarshal`), on a new struct. -/
def VUI.unmarshal : BitM VUI := do
  let ar ← readFlag
  let a ← cond ar readAspectRatio (0, 0, 0)
  let os ← readFlag
  let o ← cond os readFlag false
  let vs ← readFlag
  let v ← cond vs readVideoSignal (0, false, false, 0, 0, 0)
  let cl ← readFlag
  let c ← cond cl readChromaLoc (0, 0)
  let tp ← readFlag
  let t ← cond tp (some' TimingInfo.unmarshal) none
  let np ← readFlag
  let n ← cond np (some' HRD.unmarshal) none
  let cp ← readFlag
  let m ← cond cp (some' HRD.unmarshal) none
  let ld ← cond (np || cp) readFlag false
  let ps ← readFlag
  let bp ← readFlag
  let b ← cond bp (some' BitstreamRestriction.unmarshal) none
  pure { aspectRatioInfoPresentFlag := ar, aspectRatioIdc := a.1, sarWidth := a.2.1, sarHeight := a.2.2,
         overscanInfoPresentFlag := os, overscanAppropriateFlag := o, videoSignalTypePresentFlag := vs,
         videoFormat := v.1, videoFullRangeFlag := v.2.1, colourDescriptionPresentFlag := v.2.2.1,
         colourPrimaries := v.2.2.2.1, transferCharacteristics := v.2.2.2.2.1, matrixCoefficients := v.2.2.2.2.2,
         chromaLocInfoPresentFlag := cl, chromaSampleLocTypeTopField := c.1, chromaSampleLocTypeBottomField := c.2,
         timingInfo := t, nalHRD := n, vclHRD := m, lowDelayHrdFlag := ld, picStructPresentFlag := ps,
         bitstreamRestriction := b }

/-- pkg/codecs/h264/sps.go:370-375 (`SPS_FrameCropping`). -/
structure FrameCropping where
  leftOffset : Nat := 0
  rightOffset : Nat := 0
  topOffset : Nat := 0
  bottomOffset : Nat := 0
  deriving Repr, DecidableEq

/-- pkg/codecs/h264/sps.go:377-400 (`SPS_FrameCropping.unmarshal`). -/
def FrameCropping.unmarshal : BitM FrameCropping := do
  let l ← readUE
  let r ← readUE
  let t ← readUE
  let b ← readUE
  pure ⟨l, r, t, b⟩

/-- pkg/codecs/h264/sps.go:404-452 (`SPS`). -/
structure SPS where
  profileIdc : Nat := 0
  constraintSet0Flag : Bool := false
  constraintSet1Flag : Bool := false
  constraintSet2Flag : Bool := false
  constraintSet3Flag : Bool := false
  constraintSet4Flag : Bool := false
  constraintSet5Flag : Bool := false
  levelIdc : Nat := 0
  id : Nat := 0
  chromaFormatIdc : Nat := 0
  separateColourPlaneFlag : Bool := false
  bitDepthLumaMinus8 : Nat := 0
  bitDepthChromaMinus8 : Nat := 0
  qpprimeYZeroTransformBypassFlag : Bool := false
  scalingList4x4 : List (List Int) := []
  useDefaultScalingMatrix4x4Flag : List Bool := []
  scalingList8x8 : List (List Int) := []
  useDefaultScalingMatrix8x8Flag : List Bool := []
  log2MaxFrameNumMinus4 : Nat := 0
  picOrderCntType : Nat := 0
  log2MaxPicOrderCntLsbMinus4 : Nat := 0
  deltaPicOrderAlwaysZeroFlag : Bool := false
  offsetForNonRefPic : Int := 0
  offsetForTopToBottomField : Int := 0
  offsetForRefFrames : List Int := []
  maxNumRefFrames : Nat := 0
  gapsInFrameNumValueAllowedFlag : Bool := false
  picWidthInMbsMinus1 : Nat := 0
  picHeightInMapUnitsMinus1 : Nat := 0
  frameMbsOnlyFlag : Bool := false
  mbAdaptiveFrameFieldFlag : Bool := false
  direct8x8InferenceFlag : Bool := false
  frameCropping : Option FrameCropping := none
  vui : Option VUI := none
  deriving Repr, DecidableEq

/-- sps.go:534-564: one round of the loop; `none` when the list is not present. -/
def readScalingEntry (i : Nat) : BitM (Option (List Int × Bool)) := do
  let p ← readFlag
  cond p (some' (readScalingList (if i < 6 then 16 else 64))) none

/-- sps.go:541-551: what the loop appends to `ScalingList4x4` and `UseDefaultScalingMatrix4x4Flag`. -/
def lists4x4 (l : List (Option (List Int × Bool))) : List (List Int × Bool) := (l.take 6).filterMap id

/-- sps.go:552-563: what the loop appends to `ScalingList8x8` and `UseDefaultScalingMatrix8x8Flag`. -/
def lists8x8 (l : List (Option (List Int × Bool))) : List (List Int × Bool) := (l.drop 6).filterMap id

/-- sps.go:526-565: the scaling matrix. The loop is modelled as a loop that collects all the entries; those of the first six
rounds are then appended to one pair of lists, the others to the other one. -/
def readScalingMatrix (chroma : Nat) : BitM (List (Option (List Int × Bool))) :=
  each readScalingEntry (List.range (if chroma ≠ 3 then 8 else 12))

/-- sps.go:490-566: the fields of the high profiles. -/
def readHigh (s : SPS) : BitM SPS := do
  let chroma ← readUE
  let sep ← cond (chroma == 3) readFlag false
  let luma ← readUE
  let chr ← readUE
  let q ← readFlag
  let p ← readFlag
  let m ← cond p (readScalingMatrix chroma) []
  pure { s with chromaFormatIdc := chroma, separateColourPlaneFlag := sep, bitDepthLumaMinus8 := luma,
                bitDepthChromaMinus8 := chr, qpprimeYZeroTransformBypassFlag := q,
                scalingList4x4 := s.scalingList4x4 ++ (lists4x4 m).map (·.1),
                useDefaultScalingMatrix4x4Flag := s.useDefaultScalingMatrix4x4Flag ++ (lists4x4 m).map (·.2),
                scalingList8x8 := s.scalingList8x8 ++ (lists8x8 m).map (·.1),
                useDefaultScalingMatrix8x8Flag := s.useDefaultScalingMatrix8x8Flag ++ (lists8x8 m).map (·.2) }

/-- sps.go:489: the profiles of the first case. -/
def highProfiles : List Nat := [100, 110, 122, 244, 44, 83, 86, 118, 128, 138, 139, 134, 135]

/-- sps.go:488-574: the `switch` on the profile. -/
def readChroma (s : SPS) : BitM SPS :=
  if s.profileIdc ∈ highProfiles then readHigh s
  else pure { s with chromaFormatIdc := 1, separateColourPlaneFlag := false, bitDepthLumaMinus8 := 0,
                     bitDepthChromaMinus8 := 0, qpprimeYZeroTransformBypassFlag := false }

/-- pkg/codecs/h264/sps.go:9-11 (`maxRefFrames`). -/
def maxRefFrames : Nat := 255

/-- sps.go:622-632: the offsets. -/
def readOffsets (n : Nat) : BitM (List Int) :=
  if n > maxRefFrames then fail "num_ref_frames_in_pic_order_cnt_cycle exceeds 255" else times readSE n

/-- sps.go:598-632: picture order count type 1. -/
def readPoc1 (s : SPS) : BitM SPS := do
  let z ← readFlag
  let a ← readSE
  let b ← readSE
  let n ← readUE
  let l ← readOffsets n
  pure { s with log2MaxPicOrderCntLsbMinus4 := 0, deltaPicOrderAlwaysZeroFlag := z, offsetForNonRefPic := a,
                offsetForTopToBottomField := b, offsetForRefFrames := l }

/-- sps.go:587-596: picture order count type 0. -/
def readPoc0 (s : SPS) : BitM SPS := do
  let l ← readUE
  pure { s with log2MaxPicOrderCntLsbMinus4 := l, deltaPicOrderAlwaysZeroFlag := false, offsetForNonRefPic := 0,
                offsetForTopToBottomField := 0, offsetForRefFrames := [] }

/-- sps.go:576-646. -/
def readPoc (s : SPS) : BitM SPS := do
  let f ← readUE
  let t ← readUE
  let s := { s with log2MaxFrameNumMinus4 := f, picOrderCntType := t }
  if t = 0 then readPoc0 s
  else if t = 1 then readPoc1 s
  else if t = 2 then
    pure { s with log2MaxPicOrderCntLsbMinus4 := 0, deltaPicOrderAlwaysZeroFlag := false, offsetForNonRefPic := 0,
                  offsetForTopToBottomField := 0, offsetForRefFrames := [] }
  else fail ("invalid pic_order_cnt_type: " ++ toString t)

/-- sps.go:648-717. -/
def readFrame (s : SPS) : BitM SPS := do
  let m ← readUE
  let g ← readFlag
  let w ← readUE
  let h ← readUE
  let f ← readFlag
  let a ← cond (!f) readFlag false
  let d ← readFlag
  let cp ← readFlag
  let c ← cond cp (some' FrameCropping.unmarshal) none
  let vp ← readFlag
  let v ← cond vp (some' VUI.unmarshal) none
  pure { s with maxNumRefFrames := m, gapsInFrameNumValueAllowedFlag := g, picWidthInMbsMinus1 := w,
                picHeightInMapUnitsMinus1 := h, frameMbsOnlyFlag := f, mbAdaptiveFrameFieldFlag := a,
                direct8x8InferenceFlag := d, frameCropping := c, vui := v }

/-- sps.go:479-717: everything after the level. -/
def SPS.unmarshalM (s : SPS) : BitM SPS := do
  let id ← readUE
  let s ← readChroma { s with id := id }
  let s ← readPoc s
  readFrame s

/-- sps.go:466-717: the payload. -/
def SPS.unmarshalRBSP (s : SPS) (buf : Bytes) : Res SPS := do
  if buf.length < 3 then .err "not enough bits"
  else do
    let b0 ← idx buf 0
    let b1 ← idx buf 1
    let b2 ← idx buf 2
    let s := { s with profileIdc := b0.toNat, constraintSet0Flag := (b1 >>> 7) == 1,
                      constraintSet1Flag := (b1 >>> 6 &&& 0x01) == 1, constraintSet2Flag := (b1 >>> 5 &&& 0x01) == 1,
                      constraintSet3Flag := (b1 >>> 4 &&& 0x01) == 1, constraintSet4Flag := (b1 >>> 3 &&& 0x01) == 1,
                      constraintSet5Flag := (b1 >>> 2 &&& 0x01) == 1, levelIdc := b2.toNat }
    let buf ← sliceFrom buf 3
    let r ← s.unmarshalM buf 0
    .ok r.1

/-- pkg/codecs/h264/sps.go:455-718 (`SPS.Unmarshal`). -/
def SPS.unmarshal (s : SPS) (buf : Bytes) : Res SPS := do
  if buf.length < 1 then .err "not enough bits"
  else do
    let b ← idx buf 0
    if b &&& 0x1F ≠ 7 then .err "not a SPS"
    else do
      let buf ← sliceFrom buf 1
      let buf ← emulationPreventionRemove buf
      s.unmarshalRBSP buf

/-- `uint32` subtraction. -/
def sub32 (a b : Nat) : Nat := (a + (2 ^ 32 - b % 2 ^ 32)) % 2 ^ 32

/-- sps.go:722-732 (`subWidthC`). -/
def SPS.subWidthC (s : SPS) : Nat :=
  if s.chromaFormatIdc = 1 ∧ s.separateColourPlaneFlag = false then 2
  else if s.chromaFormatIdc = 2 ∧ s.separateColourPlaneFlag = false then 2
  else if s.chromaFormatIdc = 3 ∧ s.separateColourPlaneFlag = false then 1
  else 0

/-- sps.go:734-739 (`chromaArrayType`). -/
def SPS.chromaArrayType (s : SPS) : Nat := if s.separateColourPlaneFlag = false then s.chromaFormatIdc else 0

/-- pkg/codecs/h264/sps.go:721-755 (`Width`), in `uint32` arithmetic. -/
def SPS.width (s : SPS) : Nat :=
  let cropUnitX := if s.chromaArrayType = 0 then 0 else s.subWidthC
  let w := (s.picWidthInMbsMinus1 + 1) * 16 % 2 ^ 32
  match s.frameCropping with
  | some c => sub32 w (cropUnitX * (c.leftOffset + c.rightOffset))
  | none => w

/-- sps.go:759-769 (`subHeightC`). -/
def SPS.subHeightC (s : SPS) : Nat :=
  if s.chromaFormatIdc = 1 ∧ s.separateColourPlaneFlag = false then 2
  else if s.chromaFormatIdc = 2 ∧ s.separateColourPlaneFlag = false then 1
  else if s.chromaFormatIdc = 3 ∧ s.separateColourPlaneFlag = false then 1
  else 0

/-- pkg/codecs/h264/sps.go:758-800 (`Height`), in `uint32` arithmetic. -/
def SPS.height (s : SPS) : Nat :=
  let fields := if s.frameMbsOnlyFlag then 1 else 2
  let cropUnitY := if s.chromaArrayType = 0 then fields else s.subHeightC * fields
  let mbs := fields * (s.picHeightInMapUnitsMinus1 + 1)
  match s.frameCropping with
  | some c => sub32 (16 * mbs % 2 ^ 32) (cropUnitY * (c.topOffset + c.bottomOffset))
  | none => mbs * 16 % 2 ^ 32

end Verif.H264
