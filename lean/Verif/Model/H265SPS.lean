import Verif.Model.H264SPS

/-!
# H265 sequence and picture parameter sets (pkg/codecs/h265/sps.go, pps.go)

`uint32` and smaller unsigned fields are natural numbers, `int32` fields are integers with explicit wrap-around. What is read
into a `uint8` or `uint16` has at most as many bits, unless stated. Go arrays are lists. `Unmarshal` is modelled on an `SPS`
that may have been used before; fields of the struct after an error are not modelled. `FPS` is in Float64.lean.
-/

namespace Verif.H265
open Verif.BitM
open Verif.H264 (some' sub32)
open Verif.Bits (wrapInt32 toInt32)

/-- pkg/codecs/h265/sps.go:31-35 (`SPS_ScalingListData`); four rows of six. -/
structure ScalingListData where
  predModeFlag : List (List Bool)
  predMatrixIDDelta : List (List Nat)
  dcCoefMinus8 : List (List Int)
  deriving Repr, DecidableEq

/-- sps.go:59-75: the coefficients of a list. -/
def readCoefs (sizeID : Nat) : BitM (Bool × Nat × Int) := do
  let dc ← cond (decide (sizeID > 1)) readSE 0
  let _ ← times readSE (min 64 (1 <<< (4 + (sizeID <<< 1))))
  pure (true, 0, dc)

/-- sps.go:53-57: the identifier of the list that is copied. -/
def readMatrixDelta : BitM (Bool × Nat × Int) := do
  let d ← readUE
  pure (false, d, 0)

/-- sps.go:47-76: one round of the inner loop. -/
def readScaling (sizeID : Nat) : BitM (Bool × Nat × Int) := do
  let f ← readFlag
  if !f then readMatrixDelta else readCoefs sizeID

/-- An entry that is not read. -/
def noScaling : Bool × Nat × Int := (false, 0, 0)

/-- pkg/codecs/h265/sps.go:37-79 (`SPS_ScalingListData.unmarshal`), on a new struct. With `sizeID == 3`, matrices 0 and 3 are
read. `ScalingListDcCoefMinus8` is indexed with `sizeID - 2`. -/
def ScalingListData.unmarshal : BitM ScalingListData := do
  let r0 ← times (readScaling 0) 6
  let r1 ← times (readScaling 1) 6
  let r2 ← times (readScaling 2) 6
  let a ← readScaling 3
  let b ← readScaling 3
  let r3 := [a, noScaling, noScaling, b, noScaling, noScaling]
  pure { predModeFlag := [r0, r1, r2, r3].map fun r => r.map (·.1),
         predMatrixIDDelta := [r0, r1, r2, r3].map fun r => r.map (·.2.1),
         dcCoefMinus8 := [r2.map (·.2.2), r3.map (·.2.2), List.replicate 6 0, List.replicate 6 0] }

/-- pkg/codecs/h265/sps.go:82-87 (`SPS_Window`). -/
structure Window where
  leftOffset : Nat := 0
  rightOffset : Nat := 0
  topOffset : Nat := 0
  bottomOffset : Nat := 0
  deriving Repr, DecidableEq

/-- pkg/codecs/h265/sps.go:89-112 (`SPS_Window.unmarshal`). -/
def Window.unmarshal : BitM Window := do
  let l ← readUE
  let r ← readUE
  let t ← readUE
  let b ← readUE
  pure ⟨l, r, t, b⟩

/-- pkg/codecs/h265/sps.go:115-122 (`SPS_TimingInfo`). -/
structure TimingInfo where
  numUnitsInTick : Nat := 0
  timeScale : Nat := 0
  pocProportionalToTimingFlag : Bool := false
  numTicksPOCDiffOneMinus1 : Nat := 0
  deriving Repr, DecidableEq

/-- pkg/codecs/h265/sps.go:124-142 (`SPS_TimingInfo.unmarshal`). -/
def TimingInfo.unmarshal : BitM TimingInfo := do
  hasSpace 65
  let n ← readBitsU 32
  let t ← readBitsU 32
  let f ← readFlagU
  let d ← cond f readUE 0
  pure ⟨n, t, f, d⟩

/-- pkg/codecs/h265/sps.go:145-180 (`SPS_VUI`); `none` is a nil pointer. -/
structure VUI where
  aspectRatioInfoPresentFlag : Bool := false
  aspectRatioIdc : Nat := 0
  sarWidth : Nat := 0
  sarHeight : Nat := 0
  overscanInfoPresentFlag : Bool := false
  overscanAppropriateFlag : Bool := false
  videoSignalTypePresentFlag : Bool := false
  videoFormat : Nat := 0
  videoFullRangeFlag : Bool := false
  colourDescriptionPresentFlag : Bool := false
  colourPrimaries : Nat := 0
  transferCharacteristics : Nat := 0
  matrixCoefficients : Nat := 0
  chromaLocInfoPresentFlag : Bool := false
  chromaSampleLocTypeTopField : Nat := 0
  chromaSampleLocTypeBottomField : Nat := 0
  neutralChromaIndicationFlag : Bool := false
  fieldSeqFlag : Bool := false
  frameFieldInfoPresentFlag : Bool := false
  defaultDisplayWindow : Option Window := none
  timingInfo : Option TimingInfo := none
  deriving Repr, DecidableEq

/-- sps.go:197-205: the extended sample aspect ratio. -/
def readSar : BitM (Nat × Nat) := do
  hasSpace 32
  let w ← readBitsU 16
  let h ← readBitsU 16
  pure (w, h)

/-- sps.go:190-206: the aspect ratio. -/
def readAspectRatio : BitM (Nat × Nat × Nat) := do
  let idc ← readBits 8
  let s ← cond (idc == 255) readSar (0, 0)
  pure (idc, s.1, s.2)

/-- sps.go:235-244: the colour description. -/
def readColourDescription : BitM (Nat × Nat × Nat) := do
  hasSpace 24
  let a ← readBitsU 8
  let b ← readBitsU 8
  let c ← readBitsU 8
  pure (a, b, c)

/-- sps.go:226-245: the video signal type. -/
def readVideoSignal : BitM (Nat × Bool × Bool × Nat × Nat × Nat) := do
  hasSpace 5
  let f ← readBitsU 3
  let r ← readFlagU
  let p ← readFlagU
  let d ← cond p readColourDescription (0, 0, 0)
  pure (f, r, p, d)

/-- sps.go:253-262: the chroma location. -/
def readChromaLoc : BitM (Nat × Nat) := do
  let t ← readUE
  let b ← readUE
  pure (t, b)

/-- pkg/codecs/h265/sps.go:182-310 (`SPS_VUI.unmarshal`), on a new struct. -/
def VUI.unmarshal : BitM VUI := do
  let ar ← readFlag
  let a ← cond ar readAspectRatio (0, 0, 0)
  let os ← readFlag
  let o ← cond os readFlag false
  let vs ← readFlag
  let v ← cond vs readVideoSignal (0, false, false, 0, 0, 0)
  let cl ← readFlag
  let c ← cond cl readChromaLoc (0, 0)
  let nc ← readFlag
  let fs ← readFlag
  let ff ← readFlag
  let wp ← readFlag
  let w ← cond wp (some' Window.unmarshal) none
  let tp ← readFlag
  let t ← cond tp (some' TimingInfo.unmarshal) none
  pure { aspectRatioInfoPresentFlag := ar, aspectRatioIdc := a.1, sarWidth := a.2.1, sarHeight := a.2.2,
         overscanInfoPresentFlag := os, overscanAppropriateFlag := o, videoSignalTypePresentFlag := vs,
         videoFormat := v.1, videoFullRangeFlag := v.2.1, colourDescriptionPresentFlag := v.2.2.1,
         colourPrimaries := v.2.2.2.1, transferCharacteristics := v.2.2.2.2.1, matrixCoefficients := v.2.2.2.2.2,
         chromaLocInfoPresentFlag := cl, chromaSampleLocTypeTopField := c.1, chromaSampleLocTypeBottomField := c.2,
         neutralChromaIndicationFlag := nc, fieldSeqFlag := fs, frameFieldInfoPresentFlag := ff,
         defaultDisplayWindow := w, timingInfo := t }

/-- pkg/codecs/h265/sps.go:313-335 (`SPS_ProfileTierLevel`). -/
structure ProfileTierLevel where
  generalProfileSpace : Nat := 0
  generalTierFlag : Nat := 0
  generalProfileIdc : Nat := 0
  generalProfileCompatibilityFlag : List Bool := List.replicate 32 false
  generalProgressiveSourceFlag : Bool := false
  generalInterlacedSourceFlag : Bool := false
  generalNonPackedConstraintFlag : Bool := false
  generalFrameOnlyConstraintFlag : Bool := false
  generalMax12bitConstraintFlag : Bool := false
  generalMax10bitConstraintFlag : Bool := false
  generalMax8bitConstraintFlag : Bool := false
  generalMax422ChromeConstraintFlag : Bool := false
  generalMax420ChromaConstraintFlag : Bool := false
  generalMaxMonochromeConstraintFlag : Bool := false
  generalIntraConstraintFlag : Bool := false
  generalOnePictureOnlyConstraintFlag : Bool := false
  generalLowerBitRateConstraintFlag : Bool := false
  generalMax14BitConstraintFlag : Bool := false
  generalLevelIdc : Nat := 0
  subLayerProfilePresentFlag : List Bool := []
  subLayerLevelPresentFlag : List Bool := []
  deriving Repr, DecidableEq

/-- sps.go:365-372: the condition of `GeneralMax14BitConstraintFlag`. -/
def hasMax14 (idc : Nat) (compat : List Bool) : Bool :=
  idc == 5 || idc == 9 || idc == 10 || idc == 11 ||
  compat.getD 5 false || compat.getD 9 false || compat.getD 10 false || compat.getD 11 false

/-- sps.go:365-377: `GeneralMax14BitConstraintFlag`, that is left as it was in the other case. -/
def readMax14 (c old : Bool) : BitM Bool :=
  if c then do
    let f ← readFlagU
    skip 34
    pure f
  else do
    skip 35
    pure old

/-- sps.go:343-379: what is read after the first check. -/
def ProfileTierLevel.readGeneral (p : ProfileTierLevel) : BitM ProfileTierLevel := do
  let space ← readBitsU 2
  let tier ← readBitsU 1
  let idc ← readBitsU 5
  let compat ← times readFlagU 32
  let a ← readFlagU
  let b ← readFlagU
  let c ← readFlagU
  let d ← readFlagU
  let e ← readFlagU
  let f ← readFlagU
  let g ← readFlagU
  let h ← readFlagU
  let i ← readFlagU
  let j ← readFlagU
  let k ← readFlagU
  let l ← readFlagU
  let m ← readFlagU
  let n ← readMax14 (hasMax14 idc compat) p.generalMax14BitConstraintFlag
  let level ← readBitsU 8
  pure { p with generalProfileSpace := space, generalTierFlag := tier, generalProfileIdc := idc,
                generalProfileCompatibilityFlag := compat, generalProgressiveSourceFlag := a,
                generalInterlacedSourceFlag := b, generalNonPackedConstraintFlag := c,
                generalFrameOnlyConstraintFlag := d, generalMax12bitConstraintFlag := e,
                generalMax10bitConstraintFlag := f, generalMax8bitConstraintFlag := g,
                generalMax422ChromeConstraintFlag := h, generalMax420ChromaConstraintFlag := i,
                generalMaxMonochromeConstraintFlag := j, generalIntraConstraintFlag := k,
                generalOnePictureOnlyConstraintFlag := l, generalLowerBitRateConstraintFlag := m,
                generalMax14BitConstraintFlag := n, generalLevelIdc := level }

/-- sps.go:390-393: one round of the loop. -/
def readSubLayer : BitM (Bool × Bool) := do
  let a ← readFlagU
  let b ← readFlagU
  pure (a, b)

/-- sps.go:405-413: the loop that rejects sub-layers. -/
def checkSubLayers : List (Bool × Bool) → BitM Unit
  | [] => pure ()
  | (p, l) :: t =>
    if p then fail "SubLayerProfilePresentFlag not supported yet"
    else if l then fail "SubLayerLevelPresentFlag not supported yet"
    else checkSubLayers t

/-- sps.go:381-403: the flags of the sub-layers, and the bits that are skipped. -/
def readSubLayers (max : Nat) : BitM (List (Bool × Bool)) := do
  hasSpace (2 * max)
  let l ← times readSubLayer max
  hasSpace ((8 - max) * 2)
  skip ((8 - max) * 2)
  pure l

/-- sps.go:381-413, with `maxSubLayersMinus1 > 0`. -/
def ProfileTierLevel.readSubLayers (p : ProfileTierLevel) (max : Nat) : BitM ProfileTierLevel := do
  let l ← H265.readSubLayers max
  checkSubLayers l
  pure { p with subLayerProfilePresentFlag := l.map (·.1), subLayerLevelPresentFlag := l.map (·.2) }

/-- pkg/codecs/h265/sps.go:337-416 (`SPS_ProfileTierLevel.unmarshal`). The first check asks for 94 bits; 96 are read. -/
def ProfileTierLevel.unmarshal (p : ProfileTierLevel) (max : Nat) : BitM ProfileTierLevel := do
  hasSpace (8 + 32 + 12 + 34 + 8)
  let p ← p.readGeneral
  if max > 0 then p.readSubLayers max else pure p

/-- pkg/codecs/h265/sps.go:419-430 (`SPS_ShortTermRefPicSet`). -/
structure RPS where
  interRefPicSetPredictionFlag : Bool := false
  deltaIdxMinus1 : Nat := 0
  deltaRpsSign : Bool := false
  absDeltaRpsMinus1 : Nat := 0
  numNegativePics : Nat := 0
  numPositivePics : Nat := 0
  deltaPocS0 : List Int := []
  usedByCurrPicS0Flag : List Bool := []
  deltaPocS1 : List Int := []
  usedByCurrPicS1Flag : List Bool := []
  deriving Repr, DecidableEq

/-- sps.go:483-493: one round of the loop that reads `used_by_curr_pic_flag` and `use_delta_flag`. -/
def readUsed : BitM (Bool × Bool) := do
  let used ← readFlag
  let use ← cond (!used) readFlag true
  pure (used, use)

/-- sps.go:507-511 and the bodies of the loops at sps.go:498-505, 513-520, 526-533, 541-548, once `dPoc` is known: what is
appended. The flag is only looked at when the sign is right. -/
def select (neg : Bool) (use used : List Bool) (k : Nat) (dPoc : Int) : Res (Option (Int × Bool)) :=
  if (if neg then dPoc < 0 else dPoc > 0) then do
    let u ← idx use k
    if u then do
      let c ← idx used k
      .ok (some (dPoc, c))
    else .ok none
  else .ok none

/-- The loops at sps.go:498-505, 513-520, 526-533, 541-548, over the given indexes; `off` is the offset of the flags. -/
def gather (neg : Bool) (use used : List Bool) (ref : List Int) (deltaRps : Int) (off : Nat) : List Nat →
    Res (List (Int × Bool))
  | [] => .ok []
  | j :: js => do
    let p ← idx ref j
    let o ← select neg use used (off + j) (wrapInt32 (p + deltaRps))
    let l ← gather neg use used ref deltaRps off js
    .ok (o.toList ++ l)

/-- sps.go:496-522: the negative pictures of a predicted set. `int32(n) - 1` down to 0 is modelled as all the indexes below
`n` in descending order, which is right below `2^31`. -/
def predictS0 (ref : RPS) (deltaRps : Int) (use used : List Bool) : Res (List (Int × Bool)) := do
  let a ← gather true use used ref.deltaPocS1 deltaRps ref.numNegativePics (List.range ref.numPositivePics).reverse
  let b ← select true use used (ref.numNegativePics + ref.numPositivePics) deltaRps
  let c ← gather true use used ref.deltaPocS0 deltaRps 0 (List.range ref.numNegativePics)
  .ok (a ++ b.toList ++ c)

/-- sps.go:524-550: the positive pictures of a predicted set. -/
def predictS1 (ref : RPS) (deltaRps : Int) (use used : List Bool) : Res (List (Int × Bool)) := do
  let a ← gather false use used ref.deltaPocS0 deltaRps 0 (List.range ref.numNegativePics).reverse
  let b ← select false use used (ref.numNegativePics + ref.numPositivePics) deltaRps
  let c ← gather false use used ref.deltaPocS1 deltaRps ref.numNegativePics (List.range ref.numPositivePics)
  .ok (a ++ b.toList ++ c)

/-- sps.go:472-550: the prediction from a set. The number of pictures is the length of a list, so that its sum does not
exceed a `uint32`. -/
def RPS.predict (ref : RPS) (idx : Nat) (sign : Bool) (abs : Nat) (deltaRps : Int) : BitM RPS := do
  let flags ← times readUsed (ref.numNegativePics + ref.numPositivePics + 1)
  let used := flags.map (·.1)
  let use := flags.map (·.2)
  let s0 ← lift (predictS0 ref deltaRps use used)
  let s1 ← lift (predictS1 ref deltaRps use used)
  pure { interRefPicSetPredictionFlag := true, deltaIdxMinus1 := idx, deltaRpsSign := sign, absDeltaRpsMinus1 := abs,
         numNegativePics := s0.length, numPositivePics := s1.length,
         deltaPocS0 := s0.map (·.1), usedByCurrPicS0Flag := s0.map (·.2),
         deltaPocS1 := s1.map (·.1), usedByCurrPicS1Flag := s1.map (·.2) }

/-- sps.go:445-550: the branch with prediction. `none` in `sets` is an entry that is not decoded yet; using it is modelled as
a panic. -/
def RPS.readInter (st num : Nat) (sets : List (Option RPS)) : BitM RPS := do
  let di ← cond (st == num) readUE 0
  let sign ← readFlag
  let abs ← readUE
  let deltaRps := wrapInt32 ((1 - 2 * (if sign then 1 else 0)) * wrapInt32 (toInt32 abs + 1))
  let ref := sub32 st ((di + 1) % 2 ^ 32)
  if ref ≥ sets.length then fail "invalid refRpsIdx"
  else do
    let o ← lift (idx sets ref)
    match o with
    | none => lift .panic
    | some r => r.predict di sign abs deltaRps

/-- sps.go:570-587: the loop of the negative pictures, at index `i`. -/
def readS0 : Nat → Nat → Int → BitM (List (Int × Bool))
  | 0, _, _ => pure []
  | n + 1, i, prev => do
    let v ← readUE
    let d := if i = 0 then wrapInt32 (- toInt32 ((v + 1) % 2 ^ 32)) else wrapInt32 (prev - wrapInt32 (toInt32 v + 1))
    let f ← readFlag
    let l ← readS0 n (i + 1) d
    pure ((d, f) :: l)

/-- sps.go:598-615: the loop of the positive pictures, at index `i`. -/
def readS1 : Nat → Nat → Int → BitM (List (Int × Bool))
  | 0, _, _ => pure []
  | n + 1, i, prev => do
    let v ← readUE
    let d := if i = 0 then wrapInt32 (toInt32 v + 1) else wrapInt32 (wrapInt32 (prev + toInt32 v) + 1)
    let f ← readFlag
    let l ← readS1 n (i + 1) d
    pure ((d, f) :: l)

/-- sps.go:562-588. -/
def readNegative (n : Nat) : BitM (List (Int × Bool)) :=
  if n > 0 then (if n > 255 then fail "num_negative_pics exceeds 255" else readS0 n 0 0) else pure []

/-- sps.go:590-616. -/
def readPositive (n : Nat) : BitM (List (Int × Bool)) :=
  if n > 0 then (if n > 255 then fail "num_positive_pics exceeds 255" else readS1 n 0 0) else pure []

/-- sps.go:552-616: the branch without prediction. -/
def RPS.readIntra : BitM RPS := do
  let neg ← readUE
  let pos ← readUE
  let s0 ← readNegative neg
  let s1 ← readPositive pos
  pure { numNegativePics := neg, numPositivePics := pos,
         deltaPocS0 := s0.map (·.1), usedByCurrPicS0Flag := s0.map (·.2),
         deltaPocS1 := s1.map (·.1), usedByCurrPicS1Flag := s1.map (·.2) }

/-- pkg/codecs/h265/sps.go:432-620 (`SPS_ShortTermRefPicSet.unmarshal`), on a new struct. -/
def RPS.unmarshal (st num : Nat) (sets : List (Option RPS)) : BitM RPS := do
  let inter ← cond (st != 0) readFlag false
  if inter then RPS.readInter st num sets else RPS.readIntra

/-- pkg/codecs/h265/sps.go:624-666 (`SPS`); `none` is a nil pointer. -/
structure SPS where
  vpsID : Nat := 0
  maxSubLayersMinus1 : Nat := 0
  temporalIDNestingFlag : Bool := false
  profileTierLevel : ProfileTierLevel := {}
  id : Nat := 0
  chromaFormatIdc : Nat := 0
  separateColourPlaneFlag : Bool := false
  picWidthInLumaSamples : Nat := 0
  picHeightInLumaSamples : Nat := 0
  conformanceWindow : Option Window := none
  bitDepthLumaMinus8 : Nat := 0
  bitDepthChromaMinus8 : Nat := 0
  log2MaxPicOrderCntLsbMinus4 : Nat := 0
  subLayerOrderingInfoPresentFlag : Bool := false
  maxDecPicBufferingMinus1 : List Nat := []
  maxNumReorderPics : List Nat := []
  maxLatencyIncreasePlus1 : List Nat := []
  log2MinLumaCodingBlockSizeMinus3 : Nat := 0
  log2DiffMaxMinLumaCodingBlockSize : Nat := 0
  log2MinLumaTransformBlockSizeMinus2 : Nat := 0
  log2DiffMaxMinLumaTransformBlockSize : Nat := 0
  maxTransformHierarchyDepthInter : Nat := 0
  maxTransformHierarchyDepthIntra : Nat := 0
  scalingListEnabledFlag : Bool := false
  scalingListData : Option ScalingListData := none
  ampEnabledFlag : Bool := false
  sampleAdaptiveOffsetEnabledFlag : Bool := false
  pcmEnabledFlag : Bool := false
  pcmSampleBitDepthLumaMinus1 : Nat := 0
  pcmSampleBitDepthChromaMinus1 : Nat := 0
  log2MinPcmLumaCodingBlockSizeMinus3 : Nat := 0
  log2DiffMaxMinPcmLumaCodingBlockSize : Nat := 0
  pcmLoopFilterDisabledFlag : Bool := false
  shortTermRefPicSets : List RPS := []
  longTermRefPicsPresentFlag : Bool := false
  temporalMvpEnabledFlag : Bool := false
  strongIntraSmoothingEnabledFlag : Bool := false
  vui : Option VUI := none
  deriving Repr, DecidableEq

/-- sps.go:697-753: the identifier (kept in a `uint8`), the chroma format, the size, the conformance window, the bit depths
and the number of bits of the picture order count. -/
def readFormat (s : SPS) : BitM SPS := do
  let id ← readUE
  let chroma ← readUE
  if chroma > 3 then fail "invalid chroma_format_idc"
  else do
    let sep ← cond (chroma == 3) readFlag s.separateColourPlaneFlag
    let w ← readUE
    let h ← readUE
    let cp ← readFlag
    let c ← cond cp (some' Window.unmarshal) none
    let bl ← readUE
    let bc ← readUE
    let poc ← readUE
    pure { s with id := id % 256, chromaFormatIdc := chroma, separateColourPlaneFlag := sep, picWidthInLumaSamples := w,
                  picHeightInLumaSamples := h, conformanceWindow := c, bitDepthLumaMinus8 := bl,
                  bitDepthChromaMinus8 := bc, log2MaxPicOrderCntLsbMinus4 := poc }

/-- sps.go:775-788: one round of the loop. -/
def readOrderingEntry : BitM (Nat × Nat × Nat) := do
  let a ← readUE
  let b ← readUE
  let c ← readUE
  pure (a, b, c)

/-- sps.go:758-789: the ordering information of the sub-layers; entries before `start` are left at zero. -/
def readOrdering (s : SPS) : BitM SPS := do
  let f ← readFlag
  let start := if f then 0 else s.maxSubLayersMinus1
  let l ← times readOrderingEntry (s.maxSubLayersMinus1 + 1 - start)
  let l := List.replicate start (0, 0, 0) ++ l
  pure { s with subLayerOrderingInfoPresentFlag := f, maxDecPicBufferingMinus1 := l.map (·.1),
                maxNumReorderPics := l.map (·.2.1), maxLatencyIncreasePlus1 := l.map (·.2.2) }

/-- sps.go:827-841: the scaling list data, left as it was when it is not present. -/
def readScalingData (old : Option ScalingListData) : BitM (Option ScalingListData) := do
  let p ← readFlag
  cond p (some' ScalingListData.unmarshal) old

/-- sps.go:858-878: the PCM fields. -/
def readPcm : BitM (Nat × Nat × Nat × Nat × Bool) := do
  hasSpace 8
  let a ← readBitsU 4
  let b ← readBitsU 4
  let c ← readUE
  let d ← readUE
  let e ← readFlag
  pure (a, b, c, d, e)

/-- sps.go:791-879: the coding tools. The scaling list data and the PCM fields are left as they were when they are not
present. -/
def readTools (s : SPS) : BitM SPS := do
  let a ← readUE
  let b ← readUE
  let c ← readUE
  let d ← readUE
  let e ← readUE
  let f ← readUE
  let sl ← readFlag
  let sd ← cond sl (readScalingData s.scalingListData) s.scalingListData
  let amp ← readFlag
  let sao ← readFlag
  let pcm ← readFlag
  let p ← cond pcm readPcm (s.pcmSampleBitDepthLumaMinus1, s.pcmSampleBitDepthChromaMinus1,
    s.log2MinPcmLumaCodingBlockSizeMinus3, s.log2DiffMaxMinPcmLumaCodingBlockSize, s.pcmLoopFilterDisabledFlag)
  pure { s with log2MinLumaCodingBlockSizeMinus3 := a, log2DiffMaxMinLumaCodingBlockSize := b,
                log2MinLumaTransformBlockSizeMinus2 := c, log2DiffMaxMinLumaTransformBlockSize := d,
                maxTransformHierarchyDepthInter := e, maxTransformHierarchyDepthIntra := f,
                scalingListEnabledFlag := sl, scalingListData := sd, ampEnabledFlag := amp,
                sampleAdaptiveOffsetEnabledFlag := sao, pcmEnabledFlag := pcm,
                pcmSampleBitDepthLumaMinus1 := p.1, pcmSampleBitDepthChromaMinus1 := p.2.1,
                log2MinPcmLumaCodingBlockSizeMinus3 := p.2.2.1, log2DiffMaxMinPcmLumaCodingBlockSize := p.2.2.2.1,
                pcmLoopFilterDisabledFlag := p.2.2.2.2 }

/-- sps.go:894-900: the loop, with `n` rounds left and the sets that were decoded. Entries that are not decoded yet are nil
(the one that is being decoded is not, but it is as good as nil). -/
def readSets (num : Nat) : Nat → List RPS → BitM (List RPS)
  | 0, acc => pure acc
  | n + 1, acc => do
    let r ← RPS.unmarshal acc.length num (acc.map some ++ List.replicate (num - acc.length) none)
    readSets num n (acc ++ [r])

/-- sps.go:887-903. -/
def readRefPicSets (num : Nat) : BitM (List RPS) :=
  if num > 0 then (if num > 64 then fail "num_short_term_ref_pic_sets exceeds 64" else readSets num num []) else pure []

/-- sps.go:911-919. -/
def checkLongTerm : BitM Unit := do
  let n ← readUE
  if n > 0 then fail "long term ref pics inside SPS are not supported yet" else pure ()

/-- sps.go:881-947: the reference pictures and the VUI. -/
def readRefs (s : SPS) : BitM SPS := do
  let n ← readUE
  let sets ← readRefPicSets n
  let lt ← readFlag
  cond lt checkLongTerm ()
  let mvp ← readFlag
  let strong ← readFlag
  let vp ← readFlag
  let v ← cond vp (some' VUI.unmarshal) none
  pure { s with shortTermRefPicSets := sets, longTermRefPicsPresentFlag := lt, temporalMvpEnabledFlag := mvp,
                strongIntraSmoothingEnabledFlag := strong, vui := v }

/-- sps.go:681-947, from position 8. -/
def SPS.unmarshalM (s : SPS) : BitM SPS := do
  hasSpace 8
  let vps ← readBitsU 4
  let max ← readBitsU 3
  let nest ← readFlagU
  let p ← s.profileTierLevel.unmarshal max
  let s ← readFormat { s with vpsID := vps, maxSubLayersMinus1 := max, temporalIDNestingFlag := nest, profileTierLevel := p }
  let s ← readOrdering s
  let s ← readTools s
  readRefs s

/-- pkg/codecs/h265/sps.go:669-948 (`SPS.Unmarshal`); `NALUType_SPS_NUT` is 33 (nalu_type.go:38). -/
def SPS.unmarshal (s : SPS) (buf : Bytes) : Res SPS := do
  if buf.length < 2 then .err "not enough bits"
  else do
    let b ← idx buf 0
    if (b >>> 1) &&& 0x3F ≠ 33 then .err "not a SPS"
    else do
      let buf ← sliceFrom buf 1
      let buf ← H264.emulationPreventionRemove buf
      let r ← s.unmarshalM buf 8
      .ok r.1

/-- pkg/codecs/h265/sps.go:16-21 (`subWidthC`). -/
def subWidthC : List Nat := [1, 2, 2, 1]

/-- pkg/codecs/h265/sps.go:23-28 (`subHeightC`). -/
def subHeightC : List Nat := [1, 2, 1, 1]

/-- pkg/codecs/h265/sps.go:951-960 (`Width`), in `uint32` arithmetic. -/
def SPS.width (s : SPS) : Res Nat :=
  match s.conformanceWindow with
  | some c => do
    let u ← idx subWidthC s.chromaFormatIdc
    .ok (sub32 s.picWidthInLumaSamples ((c.leftOffset + c.rightOffset) * u))
  | none => .ok s.picWidthInLumaSamples

/-- pkg/codecs/h265/sps.go:963-972 (`Height`), in `uint32` arithmetic. -/
def SPS.height (s : SPS) : Res Nat :=
  match s.conformanceWindow with
  | some c => do
    let u ← idx subHeightC s.chromaFormatIdc
    .ok (sub32 s.picHeightInLumaSamples ((c.topOffset + c.bottomOffset) * u))
  | none => .ok s.picHeightInLumaSamples

/-- pkg/codecs/h265/pps.go:12-18 (`PPS`). -/
structure PPS where
  id : Nat := 0
  spsID : Nat := 0
  dependentSliceSegmentsEnabledFlag : Bool := false
  outputFlagPresentFlag : Bool := false
  numExtraSliceHeaderBits : Nat := 0
  deriving Repr, DecidableEq

/-- pps.go:33-51, from position 8. -/
def PPS.unmarshalM : BitM PPS := do
  let id ← readUE
  let sps ← readUE
  hasSpace 5
  let d ← readFlagU
  let o ← readFlagU
  let n ← readBitsU 3
  pure ⟨id, sps, d, o, n⟩

/-- pkg/codecs/h265/pps.go:21-54 (`PPS.Unmarshal`), that sets every field; `NALUType_PPS_NUT` is 34 (nalu_type.go:39). -/
def PPS.unmarshal (buf : Bytes) : Res PPS := do
  if buf.length < 2 then .err "not enough bits"
  else do
    let b ← idx buf 0
    if (b >>> 1) &&& 0x3F ≠ 34 then .err "not a PPS"
    else do
      let buf ← sliceFrom buf 1
      let buf ← H264.emulationPreventionRemove buf
      let r ← PPS.unmarshalM buf 8
      .ok r.1

end Verif.H265
