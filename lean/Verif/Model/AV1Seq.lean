import Verif.Model.AV1
import Verif.Model.BitM

/-!
# AV1 sequence header (pkg/codecs/av1/sequence_header.go)

Unsigned fields are natural numbers; what is read has at most as many bits as the field. Every decoder works on a struct
that may have been used before: fields that are not assigned keep their value.
-/

namespace Verif.AV1
open Verif.BitM

/-- pkg/codecs/av1/sequence_header.go:55-68 (`SequenceHeader_ColorConfig`). -/
structure ColorConfig where
  highBitDepth : Bool := false
  twelveBit : Bool := false
  bitDepth : Nat := 0
  monoChrome : Bool := false
  colorDescriptionPresentFlag : Bool := false
  colorPrimaries : Nat := 0
  transferCharacteristics : Nat := 0
  matrixCoefficients : Nat := 0
  colorRange : Bool := false
  subsamplingX : Bool := false
  subsamplingY : Bool := false
  chromaSamplePosition : Nat := 0
  deriving Repr, DecidableEq

/-- sequence_header.go:111-118: the color description. -/
def readDescription : BitM (Nat × Nat × Nat) := do
  hasSpace 24
  let p ← readBitsU 8
  let t ← readBitsU 8
  let m ← readBitsU 8
  pure (p, t, m)

/-- sequence_header.go:158-170: the subsampling flags of 12-bit video of profile 2 and above. -/
def readSubsampling12 : BitM (Bool × Bool) := do
  let x ← readFlag
  let y ← cond x readFlag false
  pure (x, y)

/-- sequence_header.go:147-175: the `switch` on the profile. -/
def readSubsampling (profile depth : Nat) : BitM (Bool × Bool) :=
  if profile = 0 then pure (true, true)
  else if profile = 1 then pure (false, false)
  else if depth = 12 then readSubsampling12
  else pure (true, false)

/-- sequence_header.go:127-134: monochrome video. -/
def readMono (c : ColorConfig) : BitM ColorConfig := do
  let range ← readFlag
  pure { c with colorRange := range, subsamplingX := true, subsamplingY := true, chromaSamplePosition := 0 }

/-- sequence_header.go:142-184: the `default` of the `switch`. -/
def readColor (c : ColorConfig) (profile : Nat) : BitM ColorConfig := do
  let range ← readFlag
  let s ← readSubsampling profile c.bitDepth
  let csp ← cond (s.1 && s.2) (readBits 2) c.chromaSamplePosition
  pure { c with colorRange := range, subsamplingX := s.1, subsamplingY := s.2, chromaSamplePosition := csp }

/-- sequence_header.go:70-188 (`SequenceHeader_ColorConfig.unmarshal`). -/
def ColorConfig.unmarshal (c : ColorConfig) (profile : Nat) : BitM ColorConfig := do
  let high ← readFlag
  let twelve ← cond (profile == 2 && high) readFlag c.twelveBit
  let depth := if profile = 2 ∧ high = true then (if twelve then 12 else 10)
    else if profile ≤ 2 then (if high then 10 else 8) else c.bitDepth
  let mono ← cond (profile != 1) readFlag false
  let desc ← readFlag
  let d ← cond desc readDescription (2, 2, 2)
  let c := { c with highBitDepth := high, twelveBit := twelve, bitDepth := depth, monoChrome := mono,
                    colorDescriptionPresentFlag := desc, colorPrimaries := d.1, transferCharacteristics := d.2.1,
                    matrixCoefficients := d.2.2 }
  if mono then readMono c
  else if d = (1, 13, 0) then pure { c with colorRange := true, subsamplingX := false, subsamplingY := false }
  else readColor c profile

/-- pkg/codecs/av1/sequence_header.go:191-196 (`SequenceHeader_TimingInfo`). -/
structure TimingInfo where
  numUnitsInDisplayTick : Nat
  timeScale : Nat
  equalPictureInterval : Bool
  numTicksPerPictureMinus1 : Nat
  deriving Repr, DecidableEq

/-- pkg/codecs/av1/sequence_header.go:198-218 (`SequenceHeader_TimingInfo.unmarshal`). -/
def TimingInfo.unmarshal : BitM TimingInfo := do
  hasSpace 65
  let units ← readBitsU 32
  let scale ← readBitsU 32
  let equal ← readFlagU
  let ticks ← cond equal readUE 0
  pure ⟨units, scale, equal, ticks⟩

/-- pkg/codecs/av1/sequence_header.go:222-261 (`SequenceHeader`); `none` is a nil pointer. -/
structure SequenceHeader where
  seqProfile : Nat := 0
  stillPicture : Bool := false
  reducedStillPictureHeader : Bool := false
  timingInfo : Option TimingInfo := none
  decoderModelInfoPresentFlag : Bool := false
  initialDisplayDelayPresentFlag : Bool := false
  operatingPointsCntMinus1 : Nat := 0
  operatingPointIdc : List Nat := []
  seqLevelIdx : List Nat := []
  seqTier : List Bool := []
  decoderModelPresentForThisOp : List Bool := []
  initialDisplayPresentForThisOp : List Bool := []
  initialDisplayDelayMinus1 : List Nat := []
  maxFrameWidthMinus1 : Nat := 0
  maxFrameHeightMinus1 : Nat := 0
  frameIDNumbersPresentFlag : Bool := false
  deltaFrameIDLengthMinus2 : Nat := 0
  additionalFrameIDLengthMinus1 : Nat := 0
  use128x128Superblock : Bool := false
  enableFilterIntra : Bool := false
  enableIntraEdgeFilter : Bool := false
  enableInterintraCompound : Bool := false
  enableMaskedCompound : Bool := false
  enableWarpedMotion : Bool := false
  enableDualFilter : Bool := false
  enableOrderHint : Bool := false
  enableJntComp : Bool := false
  enableRefFrameMvs : Bool := false
  seqChooseScreenContentTools : Bool := false
  seqForceScreenContentTools : Nat := 0
  seqChooseIntegerMv : Bool := false
  seqForceIntegerMv : Nat := 0
  orderHintBitsMinus1 : Nat := 0
  enableSuperRes : Bool := false
  enableCdef : Bool := false
  enableRestoration : Bool := false
  colorConfig : ColorConfig := {}
  filmGrainParamsPresent : Bool := false
  deriving Repr, DecidableEq

/-- sequence_header.go:298-312: the operating point of a reduced still picture header. -/
def readReducedOps (h : SequenceHeader) : BitM SequenceHeader := do
  hasSpace 5
  let lvl ← readBitsU 5
  pure { h with timingInfo := none, decoderModelInfoPresentFlag := false, initialDisplayDelayPresentFlag := false,
                operatingPointsCntMinus1 := 0, operatingPointIdc := [0], seqLevelIdx := [lvl], seqTier := [false],
                decoderModelPresentForThisOp := [false], initialDisplayPresentForThisOp := [false] }

/-- sequence_header.go:321-333: `timing_info` and `decoder_model_info_present_flag`, which must not be set. -/
def readTiming : BitM (Option TimingInfo) := do
  let t ← TimingInfo.unmarshal
  let d ← readFlag
  if d then fail "decoder_model_info_present_flag is not supported yet" else pure (some t)

/-- sequence_header.go:378-391: the initial display delay, after which the Go code always fails. -/
def readInitialDelay : BitM Unit := do
  let p ← readFlag
  let _ ← cond p (readBits 4) 0
  fail "initial_display_delay_present_flag is not supported yet"

/-- sequence_header.go:355-392: one operating point (idc, level, tier). The flag `decoder_model_info_present_flag` is false
here. -/
def readOp (delay : Bool) : BitM (Nat × Nat × Bool) := do
  hasSpace 17
  let idc ← readBitsU 12
  let lvl ← readBitsU 5
  let tier ← cond (decide (lvl > 7)) readFlag false
  let _ ← cond delay readInitialDelay ()
  pure (idc, lvl, tier)

/-- sequence_header.go:314-393: timing info and operating points. -/
def readOps (h : SequenceHeader) : BitM SequenceHeader := do
  let timing ← readFlag
  let t ← cond timing readTiming none
  hasSpace 6
  let delay ← readFlagU
  let cnt ← readBitsU 5
  let ops ← times (readOp delay) (cnt + 1)
  pure { h with timingInfo := t, decoderModelInfoPresentFlag := false, initialDisplayDelayPresentFlag := delay,
                operatingPointsCntMinus1 := cnt, operatingPointIdc := ops.map (·.1), seqLevelIdx := ops.map (·.2.1),
                seqTier := ops.map (·.2.2), decoderModelPresentForThisOp := List.replicate (cnt + 1) false,
                initialDisplayPresentForThisOp := List.replicate (cnt + 1) false,
                initialDisplayDelayMinus1 := List.replicate (cnt + 1) 0 }

/-- sequence_header.go:297-394. -/
def readOperatingPoints (h : SequenceHeader) : BitM SequenceHeader :=
  if h.reducedStillPictureHeader then readReducedOps h else readOps h

/-- sequence_header.go:396-413: the frame size. -/
def readFrameSize (h : SequenceHeader) : BitM SequenceHeader := do
  hasSpace 8
  let wb ← readBitsU 4
  let hb ← readBitsU 4
  let n1 := wb + 1
  let n2 := hb + 1
  hasSpace (n1 + n2)
  let w ← readBitsU n1
  let v ← readBitsU n2
  pure { h with maxFrameWidthMinus1 := w, maxFrameHeightMinus1 := v }

/-- sequence_header.go:424-430: the lengths of the frame ids. -/
def readIDLengths : BitM (Nat × Nat) := do
  hasSpace 7
  let d ← readBitsU 4
  let a ← readBitsU 3
  pure (d, a)

/-- sequence_header.go:415-432: the frame ids. -/
def readFrameIDs (h : SequenceHeader) : BitM SequenceHeader := do
  let present ← cond (!h.reducedStillPictureHeader) readFlag false
  let r ← cond present readIDLengths (h.deltaFrameIDLengthMinus2, h.additionalFrameIDLengthMinus1)
  pure { h with frameIDNumbersPresentFlag := present, deltaFrameIDLengthMinus2 := r.1, additionalFrameIDLengthMinus1 := r.2 }

/-- sequence_header.go:434-441. -/
def readIntra (h : SequenceHeader) : BitM SequenceHeader := do
  hasSpace 3
  let a ← readFlagU
  let b ← readFlagU
  let c ← readFlagU
  pure { h with use128x128Superblock := a, enableFilterIntra := b, enableIntraEdgeFilter := c }

/-- sequence_header.go:444-452: the inter tools of a reduced still picture header. -/
def reducedTools (h : SequenceHeader) : SequenceHeader :=
  { h with enableInterintraCompound := false, enableMaskedCompound := false, enableWarpedMotion := false,
           enableDualFilter := false, enableOrderHint := false, enableJntComp := false, enableRefFrameMvs := false,
           seqForceScreenContentTools := 2, seqForceIntegerMv := 2 }

/-- sequence_header.go:466-472. -/
def readOrderTools : BitM (Bool × Bool) := do
  hasSpace 2
  let j ← readFlagU
  let r ← readFlagU
  pure (j, r)

/-- sequence_header.go:492-506: `seq_choose_integer_mv` and `seq_force_integer_mv`. -/
def readIntegerMv : BitM (Bool × Nat) := do
  let c ← readFlag
  let f ← cond (!c) (readBits 1) 2
  pure (c, f)

/-- sequence_header.go:454-518: the inter tools. -/
def readTools (h : SequenceHeader) : BitM SequenceHeader := do
  hasSpace 5
  let ic ← readFlagU
  let mc ← readFlagU
  let wm ← readFlagU
  let df ← readFlagU
  let oh ← readFlagU
  let o ← cond oh readOrderTools (h.enableJntComp, h.enableRefFrameMvs)
  let choose ← readFlag
  let force ← cond (!choose) (readBits 1) 2
  let mv ← cond (decide (force > 0)) readIntegerMv (h.seqChooseIntegerMv, 2)
  let ohb ← cond oh (readBits 3) h.orderHintBitsMinus1
  pure { h with enableInterintraCompound := ic, enableMaskedCompound := mc, enableWarpedMotion := wm,
                enableDualFilter := df, enableOrderHint := oh, enableJntComp := o.1, enableRefFrameMvs := o.2,
                seqChooseScreenContentTools := choose, seqForceScreenContentTools := force,
                seqChooseIntegerMv := mv.1, seqForceIntegerMv := mv.2, orderHintBitsMinus1 := ohb }

/-- sequence_header.go:443-519. -/
def readInterTools (h : SequenceHeader) : BitM SequenceHeader :=
  if h.reducedStillPictureHeader then pure (reducedTools h) else readTools h

/-- sequence_header.go:521-540: the filters, the color configuration and the film grain flag. -/
def readLast (h : SequenceHeader) : BitM SequenceHeader := do
  hasSpace 3
  let s ← readFlagU
  let c ← readFlagU
  let r ← readFlagU
  let cc ← h.colorConfig.unmarshal h.seqProfile
  hasSpace 1
  let fg ← readFlagU
  pure { h with enableSuperRes := s, enableCdef := c, enableRestoration := r, colorConfig := cc, filmGrainParamsPresent := fg }

/-- sequence_header.go:286-542: the payload. -/
def SequenceHeader.unmarshalM (h : SequenceHeader) : BitM SequenceHeader := do
  hasSpace 5
  let profile ← readBitsU 3
  let still ← readFlagU
  let reduced ← readFlagU
  let h := { h with seqProfile := profile, stillPicture := still, reducedStillPictureHeader := reduced }
  let h ← readOperatingPoints h
  let h ← readFrameSize h
  let h ← readFrameIDs h
  let h ← readIntra h
  let h ← readInterTools h
  readLast h

/-- sequence_header.go:265-284: the header of the OBU. -/
def obuPayload (buf : Bytes) : Res Bytes := do
  let oh ← obuHeaderUnmarshal buf
  let buf ← sliceFrom buf 1
  if oh.hasSize then do
    let r ← leb128Unmarshal buf
    let buf ← sliceFrom buf r.2
    if buf.length ≠ r.1 then .err "wrong buffer size" else .ok buf
  else .ok buf

/-- pkg/codecs/av1/sequence_header.go:264-543 (`SequenceHeader.Unmarshal`). The type of the OBU is not checked. -/
def SequenceHeader.unmarshal (h : SequenceHeader) (buf : Bytes) : Res SequenceHeader := do
  let buf ← obuPayload buf
  let r ← h.unmarshalM buf 0
  .ok r.1

/-- pkg/codecs/av1/sequence_header.go:546-548 (`Width`); the sum is a `uint32`. -/
def SequenceHeader.width (h : SequenceHeader) : Nat := (h.maxFrameWidthMinus1 + 1) % 2 ^ 32

/-- pkg/codecs/av1/sequence_header.go:551-553 (`Height`). -/
def SequenceHeader.height (h : SequenceHeader) : Nat := (h.maxFrameHeightMinus1 + 1) % 2 ^ 32

end Verif.AV1
