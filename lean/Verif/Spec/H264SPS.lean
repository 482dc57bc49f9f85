import Verif.Model.H264SPS
import Verif.Spec.Grammar
import Verif.Spec.H264

/-!
# H264 sequence parameter set (ITU-T H.264, 7.3.2.1.1, E.1.1, E.1.2) and frame size (7.4.2.1.1)
-/

namespace Verif.Spec.H264
open Verif.H264 (SPS VUI HRD TimingInfo BitstreamRestriction FrameCropping)
open Gr

/-- scaling_list( ) after an element that is not zero: the value stays once `nextScale` is zero. -/
def scalingTail : Nat → Int → Gr (List Int)
  | 0, _ => pure []
  | n + 1, last => do
    let d ← se
    let next := (last + d + 256).tmod 256
    if next = 0 then pure (List.replicate (n + 1) last)
    else do
      let l ← scalingTail n next
      pure (next :: l)

/-- scaling_list( ) of `n + 1` elements: the list and useDefaultScalingMatrixFlag. -/
def scalingList (n : Nat) : Gr (List Int × Bool) := do
  let d ← se
  let first := (8 + d + 256).tmod 256
  if first = 0 then pure (List.replicate (n + 1) 8, true)
  else do
    let l ← scalingTail n first
    pure (first :: l, false)

/-- A structure that is present if the flag before it is set. -/
def optional {α} (G : Gr α) : Gr (Option α) := do
  let present ← flag
  if present then do
    let a ← G
    pure (some a)
  else pure none

/-- The scaling lists that are present among those of the given size. -/
def present (l : List (Option (List Int × Bool))) : List (List Int × Bool) := l.filterMap id

/-- The fields after seq_parameter_set_id in the profiles that have chroma_format_idc. -/
def highFields (s : SPS) : Gr SPS := do
  let chroma ← ue
  let sep ← opt (chroma == 3) flag false
  let luma ← ue
  let chr ← ue
  let bypass ← flag
  let matrix ← flag
  let l4 ← opt matrix (times (optional (scalingList 15)) 6) []
  let l8 ← opt matrix (times (optional (scalingList 63)) (if chroma = 3 then 6 else 2)) []
  pure { s with chromaFormatIdc := chroma, separateColourPlaneFlag := sep, bitDepthLumaMinus8 := luma,
                bitDepthChromaMinus8 := chr, qpprimeYZeroTransformBypassFlag := bypass,
                scalingList4x4 := s.scalingList4x4 ++ (present l4).map (·.1),
                useDefaultScalingMatrix4x4Flag := s.useDefaultScalingMatrix4x4Flag ++ (present l4).map (·.2),
                scalingList8x8 := s.scalingList8x8 ++ (present l8).map (·.1),
                useDefaultScalingMatrix8x8Flag := s.useDefaultScalingMatrix8x8Flag ++ (present l8).map (·.2) }

/-- The profiles that have chroma_format_idc. -/
def HasChroma (profile : Nat) : Prop :=
  profile = 44 ∨ profile = 83 ∨ profile = 86 ∨ profile = 100 ∨ profile = 110 ∨ profile = 118 ∨ profile = 122 ∨
  profile = 128 ∨ profile = 134 ∨ profile = 135 ∨ profile = 138 ∨ profile = 139 ∨ profile = 244

instance (p : Nat) : Decidable (HasChroma p) := by unfold HasChroma; infer_instance

/-- chroma_format_idc and what follows; inferred to be 4:2:0 with 8 bits. -/
def chromaFields (s : SPS) : Gr SPS :=
  if HasChroma s.profileIdc then highFields s
  else pure { s with chromaFormatIdc := 1, separateColourPlaneFlag := false, bitDepthLumaMinus8 := 0,
                     bitDepthChromaMinus8 := 0, qpprimeYZeroTransformBypassFlag := false }

/-- The picture order count; at most 255 offsets. -/
def pocFields (s : SPS) : Gr SPS := do
  let frameNum ← ue
  let type ← ue
  must (type ≤ 2)
  let lsb ← opt (type == 0) ue 0
  let zero ← opt (type == 1) flag false
  let nonRef ← opt (type == 1) se 0
  let topToBottom ← opt (type == 1) se 0
  let cnt ← opt (type == 1) ue 0
  must (cnt ≤ 255)
  let offsets ← times se cnt
  pure { s with log2MaxFrameNumMinus4 := frameNum, picOrderCntType := type, log2MaxPicOrderCntLsbMinus4 := lsb,
                deltaPicOrderAlwaysZeroFlag := zero, offsetForNonRefPic := nonRef,
                offsetForTopToBottomField := topToBottom, offsetForRefFrames := offsets }

/-- frame_crop_left_offset to frame_crop_bottom_offset. -/
def cropping : Gr FrameCropping := do
  let l ← ue
  let r ← ue
  let t ← ue
  let b ← ue
  pure ⟨l, r, t, b⟩

/-- bit_rate_value_minus1, cpb_size_value_minus1, cbr_flag. -/
def schedSel : Gr (Nat × Nat × Bool) := do
  let rate ← ue
  let size ← ue
  let cbr ← flag
  pure (rate, size, cbr)

/-- hrd_parameters( ); cpb_cnt_minus1 is between 0 and 31. -/
def hrd : Gr HRD := do
  let cnt ← ue
  must (cnt ≤ 31)
  let rateScale ← u 4
  let sizeScale ← u 4
  let l ← times schedSel (cnt + 1)
  let a ← u 5
  let b ← u 5
  let c ← u 5
  let d ← u 5
  pure ⟨cnt, rateScale, sizeScale, l.map (·.1), l.map (·.2.1), l.map (·.2.2), a, b, c, d⟩

/-- num_units_in_tick, time_scale, fixed_frame_rate_flag. -/
def timing : Gr TimingInfo := do
  let n ← u 32
  let t ← u 32
  let f ← flag
  pure ⟨n, t, f⟩

/-- motion_vectors_over_pic_boundaries_flag to max_dec_frame_buffering. -/
def restriction : Gr BitstreamRestriction := do
  let a ← flag
  let b ← ue
  let c ← ue
  let d ← ue
  let e ← ue
  let f ← ue
  let g ← ue
  pure ⟨a, b, c, d, e, f, g⟩

/-- vui_parameters( ). -/
def vui : Gr VUI := do
  let aspect ← flag
  let idc ← opt aspect (u 8) 0
  let sarWidth ← opt (idc == 255) (u 16) 0
  let sarHeight ← opt (idc == 255) (u 16) 0
  let overscan ← flag
  let appropriate ← opt overscan flag false
  let signal ← flag
  let format ← opt signal (u 3) 0
  let fullRange ← opt signal flag false
  let colour ← opt signal flag false
  let primaries ← opt colour (u 8) 0
  let transfer ← opt colour (u 8) 0
  let matrix ← opt colour (u 8) 0
  let loc ← flag
  let top ← opt loc ue 0
  let bottom ← opt loc ue 0
  let t ← optional timing
  let n ← optional hrd
  let v ← optional hrd
  let low ← opt (n.isSome || v.isSome) flag false
  let picStruct ← flag
  let r ← optional restriction
  pure { aspectRatioInfoPresentFlag := aspect, aspectRatioIdc := idc, sarWidth := sarWidth, sarHeight := sarHeight,
         overscanInfoPresentFlag := overscan, overscanAppropriateFlag := appropriate, videoSignalTypePresentFlag := signal,
         videoFormat := format, videoFullRangeFlag := fullRange, colourDescriptionPresentFlag := colour,
         colourPrimaries := primaries, transferCharacteristics := transfer, matrixCoefficients := matrix,
         chromaLocInfoPresentFlag := loc, chromaSampleLocTypeTopField := top, chromaSampleLocTypeBottomField := bottom,
         timingInfo := t, nalHRD := n, vclHRD := v, lowDelayHrdFlag := low, picStructPresentFlag := picStruct,
         bitstreamRestriction := r }

/-- max_num_ref_frames to vui_parameters( ). -/
def frameFields (s : SPS) : Gr SPS := do
  let refs ← ue
  let gaps ← flag
  let w ← ue
  let h ← ue
  let mbsOnly ← flag
  let adaptive ← opt (!mbsOnly) flag false
  let direct ← flag
  let crop ← optional cropping
  let v ← optional vui
  pure { s with maxNumRefFrames := refs, gapsInFrameNumValueAllowedFlag := gaps, picWidthInMbsMinus1 := w,
                picHeightInMapUnitsMinus1 := h, frameMbsOnlyFlag := mbsOnly, mbAdaptiveFrameFieldFlag := adaptive,
                direct8x8InferenceFlag := direct, frameCropping := crop, vui := v }

/-- seq_parameter_set_data( ). The scaling lists are added to those of `s`; every other field is set. -/
def spsData (s : SPS) : Gr SPS := do
  let profile ← u 8
  let c0 ← flag
  let c1 ← flag
  let c2 ← flag
  let c3 ← flag
  let c4 ← flag
  let c5 ← flag
  reserved 2
  let level ← u 8
  let id ← ue
  let s ← chromaFields { s with profileIdc := profile, constraintSet0Flag := c0, constraintSet1Flag := c1,
                                constraintSet2Flag := c2, constraintSet3Flag := c3, constraintSet4Flag := c4,
                                constraintSet5Flag := c5, levelIdc := level, id := id }
  let s ← pocFields s
  frameFields s

/-- A NAL unit of type 7 and its RBSP. -/
def IsSPS (buf rbsp : Bytes) : Prop :=
  ∃ (h : UInt8) (rest : Bytes), buf = h :: rest ∧ h.toNat % 32 = 7 ∧ rbsp = epRemove 0 rest

/-- ChromaArrayType. -/
def chromaArrayType (s : SPS) : Nat := if s.separateColourPlaneFlag then 0 else s.chromaFormatIdc

/-- SubWidthC and SubHeightC (table 6-1). -/
def subWidthC (chroma : Nat) : Nat := if chroma = 3 then 1 else 2
def subHeightC (chroma : Nat) : Nat := if chroma = 1 then 2 else 1

/-- CropUnitX and CropUnitY (7-19 to 7-22). -/
def cropUnitX (s : SPS) : Nat := if chromaArrayType s = 0 then 1 else subWidthC s.chromaFormatIdc
def cropUnitY (s : SPS) : Nat :=
  (if chromaArrayType s = 0 then 1 else subHeightC s.chromaFormatIdc) * (if s.frameMbsOnlyFlag then 1 else 2)

/-- The number of cropped columns and rows. -/
def cropColumns (s : SPS) : Nat := (s.frameCropping.map fun c => cropUnitX s * (c.leftOffset + c.rightOffset)).getD 0
def cropRows (s : SPS) : Nat := (s.frameCropping.map fun c => cropUnitY s * (c.topOffset + c.bottomOffset)).getD 0

/-- The size of the decoded frame, before cropping. -/
def frameWidth (s : SPS) : Nat := 16 * (s.picWidthInMbsMinus1 + 1)
def frameHeight (s : SPS) : Nat := 16 * ((if s.frameMbsOnlyFlag then 1 else 2) * (s.picHeightInMapUnitsMinus1 + 1))

end Verif.Spec.H264
