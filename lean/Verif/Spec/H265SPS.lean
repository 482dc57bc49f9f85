import Verif.Model.H265SPS
import Verif.Spec.H264SPS

/-!
# H265 parameter sets (ITU-T H.265, 7.3.2.2.1, 7.3.2.3.1, 7.3.3, 7.3.4, 7.3.7, 7.4.8, E.2.1) and frame size (7.4.3.2.1)
-/

namespace Verif.Spec.H265
open Verif.H265 (SPS VUI TimingInfo Window ProfileTierLevel RPS ScalingListData PPS)
open Verif.Spec.H264 (optional)
open Gr

/-- Kept in 32 bits, as a signed number; the numbers of the standard are smaller. -/
def wrap32 (v : Int) : Int := (v + 2 ^ 31) % 2 ^ 32 - 2 ^ 31

/-- One scaling list of scaling_list_data( ): scaling_list_pred_mode_flag, scaling_list_pred_matrix_id_delta,
scaling_list_dc_coef_minus8. The coefficients are not kept. -/
def scaling (sizeId : Nat) : Gr (Bool × Nat × Int) := do
  let mode ← flag
  let delta ← opt (!mode) ue 0
  let dc ← opt (mode && decide (sizeId ≥ 2)) se 0
  let _ ← times se (if mode then (if sizeId = 0 then 16 else 64) else 0)
  pure (mode, delta, dc)

/-- scaling_list_data( ): six matrices of each size, two of the largest one. -/
def scalingListData : Gr ScalingListData := do
  let r0 ← times (scaling 0) 6
  let r1 ← times (scaling 1) 6
  let r2 ← times (scaling 2) 6
  let a ← scaling 3
  let b ← scaling 3
  let z := (false, 0, 0)
  pure { predModeFlag := [r0.map (·.1), r1.map (·.1), r2.map (·.1), [a.1, false, false, b.1, false, false]],
         predMatrixIDDelta := [r0.map (·.2.1), r1.map (·.2.1), r2.map (·.2.1), [a.2.1, 0, 0, b.2.1, 0, 0]],
         dcCoefMinus8 := [r2.map (·.2.2), [a, z, z, b, z, z].map (·.2.2), [0, 0, 0, 0, 0, 0], [0, 0, 0, 0, 0, 0]] }

/-- Four offsets of a window. -/
def window : Gr Window := do
  let l ← ue
  let r ← ue
  let t ← ue
  let b ← ue
  pure ⟨l, r, t, b⟩

/-- vui_num_units_in_tick to vui_num_ticks_poc_diff_one_minus1. -/
def timing : Gr TimingInfo := do
  let n ← u 32
  let t ← u 32
  let f ← flag
  let d ← opt f ue 0
  pure ⟨n, t, f, d⟩

/-- vui_parameters( ), up to the timing information. -/
def vui : Gr VUI := do
  let aspect ← flag
  let idc ← opt aspect (u 8) 0
  let sarWidth ← opt (idc == 255) (u 16) 0
  let sarHeight ← opt (idc == 255) (u 16) 0
  let overscan ← flag
  let appropriate ← opt overscan flag false
  let signal ← flag
  let format ← opt signal (u 3) 0
  let fullRange ← opt signal flag false
  let colour ← opt signal flag false
  let primaries ← opt colour (u 8) 0
  let transfer ← opt colour (u 8) 0
  let matrix ← opt colour (u 8) 0
  let loc ← flag
  let top ← opt loc ue 0
  let bottom ← opt loc ue 0
  let neutral ← flag
  let fieldSeq ← flag
  let frameField ← flag
  let w ← optional window
  let t ← optional timing
  pure { aspectRatioInfoPresentFlag := aspect, aspectRatioIdc := idc, sarWidth := sarWidth, sarHeight := sarHeight,
         overscanInfoPresentFlag := overscan, overscanAppropriateFlag := appropriate, videoSignalTypePresentFlag := signal,
         videoFormat := format, videoFullRangeFlag := fullRange, colourDescriptionPresentFlag := colour,
         colourPrimaries := primaries, transferCharacteristics := transfer, matrixCoefficients := matrix,
         chromaLocInfoPresentFlag := loc, chromaSampleLocTypeTopField := top, chromaSampleLocTypeBottomField := bottom,
         neutralChromaIndicationFlag := neutral, fieldSeqFlag := fieldSeq, frameFieldInfoPresentFlag := frameField,
         defaultDisplayWindow := w, timingInfo := t }

/-- The profiles with general_max_14bit_constraint_flag. -/
def HasMax14 (idc : Nat) (compat : List Bool) : Prop :=
  idc ∈ [5, 9, 10, 11] ∨ ∃ i ∈ [5, 9, 10, 11], compat[i]? = some true

instance (idc : Nat) (compat : List Bool) : Decidable (HasMax14 idc compat) := by unfold HasMax14; infer_instance

/-- The general part of profile_tier_level( ). The flags from general_max_12bit_constraint_flag to
general_lower_bit_rate_constraint_flag are reserved bits in some profiles. general_inbld_flag is not kept. -/
def general (p : ProfileTierLevel) : Gr ProfileTierLevel := do
  let space ← u 2
  let tier ← u 1
  let idc ← u 5
  let compat ← times flag 32
  let progressive ← flag
  let interlaced ← flag
  let nonPacked ← flag
  let frameOnly ← flag
  let max12 ← flag
  let max10 ← flag
  let max8 ← flag
  let max422 ← flag
  let max420 ← flag
  let mono ← flag
  let intra ← flag
  let one ← flag
  let lower ← flag
  let max14 ← opt (decide (HasMax14 idc compat)) flag p.generalMax14BitConstraintFlag
  reserved (if HasMax14 idc compat then 34 else 35)
  let level ← u 8
  pure { p with generalProfileSpace := space, generalTierFlag := tier, generalProfileIdc := idc,
                generalProfileCompatibilityFlag := compat, generalProgressiveSourceFlag := progressive,
                generalInterlacedSourceFlag := interlaced, generalNonPackedConstraintFlag := nonPacked,
                generalFrameOnlyConstraintFlag := frameOnly, generalMax12bitConstraintFlag := max12,
                generalMax10bitConstraintFlag := max10, generalMax8bitConstraintFlag := max8,
                generalMax422ChromeConstraintFlag := max422, generalMax420ChromaConstraintFlag := max420,
                generalMaxMonochromeConstraintFlag := mono, generalIntraConstraintFlag := intra,
                generalOnePictureOnlyConstraintFlag := one, generalLowerBitRateConstraintFlag := lower,
                generalMax14BitConstraintFlag := max14, generalLevelIdc := level }

/-- profile_tier_level( 1, max ) without information about sub-layers: the two flags of each sub-layer are zero. -/
def profileTierLevel (p : ProfileTierLevel) (max : Nat) : Gr ProfileTierLevel := do
  let p ← general p
  if max = 0 then pure p
  else do
    lit (2 * max) 0
    reserved (2 * (8 - max))
    pure { p with subLayerProfilePresentFlag := List.replicate max false,
                  subLayerLevelPresentFlag := List.replicate max false }

/-- used_by_curr_pic_flag and use_delta_flag. -/
def usedFlags : Gr (Bool × Bool) := do
  let used ← flag
  let use ← opt (!used) flag true
  pure (used, use)

/-- A picture of the set that is predicted, out of a picture of the reference set (or the reference picture itself), that is
kept when it is used and its distance has the right sign. -/
def predicted (deltaRps : Int) (neg : Bool) (x : Int × Bool × Bool) : Option (Int × Bool) :=
  let dPoc := wrap32 (x.1 + deltaRps)
  if x.2.2 = true ∧ (if neg then dPoc < 0 else dPoc > 0) then some (dPoc, x.2.1) else none

/-- The pictures after the current one in the reference set, with their flags. -/
def after (r : RPS) (flags : List (Bool × Bool)) : List (Int × Bool × Bool) := r.deltaPocS1.zip (flags.drop r.deltaPocS0.length)

/-- The pictures before the current one in the reference set, with their flags. -/
def before (r : RPS) (flags : List (Bool × Bool)) : List (Int × Bool × Bool) := r.deltaPocS0.zip flags

/-- The reference picture itself, at distance 0, with the last flags. -/
def self (r : RPS) (flags : List (Bool × Bool)) : List (Int × Bool × Bool) :=
  [(0 : Int)].zip (flags.drop (r.deltaPocS0.length + r.deltaPocS1.length))

/-- (7-61): the pictures before the current one. -/
def predictedS0 (r : RPS) (deltaRps : Int) (flags : List (Bool × Bool)) : List (Int × Bool) :=
  ((after r flags).reverse ++ self r flags ++ before r flags).filterMap (predicted deltaRps true)

/-- (7-62): the pictures after the current one. -/
def predictedS1 (r : RPS) (deltaRps : Int) (flags : List (Bool × Bool)) : List (Int × Bool) :=
  ((before r flags).reverse ++ self r flags ++ after r flags).filterMap (predicted deltaRps false)

/-- st_ref_pic_set( ) with inter_ref_pic_set_prediction_flag, given the sets before it; `inSlice` if it is in the header of
a slice. -/
def interSet (sets : List RPS) (inSlice : Bool) : Gr RPS := do
  let idx ← opt inSlice ue 0
  let sign ← flag
  let abs ← ue
  match sets.reverse[idx]? with
  | none => fun _ _ => False
  | some r => do
    let flags ← times usedFlags (r.deltaPocS0.length + r.deltaPocS1.length + 1)
    let deltaRps := wrap32 (if sign then - (abs + 1) else abs + 1)
    let s0 := predictedS0 r deltaRps flags
    let s1 := predictedS1 r deltaRps flags
    pure { interRefPicSetPredictionFlag := true, deltaIdxMinus1 := idx, deltaRpsSign := sign, absDeltaRpsMinus1 := abs,
           numNegativePics := s0.length, numPositivePics := s1.length,
           deltaPocS0 := s0.map (·.1), usedByCurrPicS0Flag := s0.map (·.2),
           deltaPocS1 := s1.map (·.1), usedByCurrPicS1Flag := s1.map (·.2) }

/-- delta_poc_minus1 and used_by_curr_pic_flag of `n` pictures, at growing distance `sign * d` (7-67 to 7-70). -/
def distances (sign : Int) : Nat → Int → Gr (List (Int × Bool))
  | 0, _ => pure []
  | n + 1, prev => do
    let v ← ue
    let d := wrap32 (prev + sign * (v + 1))
    let used ← flag
    let l ← distances sign n d
    pure ((d, used) :: l)

/-- st_ref_pic_set( ) without prediction. -/
def intraSet : Gr RPS := do
  let neg ← ue
  let pos ← ue
  must (neg ≤ 255)
  let s0 ← distances (-1) neg 0
  must (pos ≤ 255)
  let s1 ← distances 1 pos 0
  pure { numNegativePics := neg, numPositivePics := pos,
         deltaPocS0 := s0.map (·.1), usedByCurrPicS0Flag := s0.map (·.2),
         deltaPocS1 := s1.map (·.1), usedByCurrPicS1Flag := s1.map (·.2) }

/-- st_ref_pic_set( ). -/
def refPicSet (sets : List RPS) (inSlice : Bool) : Gr RPS := do
  let inter ← opt (!sets.isEmpty) flag false
  if inter then interSet sets inSlice else intraSet

/-- `n` more sets. -/
def refPicSets : Nat → List RPS → Gr (List RPS)
  | 0, sets => pure sets
  | n + 1, sets => do
    let r ← refPicSet sets false
    refPicSets n (sets ++ [r])

/-- sps_seq_parameter_set_id to log2_max_pic_order_cnt_lsb_minus4. The identifier is kept in 8 bits. -/
def formatFields (s : SPS) : Gr SPS := do
  let id ← ue
  let chroma ← ue
  must (chroma ≤ 3)
  let sep ← opt (chroma == 3) flag s.separateColourPlaneFlag
  let w ← ue
  let h ← ue
  let c ← optional window
  let luma ← ue
  let chr ← ue
  let poc ← ue
  pure { s with id := id % 256, chromaFormatIdc := chroma, separateColourPlaneFlag := sep, picWidthInLumaSamples := w,
                picHeightInLumaSamples := h, conformanceWindow := c, bitDepthLumaMinus8 := luma,
                bitDepthChromaMinus8 := chr, log2MaxPicOrderCntLsbMinus4 := poc }

/-- sps_max_dec_pic_buffering_minus1, sps_max_num_reorder_pics, sps_max_latency_increase_plus1. -/
def ordering : Gr (Nat × Nat × Nat) := do
  let a ← ue
  let b ← ue
  let c ← ue
  pure (a, b, c)

/-- sps_sub_layer_ordering_info_present_flag and the information of the sub-layers; that of the last one if the flag is zero.
Then the others are zero here (the standard says that they are those of the last one, see `inferred`). -/
def orderingFields (s : SPS) : Gr SPS := do
  let all ← flag
  let l ← times ordering (if all then s.maxSubLayersMinus1 + 1 else 1)
  let z := if all then [] else List.replicate s.maxSubLayersMinus1 0
  pure { s with subLayerOrderingInfoPresentFlag := all, maxDecPicBufferingMinus1 := z ++ l.map (·.1),
                maxNumReorderPics := z ++ l.map (·.2.1), maxLatencyIncreasePlus1 := z ++ l.map (·.2.2) }

/-- pcm_sample_bit_depth_luma_minus1 to pcm_loop_filter_disabled_flag. -/
def pcm : Gr (Nat × Nat × Nat × Nat × Bool) := do
  let a ← u 4
  let b ← u 4
  let c ← ue
  let d ← ue
  let e ← flag
  pure (a, b, c, d, e)

/-- log2_min_luma_coding_block_size_minus3 to pcm_loop_filter_disabled_flag. Absent structures are left as they were. -/
def toolFields (s : SPS) : Gr SPS := do
  let a ← ue
  let b ← ue
  let c ← ue
  let d ← ue
  let e ← ue
  let f ← ue
  let scaling ← flag
  let data ← opt scaling (optional scalingListData) none
  let amp ← flag
  let sao ← flag
  let hasPcm ← flag
  let p ← opt hasPcm pcm (s.pcmSampleBitDepthLumaMinus1, s.pcmSampleBitDepthChromaMinus1,
    s.log2MinPcmLumaCodingBlockSizeMinus3, s.log2DiffMaxMinPcmLumaCodingBlockSize, s.pcmLoopFilterDisabledFlag)
  pure { s with log2MinLumaCodingBlockSizeMinus3 := a, log2DiffMaxMinLumaCodingBlockSize := b,
                log2MinLumaTransformBlockSizeMinus2 := c, log2DiffMaxMinLumaTransformBlockSize := d,
                maxTransformHierarchyDepthInter := e, maxTransformHierarchyDepthIntra := f,
                scalingListEnabledFlag := scaling, scalingListData := data <|> s.scalingListData, ampEnabledFlag := amp,
                sampleAdaptiveOffsetEnabledFlag := sao, pcmEnabledFlag := hasPcm,
                pcmSampleBitDepthLumaMinus1 := p.1, pcmSampleBitDepthChromaMinus1 := p.2.1,
                log2MinPcmLumaCodingBlockSizeMinus3 := p.2.2.1, log2DiffMaxMinPcmLumaCodingBlockSize := p.2.2.2.1,
                pcmLoopFilterDisabledFlag := p.2.2.2.2 }

/-- num_short_term_ref_pic_sets to vui_parameters( ), without long-term reference pictures. -/
def refFields (s : SPS) : Gr SPS := do
  let n ← ue
  must (n ≤ 64)
  let sets ← refPicSets n []
  let longTerm ← flag
  let k ← opt longTerm ue 0
  must (k = 0)
  let mvp ← flag
  let strong ← flag
  let v ← optional vui
  pure { s with shortTermRefPicSets := sets, longTermRefPicsPresentFlag := longTerm, temporalMvpEnabledFlag := mvp,
                strongIntraSmoothingEnabledFlag := strong, vui := v }

/-- seq_parameter_set_rbsp( ), up to the VUI. -/
def spsData (s : SPS) : Gr SPS := do
  let vps ← u 4
  let max ← u 3
  let nest ← flag
  let p ← profileTierLevel s.profileTierLevel max
  let s ← formatFields { s with vpsID := vps, maxSubLayersMinus1 := max, temporalIDNestingFlag := nest, profileTierLevel := p }
  let s ← orderingFields s
  let s ← toolFields s
  refFields s

/-- pic_parameter_set_rbsp( ), up to num_extra_slice_header_bits. -/
def ppsData : Gr PPS := do
  let id ← ue
  let sps ← ue
  let d ← flag
  let o ← flag
  let n ← u 3
  pure ⟨id, sps, d, o, n⟩

/-- A NAL unit of a type and its RBSP. The second byte of the header is not zero in NAL units of the standard. -/
def IsNAL (type : Nat) (buf rbsp : Bytes) : Prop :=
  ∃ (h0 h1 : UInt8) (rest : Bytes), buf = h0 :: h1 :: rest ∧ h0.toNat / 2 % 64 = type ∧
    rbsp = (epRemove 0 (h1 :: rest)).drop 1

/-- SubWidthC and SubHeightC (table 6-1). -/
def subWidthC (s : SPS) : Nat := if s.chromaFormatIdc = 1 ∨ s.chromaFormatIdc = 2 then 2 else 1
def subHeightC (s : SPS) : Nat := if s.chromaFormatIdc = 1 then 2 else 1

/-- The columns and rows outside of the conformance window. -/
def cropColumns (s : SPS) : Nat := (s.conformanceWindow.map fun c => subWidthC s * (c.leftOffset + c.rightOffset)).getD 0
def cropRows (s : SPS) : Nat := (s.conformanceWindow.map fun c => subHeightC s * (c.topOffset + c.bottomOffset)).getD 0

/-- What the standard infers when the information of the sub-layers before the last one is absent: that of the last one. -/
def Inferred (max : Nat) (l : List Nat) : Prop := ∃ v, l = List.replicate (max + 1) v

end Verif.Spec.H265
