import Verif.Model.AV1Seq
import Verif.Spec.Grammar
import Verif.Spec.AV1

/-!
# AV1 sequence header OBU (AV1 Bitstream & Decoding Process Specification, sections 5.5.1 to 5.5.3)

Every table fills fields of a header; a syntax element that is absent and has no inferred value there leaves its field as it
is. Decoder model info and initial display delays are left out.
-/

namespace Verif.Spec.AV1
open Verif.AV1 (SequenceHeader ColorConfig TimingInfo)
open Gr

/-- Values of color_primaries, transfer_characteristics and matrix_coefficients (section 6.4.2). -/
def cpBT709 : Nat := 1
def tcSRGB : Nat := 13
def mcIdentity : Nat := 0
def unspecified : Nat := 2

/-- The BitDepth of color_config( ); none for the reserved profiles. -/
def bitDepthOf (profile : Nat) (high twelve : Bool) : Option Nat :=
  match profile, high, twelve with
  | 0, false, _ => some 8
  | 0, true, _ => some 10
  | 1, false, _ => some 8
  | 1, true, _ => some 10
  | 2, false, _ => some 8
  | 2, true, false => some 10
  | 2, true, true => some 12
  | _, _, _ => none

/-- color_primaries, transfer_characteristics, matrix_coefficients. -/
def description : Gr (Nat × Nat × Nat) := do
  let cp ← u 8
  let tc ← u 8
  let mc ← u 8
  pure (cp, tc, mc)

/-- subsampling_x and subsampling_y. -/
def subsampling (profile : Nat) (depth : Nat) : Gr (Bool × Bool) :=
  match profile with
  | 0 => pure (true, true)
  | 1 => pure (false, false)
  | _ =>
    if depth = 12 then do
      let x ← flag
      let y ← opt x flag false
      pure (x, y)
    else pure (true, false)

/-- color_config( ) up to separate_uv_delta_q. -/
def colorConfig (profile : Nat) (c : ColorConfig) : Gr ColorConfig := do
  let high ← flag
  let twelve ← opt (profile == 2 && high) flag c.twelveBit
  let mono ← opt (profile != 1) flag false
  let present ← flag
  let d ← opt present description (unspecified, unspecified, unspecified)
  let c := { c with highBitDepth := high, twelveBit := twelve, bitDepth := (bitDepthOf profile high twelve).getD c.bitDepth,
                    monoChrome := mono, colorDescriptionPresentFlag := present, colorPrimaries := d.1,
                    transferCharacteristics := d.2.1, matrixCoefficients := d.2.2 }
  if mono then do
    let range ← flag
    pure { c with colorRange := range, subsamplingX := true, subsamplingY := true, chromaSamplePosition := 0 }
  else if d = (cpBT709, tcSRGB, mcIdentity) then
    pure { c with colorRange := true, subsamplingX := false, subsamplingY := false }
  else do
    let range ← flag
    let s ← subsampling profile c.bitDepth
    let csp ← opt (s.1 && s.2) (u 2) c.chromaSamplePosition
    pure { c with colorRange := range, subsamplingX := s.1, subsamplingY := s.2, chromaSamplePosition := csp }

/-- timing_info( ), and decoder_model_info_present_flag = 0. -/
def timingInfo : Gr (Option TimingInfo) := do
  let units ← u 32
  let scale ← u 32
  let equal ← flag
  let ticks ← opt equal ue 0
  lit 1 0
  pure (some ⟨units, scale, equal, ticks⟩)

/-- operating_point_idc, seq_level_idx and seq_tier of an operating point. -/
def operatingPoint : Gr (Nat × Nat × Bool) := do
  let idc ← u 12
  let level ← u 5
  let tier ← opt (decide (8 ≤ level)) flag false
  pure (idc, level, tier)

/-- The operating points; initial_display_delay_present_flag is 0. -/
def operatingPoints (h : SequenceHeader) : Gr SequenceHeader :=
  if h.reducedStillPictureHeader then do
    let level ← u 5
    pure { h with timingInfo := none, decoderModelInfoPresentFlag := false, initialDisplayDelayPresentFlag := false,
                  operatingPointsCntMinus1 := 0, operatingPointIdc := [0], seqLevelIdx := [level], seqTier := [false],
                  decoderModelPresentForThisOp := [false], initialDisplayPresentForThisOp := [false] }
  else do
    let present ← flag
    let t ← opt present timingInfo none
    lit 1 0
    let cnt ← u 5
    let ops ← times operatingPoint (cnt + 1)
    pure { h with timingInfo := t, decoderModelInfoPresentFlag := false, initialDisplayDelayPresentFlag := false,
                  operatingPointsCntMinus1 := cnt, operatingPointIdc := ops.map (·.1), seqLevelIdx := ops.map (·.2.1),
                  seqTier := ops.map (·.2.2), decoderModelPresentForThisOp := ops.map fun _ => false,
                  initialDisplayPresentForThisOp := ops.map fun _ => false,
                  initialDisplayDelayMinus1 := ops.map fun _ => 0 }

/-- frame_width_bits_minus_1 to max_frame_height_minus_1. -/
def frameSize (h : SequenceHeader) : Gr SequenceHeader := do
  let wb ← u 4
  let hb ← u 4
  let width ← u (wb + 1)
  let height ← u (hb + 1)
  pure { h with maxFrameWidthMinus1 := width, maxFrameHeightMinus1 := height }

/-- frame_id_numbers_present_flag and the lengths. -/
def frameIDs (h : SequenceHeader) : Gr SequenceHeader := do
  let present ← opt (!h.reducedStillPictureHeader) flag false
  if present then do
    let delta ← u 4
    let additional ← u 3
    pure { h with frameIDNumbersPresentFlag := true, deltaFrameIDLengthMinus2 := delta,
                  additionalFrameIDLengthMinus1 := additional }
  else pure { h with frameIDNumbersPresentFlag := false }

/-- use_128x128_superblock, enable_filter_intra, enable_intra_edge_filter. -/
def intraTools (h : SequenceHeader) : Gr SequenceHeader := do
  let a ← flag
  let b ← flag
  let c ← flag
  pure { h with use128x128Superblock := a, enableFilterIntra := b, enableIntraEdgeFilter := c }

/-- SELECT_SCREEN_CONTENT_TOOLS, SELECT_INTEGER_MV. -/
def select : Nat := 2

/-- enable_jnt_comp and enable_ref_frame_mvs. -/
def orderTools : Gr (Bool × Bool) := do
  let j ← flag
  let r ← flag
  pure (j, r)

/-- seq_choose_integer_mv and seq_force_integer_mv. -/
def integerMv : Gr (Bool × Nat) := do
  let choose ← flag
  let force ← opt (!choose) (u 1) select
  pure (choose, force)

/-- enable_interintra_compound to order_hint_bits_minus_1. -/
def interTools (h : SequenceHeader) : Gr SequenceHeader :=
  if h.reducedStillPictureHeader then
    pure { h with enableInterintraCompound := false, enableMaskedCompound := false, enableWarpedMotion := false,
                  enableDualFilter := false, enableOrderHint := false, enableJntComp := false, enableRefFrameMvs := false,
                  seqForceScreenContentTools := select, seqForceIntegerMv := select }
  else do
    let interintra ← flag
    let masked ← flag
    let warped ← flag
    let dual ← flag
    let order ← flag
    let o ← opt order orderTools (h.enableJntComp, h.enableRefFrameMvs)
    let choose ← flag
    let force ← opt (!choose) (u 1) select
    let mv ← opt (force != 0) integerMv (h.seqChooseIntegerMv, select)
    let bits ← opt order (u 3) h.orderHintBitsMinus1
    pure { h with enableInterintraCompound := interintra, enableMaskedCompound := masked, enableWarpedMotion := warped,
                  enableDualFilter := dual, enableOrderHint := order, enableJntComp := o.1, enableRefFrameMvs := o.2,
                  seqChooseScreenContentTools := choose, seqForceScreenContentTools := force,
                  seqChooseIntegerMv := mv.1, seqForceIntegerMv := mv.2, orderHintBitsMinus1 := bits }

/-- enable_superres to color_config( ). -/
def filtersAndColor (h : SequenceHeader) : Gr SequenceHeader := do
  let s ← flag
  let c ← flag
  let r ← flag
  let cc ← colorConfig h.seqProfile h.colorConfig
  pure { h with enableSuperRes := s, enableCdef := c, enableRestoration := r, colorConfig := cc }

/-- sequence_header_obu( ) up to separate_uv_delta_q. -/
def start (h : SequenceHeader) : Gr SequenceHeader := do
  let profile ← u 3
  let still ← flag
  let reduced ← flag
  let h ← operatingPoints { h with seqProfile := profile, stillPicture := still, reducedStillPictureHeader := reduced }
  let h ← frameSize h
  let h ← frameIDs h
  let h ← intraTools h
  let h ← interTools h
  filtersAndColor h

/-- sequence_header_obu( ); separate_uv_delta_q, the last element of color_config( ), is only present in color video. The
value is the header and separate_uv_delta_q. -/
def sequenceHeader (h : SequenceHeader) : Gr (SequenceHeader × Bool) := do
  let h ← start h
  let uv ← opt (!h.colorConfig.monoChrome) flag false
  let grain ← flag
  pure ({ h with filmGrainParamsPresent := grain }, uv)

/-- An OBU without extension, with a size field for everything that follows it or without size field, and its payload. -/
def IsObu (buf payload : Bytes) : Prop :=
  ∃ h : UInt8, h.toNat / 128 = 0 ∧ h.toNat / 4 % 2 = 0 ∧
    ((h.toNat / 2 % 2 = 0 ∧ buf = h :: payload) ∨
     (h.toNat / 2 % 2 = 1 ∧ ∃ pre last, IsLeb pre last ∧ lebVal (pre ++ [last]) % 2 ^ 32 = payload.length ∧
       buf = h :: (pre ++ last :: payload)))

end Verif.Spec.AV1
