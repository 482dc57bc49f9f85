import Verif.Model.H265SPS
import Verif.Model.H264DTS

/-!
# Model of the H265 DTS extractor

Source: /repo/pkg/codecs/h265/dts_extractor.go

`int64` arithmetic on timestamps wraps (`wrap64`). Counters of type `int` come from `uint32` values and lengths, so that their
sums do not overflow and they are integers here. The parameter sets that are kept are copies, while the Go code keeps the
slices of the caller.
-/

namespace Verif.H265
open Bits (wrapInt32)
open H264 (plus4)
open TS (wrap64)

/-- dts_extractor.go:13 (`maxBytesToGetPOC`). -/
def maxBytesToGetPOC : Nat := 12

/-- `int(math.Ceil(math.Log2(float64(n))))` for `n > 1` (dts_extractor.go:93); the lengths are at most 64, for which the
floating point computation is exact at powers of two and not next to an integer elsewhere. -/
def ceilLog2 (n : Nat) : Nat := Nat.log2 (n - 1) + 1

/-- dts_extractor.go:42-48: extra bits. -/
def skipExtra (n : Nat) : BitM Unit :=
  if n > 0 then do
    BitM.hasSpace n
    BitM.skip n
  else pure ()

/-- dts_extractor.go:33-35. -/
def skipOutput (c : Bool) : BitM Unit := if c then BitM.skip 1 else pure ()

/-- What decides the difference: no reference picture set, or the slice type and the set. -/
abbrev SliceInfo := Option (Nat × RPS)

/-- dts_extractor.go:93-105: a set of the SPS. -/
def readSetIndex (sets : List RPS) (sliceType : Nat) : BitM SliceInfo :=
  if sets.length ≤ 1 then pure none
  else do
    let i ← BitM.readBits (ceilLog2 sets.length)
    if sets.length ≤ i then BitM.fail "invalid short_term_ref_pic_set_idx"
    else do
      let r ← BitM.lift (idx sets i)
      pure (some (sliceType, r))

/-- dts_extractor.go:82-87: a set in the slice header. -/
def readSliceSet (sets : List RPS) (sliceType : Nat) : BitM SliceInfo := do
  let r ← RPS.unmarshal sets.length sets.length (sets.map some)
  pure (some (sliceType, r))

/-- dts_extractor.go:37-106: what follows `no_output_of_prior_pics_flag`. -/
def readSliceTail (sps : SPS) (pps : PPS) : BitM SliceInfo := do
  let _ ← BitM.readUE
  skipExtra pps.numExtraSliceHeaderBits
  let sliceType ← BitM.readUE
  let _ ← BitM.cond pps.outputFlagPresentFlag BitM.readFlag false
  let _ ← BitM.cond sps.separateColourPlaneFlag (BitM.readBits 2) 0
  let _ ← BitM.readBits (plus4 sps.log2MaxPicOrderCntLsbMinus4)
  let f ← BitM.readFlag
  if f then readSetIndex sps.shortTermRefPicSets sliceType else readSliceSet sps.shortTermRefPicSets sliceType

/-- dts_extractor.go:24-106, from position 8. -/
def readSlice (typ : Nat) (sps : SPS) (pps : PPS) : BitM SliceInfo := do
  let first ← BitM.readFlag
  if first then do
    skipOutput (decide (typ ≥ 16 ∧ typ ≤ 23))
    readSliceTail sps pps
  else BitM.fail "first_slice_segment_in_pic_flag = 0 is not supported"

/-- `int(-rps.DeltaPocS0[0]-1)` (dts_extractor.go:114-117, 123-126). -/
def firstS0 (r : RPS) : Res Int :=
  if r.deltaPocS0.length = 0 then .err "invalid DeltaPocS0"
  else do
    let v ← idx r.deltaPocS0 0
    .ok (wrapInt32 (wrapInt32 (- v) - 1))

/-- dts_extractor.go:108-127. The NAL unit types are those of nalu_type.go: 0 TRAIL_N, 1 TRAIL_R, 8 RASL_N, 9 RASL_R. -/
def diffOfSlice (typ : Nat) (sliceType : Nat) (r : RPS) : Res Int :=
  if sliceType = 0 then
    if typ = 0 ∨ typ = 8 then .ok (- (r.deltaPocS1.length : Int))
    else if typ = 1 ∨ typ = 9 then do
      let v ← firstS0 r
      .ok (v - r.deltaPocS1.length)
    else .ok 0
  else firstS0 r

/-- dts_extractor.go:16-128 (`getPTSDTSDiff`). -/
def getPTSDTSDiff (buf : Bytes) (sps : SPS) (pps : PPS) : Res Int := do
  let b ← idx buf 0
  let typ := ((b >>> 1) &&& 0x3F).toNat
  let buf ← sliceFrom buf 1
  let buf ← slice buf 0 (min buf.length maxBytesToGetPOC)
  let buf ← H264.emulationPreventionRemove buf
  let r ← readSlice typ sps pps buf 8
  match r.1 with
  | none => .ok 0
  | some (sliceType, rps) => diffOfSlice typ sliceType rps

/-- dts_extractor.go:131-141 (`DTSExtractor`); `NewDTSExtractor` returns the zero value. -/
structure DTSExtractor where
  sps : Bytes := []
  spsp : Option SPS := none
  pps : Bytes := []
  ppsp : Option PPS := none
  prevDTSFilled : Bool := false
  prevDTS : Int := 0
  randomReceived : Bool := false
  reorderedFrames : Int := 0
  pause : Int := 0
  deriving Repr, DecidableEq

abbrev DM := StepM DTSExtractor

/-- dts_extractor.go:177-181. -/
def initialReorder (sps : SPS) : Int :=
  match sps.maxNumReorderPics with
  | [n] => n
  | _ => 0

/-- dts_extractor.go:164-183: an SPS. -/
def handleSPS (nalu : Bytes) : DM Unit := do
  let d ← StepM.get
  if d.sps = nalu then pure ()
  else
    match ({} : SPS).unmarshal nalu with
    | .ok spsp =>
      StepM.modify fun d => { d with spsp := some spsp, sps := nalu, randomReceived := false,
                                     reorderedFrames := initialReorder spsp, pause := initialReorder spsp }
    | .err e => StepM.fail ("invalid SPS: " ++ e)
    | .panic => StepM.lift .panic

/-- dts_extractor.go:185-195: a PPS. -/
def handlePPS (nalu : Bytes) : DM Unit := do
  let d ← StepM.get
  if d.pps = nalu then pure ()
  else
    match PPS.unmarshal nalu with
    | .ok ppsp => StepM.modify fun d => { d with ppsp := some ppsp, pps := nalu }
    | .err e => StepM.fail ("invalid PPS: " ++ e)
    | .panic => StepM.lift .panic

/-- What is found in an access unit. -/
inductive Found where
  | idr
  | cra (nalu : Bytes)
  | nonIDR (nalu : Bytes)
  | nothing
  deriving Repr, DecidableEq

/-- dts_extractor.go:159-209: the loop over the NAL units. -/
def scan : List Bytes → DM Found
  | [] => pure .nothing
  | nalu :: l => do
    let b ← StepM.lift (idx nalu 0)
    let typ := ((b >>> 1) &&& 0x3F).toNat
    if typ = 33 then do
      handleSPS nalu
      scan l
    else if typ = 34 then do
      handlePPS nalu
      scan l
    else if typ = 19 ∨ typ = 20 then pure .idr
    else if typ = 21 then pure (.cra nalu)
    else if typ = 0 ∨ typ = 1 ∨ typ = 8 ∨ typ = 9 then pure (.nonIDR nalu)
    else scan l

/-- dts_extractor.go:220: `idr == nil && cra == nil`. -/
def Found.isRandom : Found → Bool
  | .idr => true
  | .cra _ => true
  | _ => false

/-- dts_extractor.go:219-224: nothing is done before a random access frame. -/
def checkRandom (f : Found) : DM Unit := do
  let d ← StepM.get
  if d.randomReceived then pure ()
  else if f.isRandom then StepM.modify fun d => { d with randomReceived := true }
  else StepM.fail "random access frame not received yet"

/-- dts_extractor.go:226-248. -/
def frameDiff (f : Found) (sps : SPS) (pps : PPS) : Res Int :=
  match f with
  | .idr => .ok 0
  | .cra n => getPTSDTSDiff n sps pps
  | .nonIDR n => getPTSDTSDiff n sps pps
  | .nothing => .err "access unit doesn't contain an IDR or non-IDR NALU"

/-- dts_extractor.go:259-265, 272-278: the difference of the first frame. -/
def firstDiff (sps : SPS) (diff : Int) : Int :=
  match sps.vui.bind (·.timingInfo) with
  | some t =>
    if t.timeScale ≠ 0 then (wrap64 (diff * 90000 * t.numUnitsInTick)).tdiv t.timeScale else 9000
  | none => 9000

/-- dts_extractor.go:250-282. -/
def finish (diff pts : Int) (sps : SPS) : DM Int := do
  let d ← StepM.get
  let diff := diff + d.reorderedFrames
  if diff < 0 then StepM.fail "negative pts-dts difference"
  else if d.pause > 0 then do
    StepM.modify fun d => { d with pause := d.pause - 1 }
    if d.prevDTSFilled then pure (wrap64 (d.prevDTS + 90)) else pure (wrap64 (pts - firstDiff sps diff))
  else if d.prevDTSFilled then
    if diff + 1 = 0 then StepM.lift .panic
    else pure (wrap64 (d.prevDTS + (wrap64 (pts - d.prevDTS)).tdiv (diff + 1)))
  else pure (wrap64 (pts - firstDiff sps diff))

/-- dts_extractor.go:154-283 (`extractInner`). -/
def extractInner (au : List Bytes) (pts : Int) : DM Int := do
  let f ← scan au
  let d ← StepM.get
  match d.spsp with
  | none => StepM.fail "SPS not received yet"
  | some sps =>
    match d.ppsp with
    | none => StepM.fail "PPS not received yet"
    | some pps => do
      checkRandom f
      let diff ← StepM.lift (frameDiff f sps pps)
      finish diff pts sps

/-- dts_extractor.go:286-305 (`Extract`). -/
def extract (a : List Bytes × Int) : DM Int := do
  let dts ← extractInner a.1 a.2
  let d ← StepM.get
  if dts > a.2 then StepM.fail "DTS is greater than PTS"
  else if d.prevDTSFilled = true ∧ dts < d.prevDTS then StepM.fail "DTS is not monotonically increasing"
  else do
    StepM.modify fun d => { d with prevDTSFilled := true, prevDTS := dts }
    pure dts

end Verif.H265
