import Verif.Model.H264SPS
import Verif.Model.StepM
import Verif.Model.TimeDecoder

/-!
# Model of the H264 DTS extractor

Source: /repo/pkg/codecs/h264/dts_extractor.go

`int64` arithmetic on timestamps wraps (`wrap64`); `uint32` arithmetic is modulo `2^32`. The counters of type `int` are
integers: their size is bounded (`C12_bounded`). The SPS that is kept is a copy, while the Go code keeps the slice of the
caller.
-/

namespace Verif.H264
open Bits (toInt32 wrapInt32)
open TS (wrap64)

/-- dts_extractor.go:11 (`maxReorderedFrames`). -/
def maxReorderedFrames : Int := 10

/-- dts_extractor.go:18 (`maxBytesToGetPOC`). -/
def maxBytesToGetPOC : Nat := 22

/-- `int(v + 4)` for a `uint32` value `v` (dts_extractor.go:43, 55, 64, 222). -/
def plus4 (v : Nat) : Nat := (v + 4) % 2 ^ 32

/-- dts_extractor.go:26-60, on the buffer without emulation prevention bytes. -/
def readPOC (sps : SPS) (idr : Bool) : BitM Nat := do
  let _ ← BitM.readUE
  let _ ← BitM.readUE
  let _ ← BitM.readUE
  let _ ← BitM.readBits (plus4 sps.log2MaxFrameNumMinus4)
  let _ ← BitM.cond idr BitM.readUE 0
  let v ← BitM.readBits (plus4 sps.log2MaxPicOrderCntLsbMinus4)
  pure (v % 2 ^ 32)

/-- dts_extractor.go:21-61 (`getPictureOrderCount`). -/
def getPictureOrderCount (buf : Bytes) (sps : SPS) (idr : Bool) : Res Nat := do
  let buf ← sliceFrom buf 1
  let buf ← slice buf 0 (min buf.length maxBytesToGetPOC)
  let buf ← emulationPreventionRemove buf
  let r ← readPOC sps idr buf 0
  .ok r.1

/-- `uint32(1 << (sps.Log2MaxPicOrderCntLsbMinus4 + 4))` (dts_extractor.go:64, 222): zero for a shift by 32 or more. -/
def maxPOC (sps : SPS) : Nat :=
  if plus4 sps.log2MaxPicOrderCntLsbMinus4 < 32 then 2 ^ plus4 sps.log2MaxPicOrderCntLsbMinus4 else 0

/-- dts_extractor.go:63-70 (`pictureOrderCountDiff`). -/
def pictureOrderCountDiff (a b : Nat) (sps : SPS) : Int :=
  let maxVal := maxPOC sps
  let d := sub32 a b &&& sub32 maxVal 1
  if d > maxVal / 2 then wrapInt32 (toInt32 d - toInt32 maxVal) else toInt32 d

/-- dts_extractor.go:73-86 (`DTSExtractor`). -/
structure DTSExtractor where
  sps : Bytes := []
  spsp : Option SPS := none
  prevDTSFilled : Bool := false
  prevDTS : Int := 0
  randomReceived : Bool := false
  expectedPOC : Nat := 0
  reorderedFrames : Int := 0
  pause : Int := 0
  auCount : Int := 0
  pocIncrement : Int := 0
  prevPOC : Nat := 0
  prevPrevPOC : Nat := 0
  deriving Repr, DecidableEq

/-- dts_extractor.go:89-100 (`Initialize`, `NewDTSExtractor`). -/
def DTSExtractor.new : DTSExtractor := { pocIncrement := 2 }

abbrev DM := StepM DTSExtractor

/-- dts_extractor.go:119-138: an SPS. -/
def handleSPS (nalu : Bytes) : DM Unit := do
  let d ← StepM.get
  if d.sps = nalu then pure ()
  else do
    match ({} : SPS).unmarshal nalu with
    | .ok spsp =>
      StepM.modify fun d => { d with sps := nalu, spsp := some spsp, randomReceived := false, expectedPOC := 0,
                                     reorderedFrames := 0, pause := 0, auCount := 0, pocIncrement := 2, prevPOC := 0,
                                     prevPrevPOC := 0 }
    | .err e => StepM.fail ("invalid SPS: " ++ e)
    | .panic => StepM.lift .panic

/-- What is found in an access unit. -/
structure Found where
  idr : Option Bytes := none
  nonIDR : Option Bytes := none
  nonZeroNalRefIDFound : Bool := false
  deriving Repr, DecidableEq

/-- dts_extractor.go:113-148: the loop over the NAL units. -/
def scan (nz : Bool) : List Bytes → DM Found
  | [] => pure { nonZeroNalRefIDFound := nz }
  | nalu :: l => do
    let b ← StepM.lift (idx nalu 0)
    let typ := b &&& 0x1F
    let nz := nz || decide (b &&& 0x60 > 0)
    if typ = 7 then do
      handleSPS nalu
      scan nz l
    else if typ = 5 then pure { idr := some nalu, nonZeroNalRefIDFound := nz }
    else if typ = 1 then pure { nonIDR := some nalu, nonZeroNalRefIDFound := nz }
    else scan nz l

/-- dts_extractor.go:162-167: nothing is done before an IDR. -/
def checkRandom (f : Found) : DM Unit := do
  let d ← StepM.get
  if d.randomReceived then pure ()
  else if f.idr = none then StepM.fail "random access frame not received yet"
  else StepM.modify fun d => { d with randomReceived := true }

/-- dts_extractor.go:173-189: an IDR. When `getPictureOrderCount` fails, the Go code leaves zero in `d.expectedPOC`. -/
def handleIDR (idr : Bytes) (sps : SPS) : DM Int := do
  match getPictureOrderCount idr sps true with
  | .err e => do
    StepM.modify fun d => { d with expectedPOC := 0 }
    StepM.fail e
  | .panic => StepM.lift .panic
  | .ok poc => do
    StepM.modify fun d => { d with expectedPOC := poc }
    let d ← StepM.get
    if d.pocIncrement = 2 then do
      StepM.modify fun d => { d with pocIncrement := if poc % 2 ≠ 0 then 1 else d.pocIncrement, auCount := 1,
                                     prevPrevPOC := 0, prevPOC := poc }
      pure 0
    else pure 0

/-- dts_extractor.go:203-209, 240-247, 250-257: more reordered frames, and a pause as long as them. -/
def increaseReordered (increase : Int) : DM Unit := do
  let d ← StepM.get
  if d.reorderedFrames + increase > maxReorderedFrames then StepM.fail "too many reordered frames"
  else StepM.modify fun d => { d with reorderedFrames := d.reorderedFrames + increase, pause := d.pause + increase }

/-- dts_extractor.go:198-214: find out the increment of the picture order count. -/
def detectIncrement (poc : Nat) : DM Unit := do
  let d ← StepM.get
  if poc % 2 ≠ 0 then do
    StepM.modify fun d => { d with pocIncrement := 1, expectedPOC := d.expectedPOC / 2 }
    if d.reorderedFrames ≠ 0 then increaseReordered d.reorderedFrames else pure ()
  else if d.auCount ≥ 2 ∧ poc % 4 = 0 ∧ poc = (d.prevPOC + 4) % 2 ^ 32 ∧ d.prevPOC = (d.prevPrevPOC + 4) % 2 ^ 32 then
    StepM.modify fun d => { d with pocIncrement := 4, expectedPOC := d.expectedPOC * 2 % 2 ^ 32 }
  else pure ()

/-- dts_extractor.go:197-219. -/
def updateIncrement (poc : Nat) : DM Unit := do
  let d ← StepM.get
  if d.auCount < 5 ∧ d.pocIncrement = 2 then do
    detectIncrement poc
    StepM.modify fun d => { d with auCount := d.auCount + 1, prevPrevPOC := d.prevPOC, prevPOC := poc }
  else pure ()

/-- dts_extractor.go:221-224. Dividing by zero panics. -/
def advance (poc : Nat) (sps : SPS) : DM Int := do
  StepM.modify fun d =>
    { d with expectedPOC := (d.expectedPOC + d.pocIncrement.toNat) % 2 ^ 32 &&& sub32 (maxPOC sps) 1 }
  let d ← StepM.get
  if d.pocIncrement = 0 then StepM.lift .panic
  else pure ((pictureOrderCountDiff poc d.expectedPOC sps).tdiv d.pocIncrement)

/-- dts_extractor.go:192-224: a slice that is not of an IDR. -/
def handleNonIDR (nonIDR : Bytes) (sps : SPS) : DM Int := do
  let poc ← StepM.lift (getPictureOrderCount nonIDR sps false)
  updateIncrement poc
  advance poc sps

/-- dts_extractor.go:236-258: the difference in frames, with the reordered frames that are known. -/
def adjust (diff : Int) : DM Int := do
  let d ← StepM.get
  let diff := diff + d.reorderedFrames
  if diff > 2 * d.reorderedFrames + 1 then do
    increaseReordered (diff - (2 * d.reorderedFrames + 1))
    pure (diff + (diff - (2 * d.reorderedFrames + 1)))
  else if diff < 0 then do
    increaseReordered (- diff)
    pure (diff + - diff)
  else pure diff

/-- dts_extractor.go:260-272. The division is by a positive number, see `adjust`. -/
def finish (diff pts : Int) : DM (Int × Bool) := do
  let d ← StepM.get
  if d.pause > 0 then do
    StepM.modify fun d => { d with pause := d.pause - 1 }
    if d.prevDTSFilled then pure (wrap64 (d.prevDTS + 90), true) else pure (pts, true)
  else if d.prevDTSFilled then
    if diff + 1 = 0 then StepM.lift .panic
    else pure (wrap64 (d.prevDTS + (wrap64 (pts - d.prevDTS)).tdiv (diff + 1)), false)
  else pure (pts, true)

/-- dts_extractor.go:226-230: an access unit without slices, none of its NAL units being needed by others. -/
def repeatDTS (pts : Int) : DM (Int × Bool) := do
  let d ← StepM.get
  if d.prevDTSFilled then pure (d.prevDTS, false) else pure (pts, true)

/-- dts_extractor.go:169-272. -/
def handleFrame (f : Found) (sps : SPS) (pts : Int) : DM (Int × Bool) :=
  match f.idr, f.nonIDR with
  | some n, _ => do
    let diff ← handleIDR n sps
    let diff ← adjust diff
    finish diff pts
  | none, some n => do
    let diff ← handleNonIDR n sps
    let diff ← adjust diff
    finish diff pts
  | none, none =>
    if f.nonZeroNalRefIDFound then StepM.fail "access unit doesn't contain an IDR or non-IDR NALU"
    else repeatDTS pts

/-- dts_extractor.go:102-273 (`extractInner`). -/
def extractInner (au : List Bytes) (pts : Int) : DM (Int × Bool) := do
  let f ← scan false au
  let d ← StepM.get
  match d.spsp with
  | none => StepM.fail "SPS not received yet"
  | some sps =>
    if sps.picOrderCntType = 2 ∨ sps.frameMbsOnlyFlag = false then pure (pts, false)
    else if sps.picOrderCntType = 1 then StepM.fail "pic_order_cnt_type = 1 is not supported yet"
    else do
      checkRandom f
      handleFrame f sps pts

/-- dts_extractor.go:276-295 (`Extract`). -/
def extract (a : List Bytes × Int) : DM Int := do
  let r ← extractInner a.1 a.2
  let d ← StepM.get
  if r.2 = false ∧ r.1 > a.2 then StepM.fail "DTS is greater than PTS"
  else if d.prevDTSFilled = true ∧ r.1 < d.prevDTS then StepM.fail "DTS is not monotonically increasing"
  else do
    StepM.modify fun d => { d with prevDTSFilled := true, prevDTS := r.1 }
    pure r.1

end Verif.H264
