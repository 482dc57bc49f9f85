import Verif.Model.AV1
import Verif.Model.FMP4
import Verif.Model.H264DTS
import Verif.Model.H265DTS
import Verif.Model.PMP4

/-!
# Decoders, with `int` of a fixed size

The type `int` of Go has 64 bits on some processors and 32 on others (386, arm, mips). The other modules use integers without
bounds. Here are the decoders that convert a `uint32` of the input to `int`, with an `int` that holds the values from `-h` to
`h - 1`: `h` is `2 ^ 31` where `int` has 32 bits and `2 ^ 63` where it has 64.

Lengths of slices are values of type `int`, therefore they are less than `h`: theorems have this as a hypothesis.

Simplification: counters that are only incremented once for every element of a slice do not wrap.
-/

namespace Verif.Narrow
open Bits (toInt32 wrapInt32)

/-- `int(x)`, and the result of an operation between values of type `int`. -/
def toInt (h : Nat) (x : Int) : Int := (x + h) % (2 * h) - h

/-- `buf[i]` with an index of type `int`. -/
def idxI {α} (buf : List α) (i : Int) : Res α := if i < 0 then .panic else idx buf i.toNat

/-- `buf[i:j]` with indexes of type `int`. -/
def sliceI {α} (buf : List α) (i j : Int) : Res (List α) :=
  if i < 0 ∨ j < 0 then .panic else slice buf i.toNat j.toNat

/-- `buf[i:]` with an index of type `int`. -/
def sliceFromI {α} (buf : List α) (i : Int) : Res (List α) := if i < 0 then .panic else sliceFrom buf i.toNat

/-- `make([]byte, n)` with a length of type `int`. -/
def makeI (n : Int) : Res Bytes := if n < 0 then .panic else .ok (makeBytes n.toNat)

/-! ## pkg/codecs/h264/avcc.go -/

/-- avcc.go:27, 62. -/
def readU32I (h : Nat) (buf : Bytes) (pos : Int) : Res Int := do
  let b0 ← idxI buf pos
  let b1 ← idxI buf (toInt h (pos + 1))
  let b2 ← idxI buf (toInt h (pos + 2))
  let b3 ← idxI buf (toInt h (pos + 3))
  .ok (toInt h ((b0.toNat <<< 24 ||| b1.toNat <<< 16 ||| b2.toNat <<< 8 ||| b3.toNat : Nat) : Int))

/-- The variables of the first loop of `AVCC.Unmarshal` (avcc.go:18-20). -/
structure AvccState where
  pos : Int := 0
  n : Int := 0
  auSize : Int := 0
  deriving Repr, DecidableEq

/-- avcc.go:30-43: what is done with a length. -/
def avccTake (h : Nat) (buf : Bytes) (l : Int) (s : AvccState) : Res AvccState :=
  if l ≠ 0 then
    if toInt h (s.auSize + l) > H264.maxAccessUnitSize then .err "access unit size is too big"
    else if toInt h (buf.length - s.pos) < l then .err "invalid length"
    else .ok ⟨toInt h (s.pos + l), toInt h (s.n + 1), toInt h (s.auSize + l)⟩
  else .ok s

/-- avcc.go:22-48: one round of the first loop. The flag tells that it is the last one. -/
def avccRound (h : Nat) (buf : Bytes) (s : AvccState) : Res (Bool × AvccState) :=
  if toInt h (buf.length - s.pos) < 4 then .err "invalid length"
  else do
    let l ← readU32I h buf s.pos
    let s ← avccTake h buf l { s with pos := toInt h (s.pos + 4) }
    .ok (decide (toInt h (buf.length - s.pos) = 0), s)

/-- avcc.go:22-48: at most `fuel` rounds of the first loop; `none` when it still runs. -/
def avccRounds (h : Nat) (buf : Bytes) : Nat → AvccState → Option (Res Int)
  | 0, _ => none
  | fuel + 1, s =>
    match avccRound h buf s with
    | .ok (true, s) => some (.ok s.n)
    | .ok (false, s) => avccRounds h buf fuel s
    | .err e => some (.err e)
    | .panic => some .panic

/-- avcc.go:61-70: at most `fuel` rounds of the second loop; `k` units are left. -/
def avccCollectI (h : Nat) (buf : Bytes) : Nat → Int → Nat → Option (Res (List Bytes))
  | _, _, 0 => some (.ok [])
  | 0, _, _ + 1 => none
  | fuel + 1, pos, k + 1 =>
    match readU32I h buf pos with
    | .panic => some .panic
    | .err e => some (.err e)
    | .ok l =>
      let pos := toInt h (pos + 4)
      if l ≠ 0 then
        match sliceI buf pos (toInt h (pos + l)) with
        | .panic => some .panic
        | .err e => some (.err e)
        | .ok nalu =>
          match avccCollectI h buf fuel (toInt h (pos + l)) k with
          | some (.ok rest) => some (.ok (nalu :: rest))
          | x => x
      else avccCollectI h buf fuel pos (k + 1)

/-- `AVCC.Unmarshal` (avcc.go:16-73) with at most `fuel` rounds of every loop; `none` when it still runs. -/
def avccUnmarshalI (h : Nat) (buf : Bytes) (fuel : Nat) : Option (Res (List Bytes)) :=
  match avccRounds h buf fuel {} with
  | none => none
  | some .panic => some .panic
  | some (.err e) => some (.err e)
  | some (.ok n) =>
    if n = 0 then some (.err "AVCC unit doesn't contain any NALU")
    else if n > H264.maxNALUsPerAccessUnit then some (.err "NALU count exceeds maximum allowed")
    else if n < 0 then some .panic
    else avccCollectI h buf fuel 0 n.toNat

/-! ## pkg/codecs/av1/bitstream.go -/

/-- bitstream.go:14-39: one round of the loop. -/
def bitstreamStepI (h : Nat) (buf : Bytes) : Res (Bytes × Bytes) := do
  let hd ← AV1.obuHeaderUnmarshal buf
  if !hd.hasSize then .err "OBU size not present"
  else do
    let tail ← sliceFrom buf 1
    let (size, n) ← AV1.leb128Unmarshal tail
    let len := toInt h (toInt h (1 + toInt h size) + n)
    if (buf.length : Int) < len then .err "not enough bytes"
    else do
      let obu ← makeI (toInt h (1 + toInt h size))
      let b0 ← idx buf 0
      let obu ← setAt obu 0 (b0 &&& 0b11111101)
      let src ← sliceFrom buf (1 + n)
      let (obu, _) ← copyAt obu 1 src
      let rest ← sliceFromI buf len
      .ok (obu, rest)

/-- `Bitstream.Unmarshal` (bitstream.go:12-49) on an empty receiver, as `AV1.bitstreamLoop`. -/
def bitstreamLoopI (h : Nat) : Nat → Bytes → Res (List Bytes)
  | 0, _ => .panic
  | fuel + 1, buf => do
    let (obu, rest) ← bitstreamStepI h buf
    if rest.length = 0 then .ok [obu]
    else do
      let obus ← bitstreamLoopI h fuel rest
      .ok (obu :: obus)

/-! ## pkg/formats/fmp4/parts.go -/

/-- parts.go:146-184: the loop over the entries of `trun`. -/
def readEntriesI (h : Nat) (t : FMP4.Trun) (tfhd : FMP4.Tfhd) : List FMP4.TrunEntry → Bytes → Res (List FMP4.Sample)
  | [], _ => .ok []
  | e :: l, ptr => do
    let duration := if FMP4.hasFlag t.flags 0x100 then e.duration else tfhd.defaultDuration
    let ptsOffset := toInt32 e.cto
    let flags := if FMP4.hasFlag t.flags 0x400 then e.flags else tfhd.defaultFlags
    let size := if FMP4.hasFlag t.flags 0x200 then e.size else tfhd.defaultSize
    if (ptr.length : Int) < toInt h size then .err "invalid sample size"
    else do
      let payload ← slice ptr 0 size
      let ptr ← sliceFrom ptr size
      let rest ← readEntriesI h t tfhd l ptr
      .ok (⟨duration, ptsOffset, FMP4.hasFlag flags (2 ^ 16), payload⟩ :: rest)

/-- parts.go:108-185: the case of `trun`. -/
def readTrunI (h : Nat) (b : Bytes) (bi : FMP4.BoxInfo) (r : FMP4.Reader) : Res FMP4.Reader :=
  match r.tfhd with
  | none => .err "unexpected trun"
  | some tfhd =>
    if r.state ≠ .waitingBoxes then .err "unexpected trun"
    else do
      let raw ← sliceFrom b bi.offset
      let count ← FMP4.rawCount raw
      if count > FMP4.maxSamplesPerTrun then .err "sample count exceeds maximum"
      else do
        let t ← FMP4.decodeTrun (bi.payload b)
        if t.entries.length ≠ 0 then
          if FMP4.hasFlag t.flags 1 = false then .err "unsupported flags"
          else do
            let pos := ((t.dataOffset % 2 ^ 64).toNat + r.moofOffset) % 2 ^ 64
            if b.length < pos then .err "invalid data_offset / moof_offset"
            else do
              let ptr ← sliceFrom b pos
              let samples ← readEntriesI h t tfhd t.entries ptr
              r.onTrack fun tr => { tr with samples := tr.samples ++ samples }
        else .ok r

/-! ## pkg/formats/pmp4/presentation.go -/

/-- presentation.go:201-211: the loop over the entries of `stts`. -/
def readSTTSI (h : Nat) : List (PMP4.Run Nat) → List PMP4.RSample → Res (List PMP4.RSample)
  | [], samples => .ok samples
  | e :: l, samples =>
    if toInt h (samples.length + toInt h e.count) > PMP4.maxSamples then .err "max samples reached"
    else readSTTSI h l (samples ++ List.replicate e.count { duration := e.value })

/-- presentation.go:237-242: the loop over the numbers of `stss`. -/
def readSTSSI (h : Nat) : List Nat → List PMP4.RSample → Res (List PMP4.RSample)
  | [], samples => .ok samples
  | n :: l, samples =>
    let i : Nat := (n + 2 ^ 32 - 1) % 2 ^ 32
    if toInt h i ≥ samples.length then .err "invalid stss"
    else do
      let sa ← idx samples i
      readSTSSI h l (samples.set i { sa with isNonSync := false })

/-- presentation.go:255-266: the loop over the entries of `ctts`. -/
def readCTTSI (h : Nat) : List (PMP4.Run Int) → Nat → List PMP4.RSample → Res (List PMP4.RSample)
  | [], _, samples => .ok samples
  | e :: l, n, samples =>
    if toInt h (n + toInt h e.count) > samples.length then .err "invalid ctts"
    else do
      let samples ← PMP4.setOffsets (wrapInt32 e.value) e.count n samples
      readCTTSI h l (n + e.count) samples

/-- presentation.go:302-312: `k` chunks of `spc` samples are added. -/
def addChunksI (h total : Nat) (spc : Int) : Nat → Int → List Int → Res (Int × List Int)
  | 0, sampleCount, chunks => .ok (sampleCount, chunks)
  | k + 1, sampleCount, chunks =>
    if toInt h (sampleCount + spc) > total then .err "invalid stsc"
    else addChunksI h total spc k (toInt h (sampleCount + spc)) (chunks ++ [spc])

/-- presentation.go:283-292: the number of chunks of an entry, of type `uint32`. -/
def chunkCountI (h total : Nat) (sampleCount : Int) (e : PMP4.StscEntry) : List PMP4.StscEntry → Res Nat
  | next :: _ => .ok ((next.firstChunk + 2 ^ 32 - e.firstChunk) % 2 ^ 32)
  | [] =>
    let spc := toInt h e.samplesPerChunk
    let remaining := toInt h (total - sampleCount)
    if spc = 0 then .panic
    else if remaining.tmod spc ≠ 0 then .err "invalid stsc"
    else .ok ((remaining.tdiv spc) % 2 ^ 32).toNat

/-- presentation.go:282-313: the loop over the entries of `stsc`. -/
def readSTSCI (h total : Nat) : List PMP4.StscEntry → Int → List Int → Res (List Int)
  | [], _, chunks => .ok chunks
  | e :: l, sampleCount, chunks => do
    let n ← chunkCountI h total sampleCount e l
    if toInt h (chunks.length + toInt h n) > PMP4.maxSamples then .err "invalid stsc"
    else if e.samplesPerChunk = 0 then .err "invalid stsc"
    else do
      let (sampleCount, chunks) ← addChunksI h total (toInt h e.samplesPerChunk) n sampleCount chunks
      readSTSCI h total l sampleCount chunks

/-- The variables of `Presentation.Unmarshal` that belong to a track, as `PMP4.Reader`. -/
structure ReaderI where
  props : Bool := false
  trackDuration : Nat := 0
  timeOffset : Int := 0
  samples : List PMP4.RSample := []
  chunks : List Int := []
  sizes : List Nat := []
  deriving Repr, DecidableEq

/-- presentation.go:344-346: chunks get their offset. -/
def chunkOffsetsI : List Int → List Nat → Nat → Res (List (Int × Nat))
  | [], _, _ => .ok []
  | c :: l, offsets, i => do
    let o ← idx offsets i
    let rest ← chunkOffsetsI l offsets (i + 1)
    .ok ((c, o) :: rest)

/-- presentation.go:352-377: the loop over the chunks. A negative number of samples makes no rounds. -/
def locateI (sizes : List Nat) : List (Int × Nat) → Nat → List PMP4.RSample → Res (List PMP4.RSample)
  | [], _, samples => .ok samples
  | (count, off) :: l, i, samples => do
    let (i, samples) ← PMP4.locateChunk sizes count.toNat off i samples
    locateI sizes l i samples

/-- presentation.go:190-378: one box. -/
def readBoxI (h : Nat) (r : ReaderI) (b : PMP4.Box) : Res ReaderI :=
  match b with
  | .stts entries =>
    if r.props then .err "unexpected box 'stts'"
    else do
      let samples ← readSTTSI h entries r.samples
      .ok { r with samples := samples, props := true,
                   timeOffset := wrapInt32 (toInt32 r.trackDuration - toInt32 (PMP4.sumRead 0 samples)) }
  | .stss numbers =>
    if r.props then do
      let samples ← readSTSSI h numbers (r.samples.map fun sa => { sa with isNonSync := true })
      .ok { r with samples := samples }
    else .err "unexpected box 'stss'"
  | .ctts entries =>
    if r.props then do
      let samples ← readCTTSI h entries 0 r.samples
      .ok { r with samples := samples }
    else .err "unexpected box 'ctts'"
  | .stsc entries =>
    if r.props then do
      let chunks ← readSTSCI h r.samples.length entries 0 r.chunks
      .ok { r with chunks := chunks }
    else .err "unexpected box 'stsc'"
  | .stsz sizes => if r.props then .ok { r with sizes := sizes } else .err "unexpected box 'stsz'"
  | .stco offsets =>
    if r.props then
      if offsets.length ≠ r.chunks.length then .err "invalid stco"
      else do
        let chunks ← chunkOffsetsI r.chunks offsets 0
        if r.sizes.length ≠ r.samples.length then .err "invalid stsz"
        else do
          let samples ← locateI r.sizes chunks 0 r.samples
          .ok { r with samples := samples }
    else .err "unexpected box 'stco'"

/-- The boxes of a track one after the other, as `PMP4.readBoxes`. -/
def readBoxesI (h : Nat) : List PMP4.Box → ReaderI → Res ReaderI
  | [], r => .ok r
  | b :: l, r => do
    let r ← readBoxI h r b
    readBoxesI h l r

/-! ## pkg/bits/read.go, pkg/codecs/h264/dts_extractor.go, pkg/codecs/h265/dts_extractor.go -/

/-- `bits.ReadBits(buf, pos, int(v))` (read.go:9-51) for a `uint32` value `v`. When `n` is negative there is always space, and
`1<<n` (read.go:30) panics. -/
def readBitsI (h v : Nat) : BitM Nat := fun buf pos =>
  if toInt h v > (buf.length * 8 : Int) - pos then .err "not enough bits"
  else if toInt h v < 0 then .panic
  else Bits.readBitsUnsafe buf pos (toInt h v).toNat

/-- h264/dts_extractor.go:26-60. -/
def readPOCI (h : Nat) (sps : H264.SPS) (idr : Bool) : BitM Nat := do
  let _ ← BitM.readUE
  let _ ← BitM.readUE
  let _ ← BitM.readUE
  let _ ← readBitsI h (H264.plus4 sps.log2MaxFrameNumMinus4)
  let _ ← BitM.cond idr BitM.readUE 0
  let v ← readBitsI h (H264.plus4 sps.log2MaxPicOrderCntLsbMinus4)
  pure (v % 2 ^ 32)

/-- h264/dts_extractor.go:21-61 (`getPictureOrderCount`). -/
def getPictureOrderCountI (h : Nat) (buf : Bytes) (sps : H264.SPS) (idr : Bool) : Res Nat := do
  let buf ← sliceFrom buf 1
  let buf ← slice buf 0 (min buf.length H264.maxBytesToGetPOC)
  let buf ← H264.emulationPreventionRemove buf
  let r ← readPOCI h sps idr buf 0
  .ok r.1

/-- h265/dts_extractor.go:37-106. -/
def readSliceTailI (h : Nat) (sps : H265.SPS) (pps : H265.PPS) : BitM H265.SliceInfo := do
  let _ ← BitM.readUE
  H265.skipExtra pps.numExtraSliceHeaderBits
  let sliceType ← BitM.readUE
  let _ ← BitM.cond pps.outputFlagPresentFlag BitM.readFlag false
  let _ ← BitM.cond sps.separateColourPlaneFlag (BitM.readBits 2) 0
  let _ ← readBitsI h (H264.plus4 sps.log2MaxPicOrderCntLsbMinus4)
  let f ← BitM.readFlag
  if f then H265.readSetIndex sps.shortTermRefPicSets sliceType
  else H265.readSliceSet sps.shortTermRefPicSets sliceType

end Verif.Narrow
