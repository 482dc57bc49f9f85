import Verif.Model.Base
import Verif.Model.Bits
import Verif.Model.TimeDecoder

/-!
# Model: pkg/formats/pmp4 (sample tables and layout of media data)

The boxes are those of the `go-mp4` types: lists of entries. Encoding and decoding of boxes is done by `go-mp4`, which is not part of
the repository and is not modelled; neither are codecs. A `Sample` is a pointer in Go; here samples are values, and functions that
write to a sample return it. `GetPayload` is represented by the bytes that it returns.
-/

namespace Verif.PMP4
open Bits (toInt32 wrapInt32)
open TS (wrap64)

/-- sample.go:4-12. `offset` is filled by `sortSamples`. -/
structure Sample where
  duration : Nat := 0
  ptsOffset : Int := 0
  isNonSync : Bool := false
  payloadSize : Nat := 0
  payload : Bytes := []
  offset : Nat := 0
  deriving Repr, DecidableEq

/-- track.go:31-37, without the codec. -/
structure Track where
  id : Nat := 0
  timeScale : Nat := 1
  timeOffset : Int := 0
  samples : List Sample := []
  deriving Repr, DecidableEq

/-- track.go:15-22 (`allSamplesAreSync`). -/
def allSamplesAreSync : List Sample → Bool
  | [] => true
  | sa :: l => if sa.isNonSync then false else allSamplesAreSync l

/-- track.go:77-80: the sum of the durations, as `uint32`. -/
def sumDurations : Nat → List Sample → Nat
  | acc, [] => acc
  | acc, sa :: l => sumDurations ((acc + sa.duration) % 2 ^ 32) l

/-- Integer division of Go: panics when the divisor is zero. -/
def quot (a b : Int) : Res Int := if b = 0 then .panic else .ok (a.tdiv b)

/-- track.go:82: `presentationDuration`. -/
def presentationDuration (t : Track) : Res Nat := do
  let q ← quot (wrap64 ((sumDurations 0 t.samples + t.timeOffset) * 1000)) t.timeScale
  .ok (q % 2 ^ 32).toNat

/-- An entry of `elst`: `SegmentDurationV0` (in units of 1 / `globalTimescale` seconds) and `MediaTimeV0`. -/
structure ElstEntry where
  segmentDuration : Nat
  mediaTime : Int
  deriving Repr, DecidableEq

/-- Conversion of an integer to `uint64`. -/
def toUint64 (v : Int) : Nat := (v % 2 ^ 64).toNat

/-- Unsigned division of Go. -/
def uquot (a b : Nat) : Res Nat := if b = 0 then .panic else .ok (a / b)

/-- track.go:311-344 (`marshalELST`). -/
def marshalELST (t : Track) : Res (List ElstEntry) :=
  let sampleDuration := sumDurations 0 t.samples
  if t.timeOffset > 0 then do
    let a ← uquot (toUint64 t.timeOffset * 1000 % 2 ^ 64) t.timeScale
    let b ← uquot (sampleDuration * 1000 % 2 ^ 64) t.timeScale
    .ok [⟨a % 2 ^ 32, -1⟩, ⟨b % 2 ^ 32, 0⟩]
  else do
    let neg := wrapInt32 (-t.timeOffset)
    let a ← uquot ((sampleDuration + toUint64 neg) % 2 ^ 64 * 1000 % 2 ^ 64) t.timeScale
    .ok [⟨a % 2 ^ 32, neg⟩]

/-- track.go:136: the duration in `mdhd`. -/
def mediaDuration (t : Track) : Nat := ((sumDurations 0 t.samples + t.timeOffset) % 2 ^ 32).toNat

/-! ## Run-length tables -/

/-- An entry of `stts` (value: `SampleDelta`) or `ctts` (value: `SampleOffsetV1`). -/
structure Run (α : Type) where
  count : Nat
  value : α
  deriving Repr, DecidableEq

/-- track.go:355-364, 405-414: a round of the loops of `marshalSTTS` and `marshalCTTS`. -/
def runStep {α : Type} [DecidableEq α] (entries : List (Run α)) (v : α) : Res (List (Run α)) := do
  let last ← idx entries (entries.length - 1)
  if v = last.value then .ok (entries.set (entries.length - 1) { last with count := (last.count + 1) % 2 ^ 32 })
  else .ok (entries ++ [⟨1, v⟩])

def runLoop {α : Type} [DecidableEq α] : List α → List (Run α) → Res (List (Run α))
  | [], entries => .ok entries
  | v :: l, entries => do
    let entries ← runStep entries v
    runLoop l entries

/-- The part that `marshalSTTS` and `marshalCTTS` have in common, on the values of the samples. -/
def runEntries {α : Type} [DecidableEq α] (values : List α) : Res (List (Run α)) :=
  match values with
  | [] => .ok []
  | v :: l => runLoop l [⟨1, v⟩]

/-- track.go:346-372 (`marshalSTTS`). -/
def marshalSTTS (samples : List Sample) : Res (List (Run Nat)) := runEntries (samples.map (·.duration))

/-- track.go:396-425 (`marshalCTTS`). -/
def marshalCTTS (samples : List Sample) : Res (List (Run Int)) := runEntries (samples.map (·.ptsOffset))

/-- track.go:383-387: the loop of `marshalSTSS`, from index `i`. -/
def stssNumbers : Nat → List Sample → List Nat
  | _, [] => []
  | i, sa :: l => if sa.isNonSync then stssNumbers (i + 1) l else (i + 1) % 2 ^ 32 :: stssNumbers (i + 1) l

/-- track.go:374-394 (`marshalSTSS`); `none`: no box is written. -/
def marshalSTSS (samples : List Sample) : Option (List Nat) :=
  if allSamplesAreSync samples then none else some (stssNumbers 0 samples)

/-! ## Chunks -/

/-- An entry of `stsc`, without the sample description index, which is always 1. -/
structure StscEntry where
  firstChunk : Nat
  samplesPerChunk : Nat
  deriving Repr, DecidableEq

/-- The end of a sample, as `uint32`. -/
def Sample.end (sa : Sample) : Nat := (sa.offset + sa.payloadSize) % 2 ^ 32

/-- track.go:440-452: the loop of `marshalSTSC`; `off` is the end of the previous sample. -/
def stscLoop : List Sample → Nat → List StscEntry → Res (List StscEntry)
  | [], _, entries => .ok entries
  | sa :: l, off, entries =>
    if sa.offset = off then do
      let last ← idx entries (entries.length - 1)
      stscLoop l sa.end (entries.set (entries.length - 1) { last with samplesPerChunk := (last.samplesPerChunk + 1) % 2 ^ 32 })
    else stscLoop l sa.end (entries ++ [⟨(entries.length + 1) % 2 ^ 32, 1⟩])

/-- track.go:455-462: `i` goes from the last index down to 1. The inner loop and the slicing remove the entry of index `i`. -/
def stscCompress : Nat → List StscEntry → Res (List StscEntry)
  | 0, entries => .ok entries
  | i + 1, entries => do
    let a ← idx entries (i + 1)
    let b ← idx entries i
    stscCompress i (if a.samplesPerChunk = b.samplesPerChunk then entries.eraseIdx (i + 1) else entries)

/-- track.go:427-470 (`marshalSTSC`). -/
def marshalSTSC (samples : List Sample) : Res (List StscEntry) :=
  match samples with
  | [] => .ok []
  | first :: l => do
    let entries ← stscLoop l first.end [⟨1, 1⟩]
    stscCompress (entries.length - 1) entries

/-- track.go:472-485 (`marshalSTSZ`). -/
def marshalSTSZ (samples : List Sample) : List Nat := samples.map (·.payloadSize)

/-- track.go:496-501: the loop of `marshalSTCO`. -/
def stcoLoop : List Sample → Nat → List Nat → List Nat
  | [], _, entries => entries
  | sa :: l, off, entries => stcoLoop l sa.end (if sa.offset ≠ off then entries ++ [sa.offset] else entries)

/-- track.go:487-515 (`marshalSTCO`), before the offset of the media data is added. -/
def marshalSTCO (samples : List Sample) : List Nat :=
  match samples with
  | [] => []
  | first :: l => stcoLoop l first.end [first.offset]

/-- presentation.go:538-541: the offset of the media data is added to those of the chunks. -/
def shiftChunks (dataOffset : Nat) (offsets : List Nat) : List Nat :=
  offsets.map fun o => (o + dataOffset % 2 ^ 32) % 2 ^ 32

/-! ## Order of the samples -/

/-- presentation.go:22-27 (`durationMp4ToGo`). -/
def durationMp4ToGo (v : Int) (timeScale : Nat) : Res Int := do
  let secs ← quot v timeScale
  let dec := v.tmod timeScale
  let q ← quot (wrap64 (dec * 1000000000)) timeScale
  .ok (wrap64 (wrap64 (secs * 1000000000) + q))

/-- The variables of `sortSamples` that belong to a track. `done` has the samples that were laid out (in reverse order), `left` those
that were not: `processedSamples[i]` is the length of `done`. -/
structure Cursor where
  timeScale : Nat
  elapsed : Int
  done : List Sample
  left : List Sample
  deriving Repr, DecidableEq

/-- presentation.go:436-448: the loop that finds the track whose next sample is the first. `best` is the index and the time of the
best one so far. -/
def bestTrack : Nat → List Cursor → Option (Nat × Int) → Res (Option (Nat × Int))
  | _, [], best => .ok best
  | i, c :: l, best =>
    match c.left with
    | [] => bestTrack (i + 1) l best
    | _ :: _ => do
      let e ← durationMp4ToGo c.elapsed c.timeScale
      match best with
      | none => bestTrack (i + 1) l (some (i, e))
      | some (b, be) => bestTrack (i + 1) l (if e < be then some (i, e) else some (b, be))

/-- presentation.go:435-462: the outer loop. Its rounds are as many as the samples, given by `n`. The samples are returned with their
offset, in reverse order. -/
def sortLoop : Nat → List Cursor → Nat → List Sample → Res (Nat × List Sample × List Cursor)
  | 0, cs, offset, sorted => do
    let best ← bestTrack 0 cs none
    match best with
    | none => .ok (offset, sorted, cs)
    | some _ => .panic
  | n + 1, cs, offset, sorted => do
    let best ← bestTrack 0 cs none
    match best with
    | none => .ok (offset, sorted, cs)
    | some (i, _) => do
      let c ← idx cs i
      let sa ← idx c.left 0
      let sa := { sa with offset := offset }
      sortLoop n (cs.set i { c with elapsed := wrap64 (c.elapsed + sa.duration), done := sa :: c.done, left := c.left.drop 1 })
        ((offset + sa.payloadSize) % 2 ^ 32) (sa :: sorted)

/-- What `sortSamples` does: the size of the data, the samples in the order of the file, and the tracks, whose samples have their
offset. -/
structure Layout where
  dataSize : Nat
  sorted : List Sample
  tracks : List Track
  deriving Repr, DecidableEq

/-- presentation.go:419-465 (`sortSamples`). -/
def sortSamples (tracks : List Track) : Res Layout := do
  let cs := tracks.map fun t => (⟨t.timeScale, t.timeOffset, [], t.samples⟩ : Cursor)
  let (size, sorted, cs) ← sortLoop ((tracks.map (·.samples.length)).sum) cs 0 []
  .ok ⟨size, sorted.reverse, List.zipWith (fun t c => { t with samples := c.done.reverse ++ c.left }) tracks cs⟩

/-- presentation.go:553-580 (`marshalMdat`). -/
def marshalMdat (dataSize : Nat) (sorted : List Sample) : Bytes :=
  let n := (8 + dataSize) % 2 ^ 32
  [UInt8.ofNat (n / 2 ^ 24), UInt8.ofNat (n / 2 ^ 16), UInt8.ofNat (n / 2 ^ 8), UInt8.ofNat n] ++ [0x6D, 0x64, 0x61, 0x74] ++
    sorted.flatMap (·.payload)

/-! ## Reader -/

/-- A sample that was read. `location` has offset and size in the function `GetPayload`, which is `nil` when there is none. -/
structure RSample where
  duration : Nat
  ptsOffset : Int := 0
  isNonSync : Bool := false
  payloadSize : Nat := 0
  location : Option (Nat × Nat) := none
  deriving Repr, DecidableEq

/-- The boxes with sample tables. In `ctts`, values are those of `GetSampleOffset`, that may be of 33 bits. -/
inductive Box where
  | stts (entries : List (Run Nat))
  | stss (numbers : List Nat)
  | ctts (entries : List (Run Int))
  | stsc (entries : List StscEntry)
  | stsz (sizes : List Nat)
  | stco (offsets : List Nat)
  deriving Repr, DecidableEq

/-- The variables of `Presentation.Unmarshal` that belong to a track. `props` is `state == waitingSampleProps`; otherwise
`state == waitingSamples`. A chunk is represented by its number of samples. -/
structure Reader where
  props : Bool := false
  trackDuration : Nat := 0
  timeOffset : Int := 0
  samples : List RSample := []
  chunks : List Nat := []
  sizes : List Nat := []
  deriving Repr, DecidableEq

/-- presentation.go:18-19 (`maxSamples`, `maxChunks`). -/
def maxSamples : Nat := 30 * 60 * 60 * 48

/-- presentation.go:201-211: the loop over the entries of `stts`. -/
def readSTTS : List (Run Nat) → List RSample → Res (List RSample)
  | [], samples => .ok samples
  | e :: l, samples =>
    if samples.length + e.count > maxSamples then .err "max samples reached"
    else readSTTS l (samples ++ List.replicate e.count { duration := e.value })

/-- presentation.go:213-216: the sum of the durations, as `uint32`. -/
def sumRead : Nat → List RSample → Nat
  | acc, [] => acc
  | acc, sa :: l => sumRead ((acc + sa.duration) % 2 ^ 32) l

/-- presentation.go:237-242: the loop over the numbers of `stss`. -/
def readSTSS : List Nat → List RSample → Res (List RSample)
  | [], samples => .ok samples
  | n :: l, samples =>
    let i := (n + 2 ^ 32 - 1) % 2 ^ 32
    if i ≥ samples.length then .err "invalid stss"
    else do
      let sa ← idx samples i
      readSTSS l (samples.set i { sa with isNonSync := false })

/-- presentation.go:262-265: `k` samples from index `n` get an offset. -/
def setOffsets (v : Int) : Nat → Nat → List RSample → Res (List RSample)
  | 0, _, samples => .ok samples
  | k + 1, n, samples => do
    let sa ← idx samples n
    setOffsets v k (n + 1) (samples.set n { sa with ptsOffset := v })

/-- presentation.go:255-266: the loop over the entries of `ctts`. -/
def readCTTS : List (Run Int) → Nat → List RSample → Res (List RSample)
  | [], _, samples => .ok samples
  | e :: l, n, samples =>
    if n + e.count > samples.length then .err "invalid ctts"
    else do
      let samples ← setOffsets (wrapInt32 e.value) e.count n samples
      readCTTS l (n + e.count) samples

/-- presentation.go:302-312: `k` chunks of `spc` samples are added. -/
def addChunks (total spc : Nat) : Nat → Nat → List Nat → Res (Nat × List Nat)
  | 0, sampleCount, chunks => .ok (sampleCount, chunks)
  | k + 1, sampleCount, chunks =>
    if sampleCount + spc > total then .err "invalid stsc"
    else addChunks total spc k (sampleCount + spc) (chunks ++ [spc])

/-- presentation.go:283-292: the number of chunks of an entry. -/
def chunkCount (total sampleCount : Nat) (e : StscEntry) : List StscEntry → Res Nat
  | next :: _ => .ok ((next.firstChunk + 2 ^ 32 - e.firstChunk) % 2 ^ 32)
  | [] =>
    if e.samplesPerChunk = 0 then .panic
    else if (total - sampleCount) % e.samplesPerChunk ≠ 0 then .err "invalid stsc"
    else .ok ((total - sampleCount) / e.samplesPerChunk % 2 ^ 32)

/-- presentation.go:282-313: the loop over the entries of `stsc`. -/
def readSTSC (total : Nat) : List StscEntry → Nat → List Nat → Res (List Nat)
  | [], _, chunks => .ok chunks
  | e :: l, sampleCount, chunks => do
    let n ← chunkCount total sampleCount e l
    if chunks.length + n > maxSamples then .err "invalid stsc"
    else if e.samplesPerChunk = 0 then .err "invalid stsc"
    else do
      let (sampleCount, chunks) ← addChunks total e.samplesPerChunk n sampleCount chunks
      readSTSC total l sampleCount chunks

/-- presentation.go:357-376: the samples of a chunk; `k` are left, `off` is the offset of the next one. -/
def locateChunk (sizes : List Nat) : Nat → Nat → Nat → List RSample → Res (Nat × List RSample)
  | 0, _, i, samples => .ok (i, samples)
  | k + 1, off, i, samples => do
    let size ← idx sizes i
    let sa ← idx samples i
    locateChunk sizes k ((off + size) % 2 ^ 32) (i + 1)
      (samples.set i { sa with payloadSize := size, location := some (off, size) })

/-- presentation.go:344-346: chunks get their offset. -/
def chunkOffsets : List Nat → List Nat → Nat → Res (List (Nat × Nat))
  | [], _, _ => .ok []
  | c :: l, offsets, i => do
    let o ← idx offsets i
    let rest ← chunkOffsets l offsets (i + 1)
    .ok ((c, o) :: rest)

/-- presentation.go:352-377: the loop over the chunks. -/
def locate (sizes : List Nat) : List (Nat × Nat) → Nat → List RSample → Res (List RSample)
  | [], _, samples => .ok samples
  | (count, off) :: l, i, samples => do
    let (i, samples) ← locateChunk sizes count off i samples
    locate sizes l i samples

/-- presentation.go:190-378: one box. -/
def readBox (r : Reader) (b : Box) : Res Reader :=
  match b with
  | .stts entries =>
    if r.props then .err "unexpected box 'stts'"
    else do
      let samples ← readSTTS entries r.samples
      .ok { r with samples := samples, props := true,
                   timeOffset := wrapInt32 (toInt32 r.trackDuration - toInt32 (sumRead 0 samples)) }
  | .stss numbers =>
    if r.props then do
      let samples ← readSTSS numbers (r.samples.map fun sa => { sa with isNonSync := true })
      .ok { r with samples := samples }
    else .err "unexpected box 'stss'"
  | .ctts entries =>
    if r.props then do
      let samples ← readCTTS entries 0 r.samples
      .ok { r with samples := samples }
    else .err "unexpected box 'ctts'"
  | .stsc entries =>
    if r.props then do
      let chunks ← readSTSC r.samples.length entries 0 r.chunks
      .ok { r with chunks := chunks }
    else .err "unexpected box 'stsc'"
  | .stsz sizes => if r.props then .ok { r with sizes := sizes } else .err "unexpected box 'stsz'"
  | .stco offsets =>
    if r.props then
      if offsets.length ≠ r.chunks.length then .err "invalid stco"
      else do
        let chunks ← chunkOffsets r.chunks offsets 0
        if r.sizes.length ≠ r.samples.length then .err "invalid stsz"
        else do
          let samples ← locate r.sizes chunks 0 r.samples
          .ok { r with samples := samples }
    else .err "unexpected box 'stco'"

/-- The boxes of a track one after the other; `trackDuration` is the duration in `mdhd`. -/
def readBoxes : List Box → Reader → Res Reader
  | [], r => .ok r
  | b :: l, r => do
    let r ← readBox r b
    readBoxes l r

/-- track.go:254-282: the boxes with sample tables that are written for a track, whose chunk offsets are then shifted by
presentation.go:538-541. -/
def writeBoxes (dataOffset : Nat) (samples : List Sample) : Res (List Box) := do
  let stts ← marshalSTTS samples
  let ctts ← marshalCTTS samples
  let stsc ← marshalSTSC samples
  .ok ([.stts stts] ++ ((marshalSTSS samples).map Box.stss).toList ++
    [.ctts ctts, .stsc stsc, .stsz (marshalSTSZ samples), .stco (shiftChunks dataOffset (marshalSTCO samples))])

/-! ## Whole presentations -/

/-- The events of `ReadBoxStructure`, one for each call of the function of presentation.go:65-381. `codec b` stands for the boxes in
`stsd` and for the return of `ErrReadEnded` by `CodecBoxesReader.Read`; `b` tells whether a codec was found. An error of that function
is `codecError`. `other` is any box that the function does not handle. -/
inductive Event where
  | ftyp | moov | mvhd | trak
  | tkhd (id : Nat)
  | edts | elst | mdia
  | mdhd (timeScale duration : Nat)
  | minf | stbl | stsd
  | codec (found : Bool)
  | codecError
  | table (b : Box)
  | other
  deriving Repr, DecidableEq

/-- presentation.go:37-49 (`readState`). The last two are in `Reader.props`, of the current track. -/
inductive State where
  | waitingFtyp | waitingMoov | waitingMvhd | waitingTrak | waitingElst | waitingTkhd | waitingMdhd | waitingStsd | readingCodec
  | waitingSamples | waitingSampleProps
  deriving Repr, DecidableEq

/-- A track that was read, with the variables that are reset by `trak`. -/
structure RTrack where
  id : Nat := 0
  timeScale : Nat := 0
  reader : Reader := {}
  deriving Repr, DecidableEq

/-- The variables of `Presentation.Unmarshal`. `tracks` is `p.Tracks` without the current track; the current track is in `p.Tracks`,
as the last one, when `listed`. -/
structure PReader where
  state : State := .waitingFtyp
  tracks : List RTrack := []
  cur : Option RTrack := none
  listed : Bool := false
  trackDuration : Nat := 0
  deriving Repr, DecidableEq

/-- `p.Tracks`. -/
def PReader.all (p : PReader) : List RTrack :=
  match p.cur with
  | some t => if p.listed then p.tracks ++ [t] else p.tracks
  | none => p.tracks

/-- A write to `curTrack`: a nil dereference when there is none. -/
def PReader.withCur (p : PReader) (f : RTrack → Res (PReader)) : Res PReader :=
  match p.cur with
  | some t => f t
  | none => .panic

/-- presentation.go:65-381. -/
def readEvent (p : PReader) (e : Event) : Res PReader :=
  match e with
  | .codec found =>
    if p.state ≠ .readingCodec then .err "not possible"
    else if found then .ok { p with state := .waitingSamples }
    else if p.listed then .ok { p with state := .waitingSamples, listed := false }
    else if p.tracks = [] then .panic
    else .ok { p with state := .waitingSamples, tracks := p.tracks.dropLast }
  | .codecError => if p.state = .readingCodec then .err "codec" else .ok p
  | .ftyp => if p.state ≠ .waitingFtyp then .err "unexpected box" else .ok { p with state := .waitingMoov }
  | .moov => if p.state ≠ .waitingMoov then .err "unexpected box" else .ok { p with state := .waitingMvhd }
  | .mvhd => if p.state ≠ .waitingMvhd then .err "unexpected box" else .ok { p with state := .waitingTrak }
  | .trak =>
    if p.state ≠ .waitingTrak ∧ p.state ≠ .waitingSampleProps then .err "unexpected box"
    else .ok { p with state := .waitingTkhd, tracks := p.all, cur := some {}, listed := true }
  | .tkhd id =>
    if p.state ≠ .waitingTkhd then .err "unexpected box"
    else p.withCur fun t => .ok { p with state := .waitingElst, cur := some { t with id := id } }
  | .edts => if p.state ≠ .waitingElst then .err "unexpected box" else .ok p
  | .elst => if p.state ≠ .waitingElst then .err "unexpected box" else .ok { p with state := .waitingMdhd }
  | .mdia => if p.state ≠ .waitingMdhd then .err "unexpected box" else .ok p
  | .mdhd timeScale duration =>
    if p.state ≠ .waitingMdhd then .err "unexpected box"
    else if timeScale = 0 then .err "invalid timescale"
    else p.withCur fun t =>
      .ok { p with state := .waitingStsd, trackDuration := duration, cur := some { t with timeScale := timeScale } }
  | .minf => if p.state ≠ .waitingStsd then .err "unexpected box" else .ok p
  | .stbl => if p.state ≠ .waitingStsd then .err "unexpected box" else .ok p
  | .stsd => if p.state ≠ .waitingStsd then .err "unexpected box" else .ok { p with state := .readingCodec }
  | .table b =>
    if p.state ≠ .waitingSamples ∧ p.state ≠ .waitingSampleProps then .err "unexpected box"
    else p.withCur fun t => do
      let r ← readBox { t.reader with props := p.state = .waitingSampleProps, trackDuration := p.trackDuration } b
      .ok { p with state := if r.props then .waitingSampleProps else .waitingSamples, cur := some { t with reader := r } }
  | .other => .ok p

def readEvents : List Event → PReader → Res PReader
  | [], p => .ok p
  | e :: l, p => do
    let p ← readEvent p e
    readEvents l p

/-- presentation.go:33-395 (`Presentation.Unmarshal`). -/
def unmarshal (events : List Event) : Res (List RTrack) := do
  let p ← readEvents events {}
  if p.state ≠ .waitingTrak ∧ p.state ≠ .waitingSampleProps then .err "parse error"
  else if p.all = [] then .err "no tracks found"
  else .ok p.all

/-- presentation.go:363-372: `GetPayload` of a sample, on a file that can be read without failures. Model/Seeker.lean has the function on a
reader that may fail. -/
def getPayload (file : Bytes) (sa : RSample) : Res Bytes :=
  match sa.location with
  | none => .panic
  | some (off, size) =>
    if ((file.drop off).take size).length = size then .ok ((file.drop off).take size) else .err "EOF"

/-- track.go:39-309: the boxes of a track, in the order in which they are met by the reader. Boxes that the reader does not handle
(`hdlr`, `vmhd`, `smhd`, `dinf`) are `other`; the boxes of the codec are replaced by `codec true`. -/
def trackEvents (dataOffset : Nat) (t : Track) : Res (List Event) := do
  let _ ← presentationDuration t
  let _ ← marshalELST t
  let tables ← writeBoxes dataOffset t.samples
  .ok ([.trak, .tkhd (t.id % 2 ^ 32), .edts, .elst, .mdia, .mdhd t.timeScale (mediaDuration t), .other, .minf, .other, .other,
    .stbl, .stsd, .codec true] ++ tables.map Event.table)

def tracksEvents (dataOffset : Nat) : List Track → Res (List Event)
  | [] => .ok []
  | t :: l => do
    let a ← trackEvents dataOffset t
    let b ← tracksEvents dataOffset l
    .ok (a ++ b)

/-- presentation.go:398-417 (`Presentation.Marshal`), 467-551: `header` has the bytes of `ftyp` and `moov`, whose length does not
depend on the values of the chunk offsets. Returns the events that the boxes generate, and the file. -/
def marshal (header : Bytes) (tracks : List Track) : Res (List Event × Bytes) := do
  let layout ← sortSamples tracks
  let events ← tracksEvents (header.length + 8) layout.tracks
  .ok ([.ftyp, .moov, .mvhd] ++ events ++ [.other], header ++ marshalMdat layout.dataSize layout.sorted)

end Verif.PMP4
