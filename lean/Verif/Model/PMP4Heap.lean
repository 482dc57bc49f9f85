import Verif.Model.PMP4File

/-!
# Model: pkg/formats/pmp4, `Presentation.Marshal` with samples in memory

`Track.Samples` is a slice of pointers (track.go:36), and `sortSamples` writes the offset of a sample into the sample. In `Verif.PMP4` and
`Verif.PMP4File` samples are values. Here they are in a memory, tracks have addresses, and the same address may be present more than
once, in a track or in several ones. An address that is outside of the memory represents a nil pointer. `Presentation.Tracks` is a
slice of pointers too, but tracks are not written to: a track that is present twice is the same as two tracks with the same addresses.
-/

namespace Verif.PMP4Heap
open TS (wrap64)
open PMP4 (Sample quot durationMp4ToGo)

/-- track.go:31-37. -/
structure Track where
  id : Nat := 0
  timeScale : Nat := 1
  timeOffset : Int := 0
  codec : Option MP4Codec.Codec := none
  samples : List Nat := []

/-- The variables of `sortSamples` that belong to a track: `elapsed[i]`, and the addresses from `processedSamples[i]` on. -/
structure Cursor where
  timeScale : Nat
  elapsed : Int
  left : List Nat

/-- presentation.go:436-448. -/
def bestTrack : Nat → List Cursor → Option (Nat × Int) → Res (Option (Nat × Int))
  | _, [], best => .ok best
  | i, c :: l, best =>
    match c.left with
    | [] => bestTrack (i + 1) l best
    | _ :: _ => do
      let e ← durationMp4ToGo c.elapsed c.timeScale
      match best with
      | none => bestTrack (i + 1) l (some (i, e))
      | some (b, be) => bestTrack (i + 1) l (if e < be then some (i, e) else some (b, be))

/-- presentation.go:435-462: the outer loop. Its rounds are as many as the samples, given by `n`. It returns `offset`, the addresses in
`sortedSamples` (in reverse order), and the memory. -/
def sortLoop : Nat → List Cursor → Nat → List Sample → List Nat → Res (Nat × List Nat × List Sample)
  | 0, cs, offset, heap, sorted => do
    let best ← bestTrack 0 cs none
    match best with
    | none => .ok (offset, sorted, heap)
    | some _ => .panic
  | n + 1, cs, offset, heap, sorted => do
    let best ← bestTrack 0 cs none
    match best with
    | none => .ok (offset, sorted, heap)
    | some (i, _) => do
      let c ← idx cs i
      let a ← idx c.left 0
      let sa ← idx heap a
      sortLoop n (cs.set i { c with elapsed := wrap64 (c.elapsed + sa.duration), left := c.left.drop 1 })
        ((offset + sa.payloadSize) % 2 ^ 32) (heap.set a { sa with offset := offset }) (a :: sorted)

/-- presentation.go:419-465 (`sortSamples`). -/
def sortSamples (heap : List Sample) (ts : List Track) : Res (Nat × List Nat × List Sample) := do
  let cs := ts.map fun t => (⟨t.timeScale, t.timeOffset, t.samples⟩ : Cursor)
  let (size, sorted, heap) ← sortLoop ((ts.map (·.samples.length)).sum) cs 0 heap []
  .ok (size, sorted.reverse, heap)

/-- The samples at some addresses, that are read one after the other. -/
def loadAll (heap : List Sample) : List Nat → Res (List Sample)
  | [] => .ok []
  | a :: l => do
    let sa ← idx heap a
    let r ← loadAll heap l
    .ok (sa :: r)

/-- The tracks, as `marshalFtypAndMoov` finds them in memory. It does not write to samples. -/
def loadTracks (heap : List Sample) : List Track → Res (List PMP4File.Track)
  | [] => .ok []
  | t :: l => do
    let samples ← loadAll heap t.samples
    let r ← loadTracks heap l
    .ok ({ id := t.id, timeScale := t.timeScale, timeOffset := t.timeOffset, samples := samples, codec := t.codec } :: r)

/-- presentation.go:398-417 (`Presentation.Marshal`), with 553-580 (`marshalMdat`). It returns the file and the memory. -/
def marshal (heap : List Sample) (ts : List Track) : Res (Bytes × List Sample) := do
  let (size, sorted, heap) ← sortSamples heap ts
  let tracks ← loadTracks heap ts
  let header ← PMP4File.marshalFtypAndMoov tracks
  let data ← loadAll heap sorted
  .ok (header ++ PMP4.marshalMdat size data, heap)

end Verif.PMP4Heap
