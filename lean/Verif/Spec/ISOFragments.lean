import Verif.Spec.ISOFile

/-!
# Specification: fragmented files of ISO 14496-12 (8.8)

A reader of movie fragments, written from the standard without reference to the model: all optional fields, defaults of `trex` and `tfhd`,
all rules for the base of data offsets. `tfdt` is taken to be mandatory, as in CMAF.
-/

namespace Verif.Spec.ISO
open Spec.Records (field fourcc)
open SampleTables (region)

/-- A flag. -/
def flag (flags k : Nat) : Bool := flags / 2 ^ k % 2 == 1

/-- 32-bit numbers. -/
def words (b : Bytes) : List Nat := (pieces 4 (b.length / 4) b).map fun r => field r 0 32

/-- A number that is there if a flag says so. -/
def word (present : Bool) (l : List Nat) : Option (Option Nat × List Nat) :=
  if present then
    match l with
    | [] => none
    | v :: l => some (some v, l)
  else some (none, l)

/-- 8.8.3 (`trex`): defaults of a track. -/
structure Defaults where
  id : Nat
  description : Nat
  duration : Nat
  size : Nat
  flags : Nat
  deriving Repr, DecidableEq

/-- 8.8.8: a sample of a run. -/
structure RunSample where
  duration : Option Nat
  size : Option Nat
  flags : Option Nat
  offset : Int
  deriving Repr, DecidableEq

/-- 8.8.8 (`trun`). -/
structure FragmentRun where
  dataOffset : Option Int
  firstFlags : Option Nat
  samples : List RunSample
  deriving Repr, DecidableEq

/-- 8.8.7 (`tfhd`). -/
structure FragmentHeader where
  id : Nat
  base : Option Nat
  baseIsMoof : Bool
  description : Option Nat
  duration : Option Nat
  size : Option Nat
  flags : Option Nat
  deriving Repr, DecidableEq

/-- 8.8.6 (`traf`). -/
structure TrackFragment extends FragmentHeader where
  time : Nat
  runs : List FragmentRun
  deriving Repr, DecidableEq

/-- 8.8.4 (`moof`), with its position in the file. -/
structure Fragment where
  position : Nat
  sequence : Nat
  tracks : List TrackFragment
  deriving Repr, DecidableEq

/-! ## Boxes -/

/-- 8.8.3. -/
def readTrex (b : Bytes) : Option Defaults := do
  ensure (field b 0 8 = 0 ∧ b.length = 24)
  some ⟨field b 32 32, field b 64 32, field b 96 32, field b 128 32, field b 160 32⟩

/-- 8.8.8: `n` samples of a run. Offsets are signed in version 1. -/
def readRunSamples (version flags : Nat) : Nat → List Nat → Option (List RunSample)
  | 0, [] => some []
  | 0, _ :: _ => none
  | n + 1, l => do
    let (duration, l) ← word (flag flags 8) l
    let (size, l) ← word (flag flags 9) l
    let (sampleFlags, l) ← word (flag flags 10) l
    let (offset, l) ← word (flag flags 11) l
    let offset := offset.getD 0
    let m ← readRunSamples version flags n l
    some (⟨duration, size, sampleFlags, if version = 0 then offset else signed offset⟩ :: m)

/-- 8.8.8. -/
def readRun (b : Bytes) : Option FragmentRun := do
  ensure (8 ≤ b.length ∧ b.length % 4 = 0)
  let flags := field b 8 24
  let (dataOffset, l) ← word (flag flags 0) (words (b.drop 8))
  let (firstFlags, l) ← word (flag flags 2) l
  let samples ← readRunSamples (field b 0 8) flags (field b 32 32) l
  some ⟨dataOffset.map signed, firstFlags, samples⟩

/-- 8.8.7. -/
def readHeader (b : Bytes) : Option FragmentHeader := do
  ensure (8 ≤ b.length ∧ b.length % 4 = 0)
  let flags := field b 8 24
  let (high, l) ← word (flag flags 0) (words (b.drop 8))
  let (low, l) ← word (flag flags 0) l
  let (description, l) ← word (flag flags 1) l
  let (duration, l) ← word (flag flags 3) l
  let (size, l) ← word (flag flags 4) l
  let (sampleFlags, l) ← word (flag flags 5) l
  ensure (l = [])
  some ⟨field b 32 32, high.bind fun h => low.map fun l => h * 2 ^ 32 + l, flag flags 17, description, duration, size, sampleFlags⟩

/-- 8.8.12 (`tfdt`). -/
def readTime (b : Bytes) : Option Nat :=
  if field b 0 8 = 0 then do
    ensure (b.length = 8)
    some (field b 32 32)
  else do
    ensure (b.length = 12)
    some (field b 32 64)

/-- 8.8.6. -/
def readTrackFragment (b : Bytes) : Option TrackFragment := do
  let l ← boxes b
  let tfhd ← only (fourcc 't' 'f' 'h' 'd') l
  let header ← readHeader tfhd
  let tfdt ← only (fourcc 't' 'f' 'd' 't') l
  let time ← readTime tfdt
  let runs ← all readRun (named (fourcc 't' 'r' 'u' 'n') l)
  some ⟨header, time, runs⟩

/-- 8.8.4, 8.8.5. -/
def readFragment (position : Nat) (b : Bytes) : Option Fragment := do
  let l ← boxes b
  let mfhd ← only (fourcc 'm' 'f' 'h' 'd') l
  ensure (mfhd.length = 8)
  let tracks ← all readTrackFragment (named (fourcc 't' 'r' 'a' 'f') l)
  some ⟨position, field mfhd 32 32, tracks⟩

/-- The fragments among boxes that start at a position. -/
def readFragments : Nat → List (Bytes × Bytes) → Option (List Fragment)
  | _, [] => some []
  | position, x :: l => do
    let m ← readFragments (position + 8 + x.2.length) l
    if x.1 = fourcc 'm' 'o' 'o' 'f' then do
      let f ← readFragment position x.2
      some (f :: m)
    else some m

/-- 8.8.1 (`mvex`): the defaults of all tracks. -/
def readExtends (file : Bytes) : Option (List Defaults) := do
  let l ← boxes file
  let moov ← only (fourcc 'm' 'o' 'o' 'v') l
  let l ← boxes moov
  let mvex ← only (fourcc 'm' 'v' 'e' 'x') l
  let l ← boxes mvex
  all readTrex (named (fourcc 't' 'r' 'e' 'x') l)

/-! ## Samples -/

/-- A sample of a fragment, with the index of its description. -/
structure FragmentSample extends Sample where
  description : Nat
  deriving Repr, DecidableEq

/-- 8.8.8: bit 16 of the flags of a sample. -/
def isSyncSample (flags : Nat) : Bool := !flag flags 16

/-- What is in force for a track: the fields of `tfhd`, or those of `trex`. -/
def effective (d : Defaults) (h : FragmentHeader) : Defaults :=
  ⟨h.id, h.description.getD d.description, h.duration.getD d.duration, h.size.getD d.size, h.flags.getD d.flags⟩

/-- The samples of a run, given decoding time and position of the first; then the time and the position that follow. `first` are flags
that replace those of the first sample. -/
def runSamples (d : Defaults) : Option Nat → Int → Nat → List RunSample → List FragmentSample × Int × Nat
  | _, time, position, [] => ([], time, position)
  | first, time, position, s :: l =>
    let size := s.size.getD d.size
    let r := runSamples d none (time + s.duration.getD d.duration) (position + size) l
    (⟨⟨time, time + s.offset, isSyncSample (first.getD (s.flags.getD d.flags)), position, size⟩, d.description⟩ :: r.1, r.2)

/-- The samples of the runs of a track. A run without data offset follows the run before (8.8.8.1). -/
def runsSamples (d : Defaults) (base : Nat) : Int → Nat → List FragmentRun → List FragmentSample × Nat
  | _, position, [] => ([], position)
  | time, position, r :: l =>
    let start := match r.dataOffset with
      | none => position
      | some o => (base + o).toNat
    let x := runSamples d r.firstFlags time start r.samples
    let y := runsSamples d base x.2.1 x.2.2 l
    (x.1 ++ y.1, y.2)

/-- The samples of the tracks of a fragment. The base of data offsets is what `tfhd` says; otherwise the position of `moof`, or, without
default-base-is-moof, the end of the data of the preceding track (8.8.7.1). -/
def tracksSamples (defaults : List Defaults) (moof : Nat) : Nat → List TrackFragment → Option (List (Nat × List FragmentSample))
  | _, [] => some []
  | previous, t :: l => do
    let d ← defaults.find? fun d => d.id == t.id
    let base := t.base.getD (if t.baseIsMoof then moof else previous)
    let x := runsSamples (effective d t.toFragmentHeader) base t.time base t.runs
    let m ← tracksSamples defaults moof x.2 l
    some ((t.id, x.1) :: m)

/-- A fragmented file: the movie, then for each fragment the sequence number, and samples by track. Every track of a fragment is a track of
the movie. -/
structure Fragmented where
  movie : Movie
  fragments : List (Nat × List (Nat × List FragmentSample))
  deriving Repr, DecidableEq

def readFragmented (file : Bytes) : Option Fragmented := do
  let movie ← readMovie file
  let defaults ← readExtends file
  ensure (defaults.map (·.id) = movie.tracks.map (·.id))
  let l ← boxes file
  let fragments ← readFragments 0 l
  let fragments ← all (fun f => (tracksSamples defaults f.position f.position f.tracks).map fun t => (f.sequence, t)) fragments
  some ⟨movie, fragments⟩

end Verif.Spec.ISO
