import Verif.Spec.FMP4

/-!
# Specification: fragments with optional fields (ISO 14496-12 8.8.7, 8.8.8)

Fragments as any muxer may write them: defaults in `tfhd`, any number of runs per track, with or without each optional field; and the
samples that the standard says are in them.
-/

namespace Verif.Spec.Fragments
open Spec (beBytes)
open Spec.FMP4 (box fullBox beSigned split)
open Verif.FMP4 (Sample PartTrack Part)

/-- A flag. -/
def bit (c : Bool) (v : Nat) : Nat := if c then v else 0

/-- An optional field of `k` bytes. -/
def opt (k : Nat) : Option Nat → Bytes
  | none => []
  | some v => beBytes k v

/-- 8.8.8: a sample of a run. Absent fields are not written. -/
structure Row where
  duration : Nat := 0
  size : Nat := 0
  flags : Nat := 0
  offset : Int := 0
  deriving Repr, DecidableEq

/-- 8.8.8 (`trun`). -/
structure Run where
  version : Nat := 0
  dataOffset : Option Int := none
  firstFlags : Option Nat := none
  hasDuration : Bool := false
  hasSize : Bool := false
  hasFlags : Bool := false
  hasOffset : Bool := false
  rows : List Row := []
  deriving Repr, DecidableEq

/-- 8.8.6 (`traf`), 8.8.7 (`tfhd`), 8.8.12 (`tfdt`). -/
structure Traf where
  id : Nat := 0
  baseIsMoof : Bool := true
  baseOffset : Option Nat := none
  description : Option Nat := none
  duration : Option Nat := none
  size : Option Nat := none
  flags : Option Nat := none
  longTime : Bool := true
  time : Nat := 0
  runs : List Run := []
  deriving Repr, DecidableEq

/-- 8.8.4 (`moof`), 8.8.5 (`mfhd`), and the `mdat` that follows. -/
structure Frag where
  sequenceNumber : Nat := 0
  trafs : List Traf := []
  data : Bytes := []
  deriving Repr, DecidableEq

/-! ## Bytes -/

def Run.flags (r : Run) : Nat :=
  bit r.dataOffset.isSome 1 + bit r.firstFlags.isSome 4 + bit r.hasDuration 0x100 + bit r.hasSize 0x200 + bit r.hasFlags 0x400 + bit r.hasOffset 0x800

def Run.row (r : Run) (w : Row) : Bytes :=
  (if r.hasDuration then beBytes 4 w.duration else []) ++ (if r.hasSize then beBytes 4 w.size else []) ++
    (if r.hasFlags then beBytes 4 w.flags else []) ++ (if r.hasOffset then beSigned w.offset else [])

def Run.bytes (r : Run) : Bytes :=
  fullBox [0x74, 0x72, 0x75, 0x6E] r.version r.flags
    (beBytes 4 r.rows.length ++ opt 4 (r.dataOffset.map fun d => (d % 2 ^ 32).toNat) ++ opt 4 r.firstFlags ++ r.rows.flatMap r.row)

def Traf.headFlags (t : Traf) : Nat :=
  bit t.baseOffset.isSome 1 + bit t.description.isSome 2 + bit t.duration.isSome 8 + bit t.size.isSome 0x10 + bit t.flags.isSome 0x20 +
    bit t.baseIsMoof 0x20000

def Traf.head (t : Traf) : Bytes :=
  fullBox [0x74, 0x66, 0x68, 0x64] 0 t.headFlags
    (beBytes 4 t.id ++ opt 8 t.baseOffset ++ opt 4 t.description ++ opt 4 t.duration ++ opt 4 t.size ++ opt 4 t.flags)

def Traf.timeBox (t : Traf) : Bytes :=
  fullBox [0x74, 0x66, 0x64, 0x74] (if t.longTime then 1 else 0) 0 (beBytes (if t.longTime then 8 else 4) t.time)

def Traf.bytes (t : Traf) : Bytes := box [0x74, 0x72, 0x61, 0x66] (t.head ++ t.timeBox ++ t.runs.flatMap Run.bytes)

def Frag.moof (f : Frag) : Bytes :=
  box [0x6D, 0x6F, 0x6F, 0x66] (fullBox [0x6D, 0x66, 0x68, 0x64] 0 0 (beBytes 4 f.sequenceNumber) ++ f.trafs.flatMap Traf.bytes)

def Frag.bytes (f : Frag) : Bytes := f.moof ++ box [0x6D, 0x64, 0x61, 0x74] f.data

/-! ## Meaning -/

/-- 8.8.8.1: the size of a sample is in the run, or else it is the default. -/
def Run.sizeOf (r : Run) (t : Traf) (w : Row) : Nat := if r.hasSize then w.size else t.size.getD 0

/-- 8.8.8.1: the flags of the sample at `i`. `first_sample_flags` replace the default of the first sample. -/
def Run.flagsOf (r : Run) (t : Traf) (i : Nat) (w : Row) : Nat :=
  if i = 0 ∧ r.firstFlags.isSome then r.firstFlags.getD 0 else if r.hasFlags then w.flags else t.flags.getD 0

/-- The samples of a run from the one at `i`, whose payloads are given. -/
def Run.samplesFrom (r : Run) (t : Traf) : Nat → List Row → List Bytes → List Sample
  | i, w :: ws, p :: ps =>
    { duration := if r.hasDuration then w.duration else t.duration.getD 0,
      ptsOffset := if r.hasOffset then w.offset else 0,
      isNonSync := r.flagsOf t i w / 2 ^ 16 % 2 = 1,
      payload := p } :: r.samplesFrom t (i + 1) ws ps
  | _, _, _ => []

/-- 8.8.7.1: data offsets are relative to the base data offset if there is one, otherwise to `moof` (for a track that says so, and for
the first track). -/
def Traf.base (t : Traf) (moof : Nat) : Nat := t.baseOffset.getD moof

/-- The samples of a run with a data offset, of a track of the fragment at `moof`, in a file. -/
def Run.samples (r : Run) (t : Traf) (file : Bytes) (moof : Nat) : List Sample :=
  r.samplesFrom t 0 r.rows (split (r.rows.map (r.sizeOf t)) (file.drop ((t.base moof : Int) + r.dataOffset.getD 0).toNat))

def Traf.track (t : Traf) (file : Bytes) (moof : Nat) : PartTrack :=
  { id := t.id, baseTime := t.time, samples := t.runs.flatMap fun r => r.samples t file moof }

/-- The parts of the fragments that start at `pos`. -/
def parts (file : Bytes) : Nat → List Frag → List Part
  | _, [] => []
  | pos, f :: l => ⟨f.sequenceNumber, f.trafs.map fun t => t.track file pos⟩ :: parts file (pos + f.bytes.length) l

end Verif.Spec.Fragments
