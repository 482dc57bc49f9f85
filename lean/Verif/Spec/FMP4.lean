import Verif.Model.FMP4
import Verif.Spec.Bytes

/-!
# Specification: fragments (ISO 14496-12 8.8)

Bytes of a movie fragment and of its media data, written down from the standard. Numbers are truncated to the size of their field.
-/

namespace Verif.Spec.FMP4
open Spec (beBytes)
open Verif.FMP4 (Sample PartTrack Part)

/-- 4.2: size, type, payload. -/
def box (typ payload : Bytes) : Bytes := beBytes 4 (8 + payload.length) ++ typ ++ payload

/-- 4.2: version, flags, payload. -/
def fullBox (typ : Bytes) (version flags : Nat) (payload : Bytes) : Bytes := box typ (beBytes 1 version ++ beBytes 3 flags ++ payload)

/-- A signed number in 4 bytes. -/
def beSigned (v : Int) : Bytes := beBytes 4 (v % 2 ^ 32).toNat

/-- 8.8.8: flags of a run with data offset, durations and sizes; with sample flags and with composition offsets if some sample needs
them. -/
def runFlags (samples : List Sample) : Nat :=
  0x301 + (if samples.any (·.isNonSync) then 0x400 else 0) + (if samples.any (·.ptsOffset ≠ 0) then 0x800 else 0)

/-- 8.8.8: a sample of a run. `sample_is_non_sync_sample` is the bit 16 of its flags. -/
def runRow (withFlags withOffsets : Bool) (sa : Sample) : Bytes :=
  beBytes 4 sa.duration ++ beBytes 4 sa.payload.length ++ (if withFlags then beBytes 4 (if sa.isNonSync then 0x10000 else 0) else []) ++
    (if withOffsets then beSigned sa.ptsOffset else [])

/-- 8.8.8: the run of a track whose data starts at `dataOffset`. -/
def run (samples : List Sample) (dataOffset : Int) : Bytes :=
  fullBox [0x74, 0x72, 0x75, 0x6E] 1 (runFlags samples)
    (beBytes 4 samples.length ++ beSigned dataOffset ++
      samples.flatMap (runRow (samples.any (·.isNonSync)) (samples.any (·.ptsOffset ≠ 0))))

/-- 8.8.6, 8.8.7, 8.8.12: the fragment of a track. Data offsets are relative to the beginning of `moof`. -/
def traf (t : PartTrack) (dataOffset : Int) : Bytes :=
  box [0x74, 0x72, 0x61, 0x66]
    (fullBox [0x74, 0x66, 0x68, 0x64] 0 0x20000 (beBytes 4 t.id) ++ fullBox [0x74, 0x66, 0x64, 0x74] 1 0 (beBytes 8 t.baseTime) ++
      run t.samples dataOffset)

/-- 8.8.4, 8.8.5: a fragment with the given data offsets. -/
def moof (p : Part) (dataOffsets : List Int) : Bytes :=
  box [0x6D, 0x6F, 0x6F, 0x66]
    (fullBox [0x6D, 0x66, 0x68, 0x64] 0 0 (beBytes 4 p.sequenceNumber) ++ (List.zipWith traf p.tracks dataOffsets).flatten)

/-- The media data of a track. -/
def trackData (t : PartTrack) : Bytes := t.samples.flatMap (·.payload)

/-- 8.1.1. -/
def mdat (p : Part) : Bytes := box [0x6D, 0x64, 0x61, 0x74] (p.tracks.flatMap trackData)

/-- The first bytes of `data`, split in pieces of the given sizes. -/
def split : List Nat → Bytes → List Bytes
  | [], _ => []
  | n :: l, data => data.take n :: split l (data.drop n)

end Verif.Spec.FMP4
