import Verif.Model.Base

/-!
# Model of the scheduling of clock references in the MPEG-TS writer

Source: /repo/pkg/formats/mpegts/writer.go

The third-party multiplexer (`astits.Muxer`) is outside the model: a call is modelled by the request
that it makes to `mux.WriteData`. Tracks are numbers; `isLeading` is the flag stored in each track.
The payload is left out, it does not influence the state.
-/

namespace Verif.TSWriter

/-- `dtsPCRDiff` (writer.go:28). -/
def dtsPCRDiff : Int := 90000 / 10

/-- The parts of `Writer` (writer.go:54-62) and of its tracks that the write functions use. -/
structure Writer where
  pcrCounter : Int := 0
  leadingTrackChosen : Bool := false
  isLeading : Nat → Bool := fun _ => false

/-- A request to `mux.WriteData`: track, clock reference, random access indicator, and the
timestamps of the PES header. -/
structure TSUnit where
  track : Nat
  pcr : Option Int
  randomAccess : Bool
  pts : Option Int
  dts : Option Int
  deriving Repr, DecidableEq

/-- writer.go:348-352, 401-405, 439-443: the first track written to becomes the leading one. -/
def Writer.choose (w : Writer) (track : Nat) : Writer :=
  if w.leadingTrackChosen = false then
    { w with leadingTrackChosen := true, isLeading := fun t => if t = track then true else w.isLeading t }
  else w

/-- `Writer.writeVideo` (writer.go:341-398). -/
def Writer.writeVideo (w : Writer) (track : Nat) (pts dts : Int) (randomAccess : Bool) : TSUnit × Writer :=
  let w := w.choose track
  let send := w.isLeading track && (randomAccess || w.pcrCounter == 0)
  let counter := if send then 3 else w.pcrCounter
  let counter := if w.isLeading track then counter - 1 else counter
  ({ track, pcr := if send then some (dts - dtsPCRDiff) else none, randomAccess,
     pts := some pts, dts := if dts = pts then none else some dts },
   { w with pcrCounter := counter })

/-- `Writer.writeAudio` (writer.go:400-436) and, with or without a timestamp, `Writer.writeData`
(writer.go:438-481), which treat the clock reference alike. -/
def Writer.writeOther (w : Writer) (track : Nat) (hasPTS : Bool) (pts : Int) : TSUnit × Writer :=
  let w := w.choose track
  let send := w.isLeading track && w.pcrCounter == 0
  let counter := if send then 3 else w.pcrCounter
  let counter := if w.isLeading track then counter - 1 else counter
  ({ track, pcr := if send then some (pts - dtsPCRDiff) else none, randomAccess := true,
     pts := if hasPTS then some pts else none, dts := none },
   { w with pcrCounter := counter })

/-- A client call, after the payload has been encoded. -/
inductive Call where
  | video (track : Nat) (pts dts : Int) (randomAccess : Bool)
  | other (track : Nat) (hasPTS : Bool) (pts : Int)
  deriving Repr, DecidableEq

/-- One call. -/
def Writer.call (w : Writer) : Call → TSUnit × Writer
  | .video t pts dts ra => w.writeVideo t pts dts ra
  | .other t h pts => w.writeOther t h pts

/-- The requests made by a sequence of calls. -/
def Writer.run (w : Writer) : List Call → List TSUnit
  | [] => []
  | c :: l => (w.call c).1 :: (w.call c).2.run l

end Verif.TSWriter
