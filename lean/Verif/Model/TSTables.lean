import Verif.Model.TSWriter

/-!
# Model of the tables that the MPEG-TS writer sends

Source: /repo/pkg/formats/mpegts/writer.go

`Model/TSWriter.lean` says which units carry a clock reference. Here the PID on which clock references are announced is added:
`SetPCRPID` and `WriteTables` of the third-party multiplexer (`astits.Muxer`). About the multiplexer it is assumed that tables announce
the PID that was last set, and that they are refused when this is not the PID of a stream. Whether it sends tables on its own in front
of a unit is left open (`Op.write` carries the decision), writer.go:86-92 says when it does.
-/

namespace Verif.TSTables
open Verif.TSWriter

/-- What reaches the output. -/
inductive Event where
  | tables (pcrPID : Nat)
  | refused
  | unit (u : TSUnit)
  deriving Repr, DecidableEq

/-- `Writer` (writer.go:54-62) and the PID set in its multiplexer. Tracks are identified by their PIDs, `Initialize` has added a
stream for each (writer.go:72-84). -/
structure Writer where
  tracks : List Nat
  clock : TSWriter.Writer := {}
  pcrPID : Option Nat := none

/-- What a client can do. `automatic`: the multiplexer sends tables in front of the unit. -/
inductive Op where
  | tables
  | write (c : Call) (automatic : Bool)
  deriving Repr, DecidableEq

/-- The track of a call. -/
def track : Call → Nat
  | .video t _ _ _ => t
  | .other t _ _ => t

/-- `mux.WriteTables` (outside of the repository). -/
def Writer.sendTables (w : Writer) : Event :=
  match w.pcrPID with
  | none => .refused
  | some p => if w.tracks.contains p then .tables p else .refused

/-- `Writer.WriteTables` (writer.go:97-108). -/
def Writer.writeTables (w : Writer) : List Event × Writer :=
  let w :=
    match w.tracks with
    | [] => w
    | t :: _ => if w.clock.leadingTrackChosen then w else { w with pcrPID := some t }
  ([w.sendTables], w)

/-- `writeVideo`, `writeAudio`, `writeData` (writer.go:341-481): the PID is set together with the leading track (:348-352, :401-405,
:439-443). The multiplexer writes no unit when the tables in front of it are refused. -/
def Writer.write (w : Writer) (c : Call) (automatic : Bool) : List Event × Writer :=
  let pcrPID := if w.clock.leadingTrackChosen then w.pcrPID else some (track c)
  let r := w.clock.call c
  let w := { w with clock := r.2, pcrPID }
  (if automatic then
    match w.sendTables with
    | .refused => [.refused]
    | e => [e, .unit r.1]
   else [.unit r.1], w)

/-- One operation. -/
def Writer.step (w : Writer) : Op → List Event × Writer
  | .tables => w.writeTables
  | .write c a => w.write c a

/-- The output of a sequence of operations. -/
def Writer.run (w : Writer) : List Op → List Event
  | [] => []
  | o :: l => (w.step o).1 ++ (w.step o).2.run l

end Verif.TSTables
