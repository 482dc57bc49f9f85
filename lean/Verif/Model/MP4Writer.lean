import Verif.Model.Readers
import Verif.Spec.Bytes

/-!
# Model: internal/mp4/writer.go

`Writer` wraps the writer of `go-mp4`, which is not part of the repository: what is modelled of it is what its documentation and ISO
14496-12 say. `StartBox` writes a header of 8 bytes at the current position, `EndBox` goes back to it, writes the size (or fails, when it
does not fit in 32 bits) and returns to the end of the box. `amp4.Marshal` of a box writes its payload; it is given here as bytes. The file
is the seekable buffer of pkg/formats/fmp4/seekablebuffer. The stack of open boxes is replaced by the position and the type of the box
that is closed.
-/

namespace Verif.MP4Writer
open Readers (SBuf)
open Spec (beBytes)

/-- `Write` of the file. -/
def fileWrite (f : SBuf) (p : Bytes) : Res SBuf := do
  let (_, f) ← f.write p
  .ok f

/-- `Seek` of the file, from the start. -/
def fileSeek (f : SBuf) (offset : Int) : Res SBuf :=
  match f.seek offset 0 with
  | (_, some e, _) => .err e
  | (_, none, f) => .ok f

/-- writer.go:24-41 (`WriteBoxStart`): header and payload. Returns the offset of the box. -/
def writeBoxStart (f : SBuf) (typ payload : Bytes) : Res (Int × SBuf) := do
  let off := f.pos
  let f ← fileWrite f (beBytes 4 0 ++ typ)
  let f ← fileWrite f payload
  .ok (off, f)

/-- writer.go:44-47 (`WriteBoxEnd`) of the box of type `typ` at `off`. -/
def writeBoxEnd (f : SBuf) (off : Int) (typ : Bytes) : Res SBuf := do
  let last := f.pos
  let size := last - off
  let f ← fileSeek f off
  if size < 2 ^ 32 then do
    let f ← fileWrite f (beBytes 4 size.toNat ++ typ)
    fileSeek f last
  else .err "header size changed"

/-- writer.go:50-62 (`WriteBox`). -/
def writeBox (f : SBuf) (typ payload : Bytes) : Res (Int × SBuf) := do
  let (off, f) ← writeBoxStart f typ payload
  let f ← writeBoxEnd f off typ
  .ok (off, f)

/-- writer.go:65-92 (`RewriteBox`). -/
def rewriteBox (f : SBuf) (off : Int) (typ payload : Bytes) : Res SBuf := do
  let prev := f.pos
  let f ← fileSeek f off
  let (o, f) ← writeBoxStart f typ payload
  let f ← writeBoxEnd f o typ
  fileSeek f prev

end Verif.MP4Writer
