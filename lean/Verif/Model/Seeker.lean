import Verif.Model.PMP4File

/-!
# Model: pkg/formats/pmp4, `GetPayload` on an `io.ReadSeeker`

`Presentation.Unmarshal` does not read payloads. It leaves in each sample a function that reads from the `io.ReadSeeker` that it was given; the
functions of all samples share it, with its position. In `Verif.PMP4.getPayload` the file is a list of bytes; here is the reader, that may
return less bytes than requested, and may fail.

`io.ReadFull` belongs to the standard library; it is modelled after its documentation and source (io.ReadAtLeast).
-/

namespace Verif.Seeker

/-- An `io.ReadSeeker` over `data`. `seeks` is what the next calls of `Seek` do: they succeed, or fail with an error and leave some position behind.
`reads` is what the next calls of `Read` do: how many bytes are returned at most, and the error. Once these are over, calls succeed. -/
structure Seeker where
  data : Bytes
  pos : Nat := 0
  seeks : List (Option (String × Nat)) := []
  reads : List (Nat × Option String) := []
  deriving Repr, DecidableEq

/-- `Seek(off, io.SeekStart)`. -/
def Seeker.seek (s : Seeker) (off : Nat) : Option String × Seeker :=
  match s.seeks with
  | [] => (none, { s with pos := off })
  | none :: l => (none, { s with pos := off, seeks := l })
  | some (e, p) :: l => (some e, { s with pos := p, seeks := l })

/-- `Read(p)` with `len(p) = cap`, that is positive. -/
def Seeker.read (s : Seeker) (cap : Nat) : Bytes × Option String × Seeker :=
  match s.reads with
  | [] =>
    let out := (s.data.drop s.pos).take cap
    (out, if out = [] then some "EOF" else none, { s with pos := s.pos + out.length })
  | (k, e) :: l =>
    let out := (s.data.drop s.pos).take (min k cap)
    (out, e, { s with pos := s.pos + out.length, reads := l })

/-- `io.ReadFull`: `acc` are the bytes that were read, `want` is `len(buf)`. `fuel` bounds the calls of `Read`; `none` when it is over. -/
def readFull : Nat → Seeker → Nat → Bytes → Option (Bytes × Option String × Seeker)
  | 0, _, _, _ => none
  | fuel + 1, s, want, acc =>
    if want ≤ acc.length then some (acc, none, s)
    else
      match s.read (want - acc.length) with
      | (out, none, s) => readFull fuel s want (acc ++ out)
      | (out, some e, s) =>
        let acc := acc ++ out
        if want ≤ acc.length then some (acc, none, s)
        else if acc ≠ [] ∧ e = "EOF" then some (acc, some "unexpected EOF", s)
        else some (acc, some e, s)

/-- presentation.go:363-372 (`GetPayload`), with `sampleOffset` and `sampleSize`: the slice that is returned, the error, and the reader. The variable
that is tested after `Seek` is `err` of line 334, that is nil, and not `err2`: the error of `Seek` is lost. The buffer is allocated before reading, and
is returned in any case. -/
def getPayload (s : Seeker) (off size : Nat) : Option (Bytes × Option String × Seeker) :=
  let (_, s) := s.seek off
  match readFull (s.reads.length + size + 1) s size [] with
  | none => none
  | some (out, e, s) => some (out ++ List.replicate (size - out.length) 0, e, s)

/-- Calls of `GetPayload` of several samples, one after the other. -/
def getPayloads : Seeker → List (Nat × Nat) → Option (List (Bytes × Option String) × Seeker)
  | s, [] => some ([], s)
  | s, (off, size) :: l =>
    match getPayload s off size with
    | none => none
    | some (buf, e, s) =>
      match getPayloads s l with
      | none => none
      | some (r, s) => some ((buf, e) :: r, s)

end Verif.Seeker
