import Verif.Model.Base
import Verif.Model.Readers

/-!
# Specifications for the stream readers and the seekable buffer
-/

namespace Verif.Spec

/-- Packets of a transport stream with garbage: drop bytes one at a time until a sync byte with a
whole packet behind it, take the packet, go on. -/
def resync : Bytes → List Bytes
  | [] => []
  | b :: l =>
    if b = 0x47 then
      if l.length < 187 then [] else (b :: l.take 187) :: resync (l.drop 187)
    else resync l
termination_by l => l.length
decreasing_by all_goals simp_wf; all_goals omega

/-- A transport-stream packet. -/
def IsPacket (p : Bytes) : Prop := p.length = 188 ∧ p[0]? = some 0x47

/-- A zero-filling file: a total content function, a length and a position. -/
structure File where
  content : Nat → UInt8
  len : Nat
  pos : Nat

namespace File

/-- The empty file. -/
def empty : File := ⟨fun _ => 0, 0, 0⟩

/-- Write at the current position. -/
def write (f : File) (p : Bytes) : File :=
  { content := fun i => if f.pos ≤ i ∧ i < f.pos + p.length then p.getD (i - f.pos) 0 else f.content i
    len := max f.len (f.pos + p.length)
    pos := f.pos + p.length }

/-- The position a seek asks for. -/
def target (f : File) (offset whence : Int) : Int :=
  match whence with
  | 0 => offset
  | 1 => f.pos + offset
  | 2 => f.len + offset
  | _ => 0

/-- Seek: negative positions are refused; seeking past the end extends the file. -/
def seek (f : File) (offset whence : Int) : Option File :=
  if f.target offset whence < 0 then none
  else some { f with pos := (f.target offset whence).toNat, len := max f.len (f.target offset whence).toNat }

/-- The file as a byte string. -/
def bytes (f : File) : Bytes := (List.range f.len).map f.content

/-- One operation, with its result. -/
def step (f : File) : Readers.SOp → (Int × Option String) × File
  | .write p => ((p.length, none), f.write p)
  | .seek o w => match f.seek o w with
    | none => ((0, some "negative position"), f)
    | some f' => ((f'.pos, none), f')
  | .reset => ((0, none), empty)

/-- A sequence of operations. -/
def run (f : File) : List Readers.SOp → List (Int × Option String) × File
  | [] => ([], f)
  | op :: l => let (r, f') := f.step op; let (rs, f'') := f'.run l; (r :: rs, f'')

end File
end Verif.Spec
