import Verif.Model.Bits

/-!
# Bit parsers and bit writers

`BitM α` is Go code that reads through `buf` with a shared `pos *int` and returns `(α, error)`; `BitW` is Go code that
writes into `buf` and advances `pos`. They only thread the buffer and the position; every primitive is the function of
`Verif.Model.Bits` with the same name.
-/

namespace Verif

/-- Code that reads from a buffer at a position; returns a value and the new position. -/
def BitM (α : Type) := Bytes → Nat → Res (α × Nat)

namespace BitM

instance : Monad BitM where
  pure a := fun _ pos => .ok (a, pos)
  bind p f := fun buf pos => Res.bind (p buf pos) fun r => f r.1 buf r.2

/-- `return ..., err`. -/
def fail {α} (e : String) : BitM α := fun _ _ => .err e

/-- Code that does not touch the buffer. -/
def lift {α} (x : Res α) : BitM α := fun _ pos => Res.bind x fun a => .ok (a, pos)

/-- `bits.HasSpace(buf, *pos, n)`. -/
def hasSpace (n : Nat) : BitM Unit := fun buf pos => Res.bind (Bits.hasSpace buf pos n) fun _ => .ok ((), pos)

/-- `bits.ReadBits(buf, pos, n)`. -/
def readBits (n : Nat) : BitM Nat := fun buf pos => Bits.readBits buf pos n

/-- `bits.ReadBitsUnsafe(buf, pos, n)`. -/
def readBitsU (n : Nat) : BitM Nat := fun buf pos => Bits.readBitsUnsafe buf pos n

/-- `bits.ReadFlag(buf, pos)`. -/
def readFlag : BitM Bool := fun buf pos => Bits.readFlag buf pos

/-- `bits.ReadFlagUnsafe(buf, pos)`. -/
def readFlagU : BitM Bool := fun buf pos => Bits.readFlagUnsafe buf pos

/-- `bits.ReadGolombUnsigned(buf, pos)`. -/
def readUE : BitM Nat := fun buf pos => Bits.readGolombUnsigned buf pos

/-- `bits.ReadGolombSigned(buf, pos)`. -/
def readSE : BitM Int := fun buf pos => Bits.readGolombSigned buf pos

/-- `*pos += n`. -/
def skip (n : Nat) : BitM Unit := fun _ pos => .ok ((), pos + n)

/-- The current position. -/
def getPos : BitM Nat := fun _ pos => .ok (pos, pos)

/-- `len(buf)`. -/
def bufLen : BitM Nat := fun buf pos => .ok (buf.length, pos)

/-- `if cond { p }` where `p` returns a value that is otherwise left at its default. -/
def cond {α} (c : Bool) (p : BitM α) (dflt : α) : BitM α := if c then p else pure dflt

/-- `for i := 0; i < n; i++ { s[i] = p() }`. -/
def times {α} (p : BitM α) : Nat → BitM (List α)
  | 0 => pure []
  | n + 1 => do
    let a ← p
    let l ← times p n
    pure (a :: l)

/-- `for _, x := range l { s = append(s, f(x)) }`. -/
def each {α β} (f : α → BitM β) : List α → BitM (List β)
  | [] => pure []
  | a :: l => do
    let b ← f a
    let r ← each f l
    pure (b :: r)

/-- `bits.ReadBits(buf, pos, n)` where the caller handles the error; a failed read leaves the position as it is. -/
def tryBits (n : Nat) : BitM (Option Nat) := fun buf pos =>
  match Bits.readBits buf pos n with
  | .ok r => .ok (some r.1, r.2)
  | .err _ => .ok (none, pos)
  | .panic => .panic

end BitM

/-- Code that writes into a buffer at a position; returns the buffer and the new position. -/
def BitW := Bytes → Nat → Res (Bytes × Nat)

namespace BitW

/-- No write. -/
def nop : BitW := fun buf pos => .ok (buf, pos)

/-- One write after the other. -/
def seq (a b : BitW) : BitW := fun buf pos => Res.bind (a buf pos) fun r => b r.1 r.2

/-- `return err`. -/
def fail (e : String) : BitW := fun _ _ => .err e

/-- `bits.WriteBitsUnsafe(buf, pos, v, n)`. -/
def bits (v n : Nat) : BitW := fun buf pos => Bits.writeBitsUnsafe buf pos v n

/-- `bits.WriteFlagUnsafe(buf, pos, v)`. -/
def flag (v : Bool) : BitW := fun buf pos => Bits.writeFlagUnsafe buf pos v

/-- `*pos += n`. -/
def skip (n : Nat) : BitW := fun buf pos => .ok (buf, pos + n)

/-- A list of writes. -/
def all : List BitW → BitW
  | [] => nop
  | w :: ws => seq w (all ws)

end BitW

end Verif
