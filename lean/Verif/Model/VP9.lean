import Verif.Model.BitM

/-!
# VP9 frame header (pkg/codecs/vp9/header.go)

`uint8` and `uint16` fields are natural numbers; what is read has fewer bits than the field.
-/

namespace Verif.VP9
open Verif.BitM

/-- pkg/codecs/vp9/header.go:10-17 (`Header_ColorConfig`). -/
structure ColorConfig where
  tenOrTwelveBit : Bool
  bitDepth : Nat
  colorSpace : Nat
  colorRange : Bool
  subsamplingX : Bool
  subsamplingY : Bool
  deriving Repr, DecidableEq

/-- pkg/codecs/vp9/header.go:80-83 (`Header_FrameSize`). -/
structure FrameSize where
  widthMinus1 : Nat
  heightMinus1 : Nat
  deriving Repr, DecidableEq

/-- pkg/codecs/vp9/header.go:98-107 (`Header`); `none` is a nil pointer. -/
structure Header where
  profile : Nat := 0
  showExistingFrame : Bool := false
  frameToShowMapIdx : Nat := 0
  nonKeyFrame : Bool := false
  showFrame : Bool := false
  errorResilientMode : Bool := false
  colorConfig : Option ColorConfig := none
  frameSize : Option FrameSize := none
  deriving Repr, DecidableEq

/-- header.go:49-58: the subsampling flags and a reserved bit. -/
def readSubsampling : BitM (Bool × Bool) := do
  hasSpace 3
  let x ← readFlagU
  let y ← readFlagU
  skip 1
  pure (x, y)

/-- header.go:69-73: a reserved bit; the flags are false. -/
def readReserved : BitM (Bool × Bool) := do
  hasSpace 1
  skip 1
  pure (false, false)

/-- header.go:42-62. -/
def readRange (profile : Nat) : BitM (Bool × Bool × Bool) := do
  let range ← readFlag
  let s ← cond (profile == 1 || profile == 3) readSubsampling (true, true)
  pure (range, s)

/-- header.go:63-75: the color range of RGB. -/
def readRGB (profile : Nat) : BitM (Bool × Bool × Bool) := do
  let s ← cond (profile == 1 || profile == 3) readReserved (false, false)
  pure (true, s)

/-- pkg/codecs/vp9/header.go:19-77 (`Header_ColorConfig.unmarshal`), on an empty struct. -/
def ColorConfig.unmarshal (profile : Nat) : BitM ColorConfig := do
  let ten ← cond (decide (profile ≥ 2)) readFlag false
  let bitDepth := if profile ≥ 2 then (if ten then 12 else 10) else 8
  let space ← readBits 3
  let r ← if space ≠ 7 then readRange profile else readRGB profile
  pure ⟨ten, bitDepth, space, r.1, r.2.1, r.2.2⟩

/-- pkg/codecs/vp9/header.go:85-94 (`Header_FrameSize.unmarshal`). -/
def FrameSize.unmarshal : BitM FrameSize := do
  hasSpace 32
  let w ← readBitsU 16
  let h ← readBitsU 16
  pure ⟨w, h⟩

/-- header.go:157-189: the key frame part, of a header whose other fields have been filled. -/
def Header.unmarshalKey (h : Header) : BitM Header := do
  hasSpace 24
  let b0 ← readBitsU 8
  if b0 ≠ 0x49 then fail "wrong frame_sync_byte_0" else do
  let b1 ← readBitsU 8
  if b1 ≠ 0x83 then fail "wrong frame_sync_byte_1" else do
  let b2 ← readBitsU 8
  if b2 ≠ 0x42 then fail "wrong frame_sync_byte_2" else do
  let cc ← ColorConfig.unmarshal h.profile
  let fs ← FrameSize.unmarshal
  pure { h with colorConfig := some cc, frameSize := some fs }

/-- header.go:147-192: what follows `show_existing_frame = 0`. -/
def Header.unmarshalFrame (h : Header) : BitM Header := do
  hasSpace 3
  let nonKey ← readFlagU
  let showFrame ← readFlagU
  let resilient ← readFlagU
  let h := { h with nonKeyFrame := nonKey, showFrame := showFrame, errorResilientMode := resilient }
  if !nonKey then h.unmarshalKey else pure h

/-- header.go:136-145: what follows `show_existing_frame = 1`. -/
def Header.unmarshalExisting (h : Header) : BitM Header := do
  let i ← readBits 3
  pure { h with frameToShowMapIdx := i }

/-- header.go:123-129: the reserved bit of profile 3. -/
def readReservedBit : BitM Unit := do
  hasSpace 1
  skip 1

/-- pkg/codecs/vp9/header.go:110-193 (`Header.Unmarshal`), on a header `h` that may have been used before: fields that
are not read keep their value. -/
def Header.unmarshalM (h : Header) : BitM Header := do
  hasSpace 4
  let marker ← readBitsU 2
  if marker ≠ 2 then fail "invalid frame marker" else do
  let lo ← readBitsU 1
  let hi ← readBitsU 1
  let profile := hi <<< 1 + lo
  let _ ← cond (profile == 3) readReservedBit ()
  let existing ← readFlag
  let h := { h with profile := profile, showExistingFrame := existing }
  if existing then h.unmarshalExisting else h.unmarshalFrame

/-- pkg/codecs/vp9/header.go:110 (`Header.Unmarshal`). -/
def Header.unmarshal (h : Header) (buf : Bytes) : Res Header := h.unmarshalM buf 0 >>= fun r => .ok r.1

/-- pkg/codecs/vp9/header.go:196-201 (`Header.Width`). -/
def Header.width (h : Header) : Nat :=
  match h.frameSize with
  | none => 0
  | some s => s.widthMinus1 + 1

/-- pkg/codecs/vp9/header.go:204-209 (`Header.Height`). -/
def Header.height (h : Header) : Nat :=
  match h.frameSize with
  | none => 0
  | some s => s.heightMinus1 + 1

/-- pkg/codecs/vp9/header.go:212-225 (`Header.ChromaSubsampling`). -/
def Header.chromaSubsampling (h : Header) : Nat :=
  match h.colorConfig with
  | none => 1
  | some c =>
    if !c.subsamplingX && !c.subsamplingY then 3
    else if c.subsamplingX && !c.subsamplingY then 2
    else 1

end Verif.VP9
