import Verif.Model.VP9
import Verif.Spec.Grammar

/-!
# VP9 uncompressed header (VP9 Bitstream & Decoding Process Specification v0.6, sections 6.2 and 6.2.2), up to frame_size
-/

namespace Verif.Spec.VP9
open Verif.VP9 (ColorConfig FrameSize)
open Gr

/-- CS_RGB. -/
def csRGB : Nat := 7

/-- `BitDepth` of a profile and `ten_or_twelve_bit`. -/
def bitDepthOf : Nat → Bool → Nat
  | 0, _ => 8
  | 1, _ => 8
  | _, false => 10
  | _, true => 12

/-- Profiles with chroma subsampling other than 4:2:0. -/
def oddProfile (profile : Nat) : Bool := profile % 2 == 1

/-- subsampling_x, subsampling_y, reserved_zero. -/
def subsampling : Gr (Bool × Bool) := do
  let x ← flag
  let y ← flag
  reserved 1
  pure (x, y)

/-- color_config( ). -/
def colorConfig (profile : Nat) : Gr ColorConfig := do
  let tenOrTwelve ← opt (decide (2 ≤ profile)) flag false
  let space ← u 3
  if space = csRGB then do
    let _ ← opt (oddProfile profile) (reserved 1) ()
    pure ⟨tenOrTwelve, bitDepthOf profile tenOrTwelve, space, true, false, false⟩
  else do
    let range ← flag
    let s ← opt (oddProfile profile) subsampling (true, true)
    pure ⟨tenOrTwelve, bitDepthOf profile tenOrTwelve, space, range, s.1, s.2⟩

/-- frame_sync_code( ), color_config( ), frame_size( ). -/
def keyFrame (profile : Nat) : Gr (ColorConfig × FrameSize) := do
  lit 8 0x49
  lit 8 0x83
  lit 8 0x42
  let cc ← colorConfig profile
  let w ← u 16
  let h ← u 16
  pure (cc, ⟨w, h⟩)

/-- What the start of a frame header says. -/
inductive Info where
  | existing (profile : Nat) (idx : Nat)
  | frame (profile : Nat) (showFrame resilient : Bool)
  | key (profile : Nat) (showFrame resilient : Bool) (cc : ColorConfig) (size : FrameSize)

/-- uncompressed_header( ), up to the frame size of a key frame. -/
def header : Gr Info := do
  lit 2 2
  let lo ← u 1
  let hi ← u 1
  let profile := 2 * hi + lo
  let _ ← opt (profile == 3) (reserved 1) ()
  let existing ← flag
  if existing then do
    let i ← u 3
    pure (.existing profile i)
  else do
    let frameType ← flag
    let showFrame ← flag
    let resilient ← flag
    if frameType then pure (.frame profile showFrame resilient)
    else do
      let k ← keyFrame profile
      pure (.key profile showFrame resilient k.1 k.2)

end Verif.Spec.VP9
