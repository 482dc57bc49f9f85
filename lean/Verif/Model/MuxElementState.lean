import Verif.Model.MPEG4Config
import Verif.Model.StepM

/-!
# An AudioMuxElement that is decoded into again and again (pkg/codecs/mpeg4audio/audio_mux_element.go)

An element may say that it uses the configuration of an earlier one, so the field `StreamMuxConfig` has to stay between two calls of
`Unmarshal`. A configuration is built in place: when it cannot be read to its end, what has been built so far stays in the field, with
nil pointers where programs and layers have not been reached.

Of a configuration that cannot be read to its end, the fields `OtherDataLenBits`, `CRCCheckSum` and the fields of the AudioSpecificConfig
that was being read are not modelled (they stay zero and nil): `Unmarshal` does not look at them.
-/

namespace Verif.MPEG4Audio
open Verif.BitM

/-- stream_mux_config.go:26-33: what the field `StreamMuxConfig` points to; `none` is a nil pointer. -/
structure HeldConfig where
  numSubFrames : Nat := 0
  programs : List (Option (List (Option Layer))) := []
  otherDataPresent : Bool := false
  otherDataLenBits : Nat := 0
  crcCheckPresent : Bool := false
  crcCheckSum : Nat := 0
  deriving Repr, DecidableEq

/-- Code that reads from a buffer and changes a configuration, which stays changed after an error. -/
def ConfM (α : Type) := HeldConfig → Bytes → Nat → HeldConfig × Res (α × Nat)

namespace ConfM

instance : Monad ConfM where
  pure a := fun c _ pos => (c, .ok (a, pos))
  bind p f := fun c buf pos =>
    match p c buf pos with
    | (c, .ok r) => f r.1 c buf r.2
    | (c, .err e) => (c, .err e)
    | (c, .panic) => (c, .panic)

/-- Code that does not touch the configuration. -/
def read {α} (p : BitM α) : ConfM α := fun c buf pos => (c, p buf pos)

/-- Assignments. -/
def modify (f : HeldConfig → HeldConfig) : ConfM Unit := fun c _ pos => (f c, .ok ((), pos))

end ConfM
open ConfM (read modify)

/-- `p.Layers = layers`, with `p` at index `prog`. -/
def setLayers (prog : Nat) (layers : List (Option Layer)) (c : HeldConfig) : HeldConfig :=
  { c with programs := c.programs.set prog (some layers) }

/-- `p.Layers[lay] = l` and assignments to the fields of `l`, with `p` at index `prog`, which is not nil. -/
def setLayer (prog lay : Nat) (l : Layer) (c : HeldConfig) : HeldConfig :=
  { c with programs := c.programs.modify prog (Option.map fun ls => ls.set lay (some l)) }

/-- stream_mux_config.go:116-117: `c.Programs` and `p.Layers` are cut after the layer that was read last. -/
def cutAt (prog lay : Nat) (c : HeldConfig) : HeldConfig :=
  { c with programs := (c.programs.take (prog + 1)).modify prog (Option.map fun ls => ls.take (lay + 1)) }

/-- `&StreamMuxConfigLayer{}`. -/
def emptyLayer : Layer :=
  { asc := none, frameLengthType := 0, latmBufferFullness := 0, frameLength := 0, celpIndex := 0, hvxcIndex := false }

/-- stream_mux_config.go:88-155: the layer `lay` of the program `prog`; true when the configuration is cut short. -/
def layerStep (prog lay : Nat) : ConfM Bool := do
  modify (setLayer prog lay emptyLayer)
  let same ← read (cond (!(prog == 0 && lay == 0)) readFlag false)
  let asc ← read (cond (!same) readLayerASC none)
  modify (setLayer prog lay { emptyLayer with asc := asc })
  let t ← read (tryBits 3)
  match t with
  | none => do
    modify (setLayer prog lay { emptyLayer with asc := asc, latmBufferFullness := 255 })
    modify (cutAt prog lay)
    pure true
  | some t => do
    modify (setLayer prog lay { emptyLayer with asc := asc, frameLengthType := t })
    let l ← read (readFrameInfo asc t)
    modify (setLayer prog lay l)
    pure false

/-- stream_mux_config.go:88-155: the loop over the layers of the program `prog`, from index `lay`, with `n` layers left; true when the
configuration is cut short. -/
def layersLoop (prog : Nat) : Nat → Nat → ConfM Bool
  | _, 0 => pure false
  | lay, n + 1 => do
    let cut ← layerStep prog lay
    if cut then pure true else layersLoop prog (lay + 1) n

/-- stream_mux_config.go:76-86: the program `prog`. -/
def programStep (prog : Nat) : ConfM Bool := do
  modify (setLayers prog [])
  let numLayer ← read (readBits 3)
  modify (setLayers prog (List.replicate (numLayer + 1) none))
  layersLoop prog 0 (numLayer + 1)

/-- stream_mux_config.go:76-156: the loop over the programs, from index `prog`, with `n` programs left. -/
def programsLoop : Nat → Nat → ConfM Bool
  | _, 0 => pure false
  | prog, n + 1 => do
    let cut ← programStep prog
    if cut then pure true else programsLoop (prog + 1) n

/-- stream_mux_config.go:158-195: the fields after the programs. -/
def heldTail : ConfM Unit := do
  let present ← read readFlag
  modify fun c => { c with otherDataPresent := present }
  let len ← read (cond present readOtherData 0)
  modify fun c => { c with otherDataLenBits := len }
  let crc ← read readFlag
  modify fun c => { c with crcCheckPresent := crc }
  let sum ← read (cond crc (readBits 8) 0)
  modify fun c => { c with crcCheckSum := sum }

/-- stream_mux_config.go:57-72: the checks before the first assignment, and the two numbers. -/
def readMuxHead : BitM (Nat × Nat) := do
  hasSpace 12
  let audioMuxVersion ← readFlagU
  if audioMuxVersion then fail "audioMuxVersion = 1 is not supported" else do
  let allStreamsSameTimeFraming ← readFlagU
  if !allStreamsSameTimeFraming then fail "allStreamsSameTimeFraming = 0 is not supported" else do
  let numSubFrames ← readBitsU 6
  let numProgram ← readBitsU 4
  pure (numSubFrames, numProgram)

/-- pkg/codecs/mpeg4audio/stream_mux_config.go:56-196 (`StreamMuxConfig.unmarshalBits`), on an empty configuration. -/
def HeldConfig.unmarshalBits : ConfM Unit := do
  let r ← read readMuxHead
  modify fun c => { c with numSubFrames := r.1, programs := List.replicate (r.2 + 1) none }
  let cut ← programsLoop 0 (r.2 + 1)
  if cut then pure () else heldTail

/-- payload_length_info.go:36-59: one layer; a nil pointer is dereferenced. -/
def readHeldSlot : Option Layer → BitM Slot
  | none => lift .panic
  | some l => readSlot l

/-- payload_length_info.go:33-61: one program; a nil pointer is dereferenced. -/
def readHeldSlots : Option (List (Option Layer)) → BitM (List Slot)
  | none => lift .panic
  | some ls => each readHeldSlot ls

/-- payload_mux.go:23-44: one layer; a nil pointer is dereferenced. -/
def readHeldPayload : Option Layer × Slot → BitM Bytes
  | (none, _) => lift .panic
  | (some l, s) => readPayload (l, s)

/-- payload_mux.go:20-45: one program; a nil pointer is dereferenced. -/
def readHeldPayloads : Option (List (Option Layer)) × List Slot → BitM (List Bytes)
  | (none, _) => lift .panic
  | (some ls, s) => each readHeldPayload (ls.zip s)

/-- audio_mux_element.go:56-71: one subframe. -/
def readHeldSubFrame (programs : List (Option (List (Option Layer)))) : BitM (List (List Bytes)) := do
  let li ← each readHeldSlots programs
  each readHeldPayloads (programs.zip li)

/-- audio_mux_element.go:11-25: the fields of an `AudioMuxElement` that `Unmarshal` reads. The others, `UseSameStreamMux` and `Payloads`,
are what it returns. -/
structure MuxState where
  muxConfigPresent : Bool
  streamMuxConfig : Option HeldConfig
  deriving Repr, DecidableEq

/-- audio_mux_element.go:40-44: `e.StreamMuxConfig` is set before it is read. -/
def MuxState.readConfig (buf : Bytes) (pos : Nat) : StepM MuxState Nat := fun e =>
  match HeldConfig.unmarshalBits {} buf pos with
  | (c, .ok r) => ({ e with streamMuxConfig := some c }, .ok r.2)
  | (c, .err s) => ({ e with streamMuxConfig := some c }, .err s)
  | (c, .panic) => ({ e with streamMuxConfig := some c }, .panic)

/-- audio_mux_element.go:50-84: what follows the configuration. -/
def readHeldElement (same : Bool) (config : Option HeldConfig) (buf : Bytes) (pos : Nat) : Res (Bool × List (List (List Bytes))) :=
  match config with
  | none => .err "no StreamMuxConfig available"
  | some c => do
    let r ← times (readHeldSubFrame c.programs) (c.numSubFrames + 1) buf pos
    if c.otherDataPresent then .err "OtherDataPresent is not supported (yet)"
    else if ceil8 r.2 ≠ buf.length then .err "detected unread bytes" else .ok (same, r.1)

/-- pkg/codecs/mpeg4audio/audio_mux_element.go:28-87 (`AudioMuxElement.Unmarshal`): the flag `UseSameStreamMux` and the payloads. -/
def MuxState.unmarshal (buf : Bytes) : StepM MuxState (Bool × List (List (List Bytes))) := do
  let e ← StepM.get
  let r ← StepM.lift (cond e.muxConfigPresent readFlag false buf 0)
  let pos ← if e.muxConfigPresent && !r.1 then readConfig buf r.2 else pure r.2
  let e ← StepM.get
  StepM.lift (readHeldElement r.1 e.streamMuxConfig buf pos)

end Verif.MPEG4Audio
