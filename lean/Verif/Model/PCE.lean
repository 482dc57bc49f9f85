import Verif.Model.BitM

/-!
# Program config element and channel count of a raw_data_block (pkg/codecs/mpeg4audio)
-/

namespace Verif.MPEG4Audio
open Verif.BitM

/-- pkg/codecs/mpeg4audio/program_config_element.go:11-22 (`ProgramConfigElement`). -/
structure PCE where
  elementInstanceTag : Nat
  objectType : Nat
  samplingFrequencyIndex : Nat
  numFront : Nat
  numSide : Nat
  numBack : Nat
  numLFE : Nat
  numAssocData : Nat
  numValidCC : Nat
  channelCount : Nat
  deriving Repr, DecidableEq

/-- program_config_element.go:103-119, :122-138 and :141-157: one front, side or back element, and its channels. -/
def readPCEElement : BitM Nat := do
  let isCPE ← readFlag
  let _ ← readBits 4
  pure (if isCPE then 2 else 1)

/-- pkg/codecs/mpeg4audio/program_config_element.go:25-178 (`unmarshal`). -/
def PCE.unmarshal : BitM PCE := do
  hasSpace 32
  let tag ← readBitsU 4
  let ot ← readBitsU 2
  let sf ← readBitsU 4
  let nf ← readBitsU 4
  let ns ← readBitsU 4
  let nb ← readBitsU 4
  let nl ← readBitsU 2
  let na ← readBitsU 3
  let nc ← readBitsU 4
  let mono ← readFlagU
  let _ ← cond mono (readBits 4) 0
  let stereo ← readFlag
  let _ ← cond stereo (readBits 4) 0
  let mtx ← readFlag
  let _ ← cond mtx (readBits 3) 0
  let f ← times readPCEElement nf
  let s ← times readPCEElement ns
  let b ← times readPCEElement nb
  let l ← times (readBits 4) nl
  let channels := f.sum + s.sum + b.sum + l.length
  if channels = 0 then fail "PCE has zero channels" else
  pure { elementInstanceTag := tag, objectType := ot, samplingFrequencyIndex := sf, numFront := nf, numSide := ns,
         numBack := nb, numLFE := nl, numAssocData := na, numValidCC := nc, channelCount := channels }

/-- pkg/codecs/mpeg4audio/program_config_element.go:184-211 (`ParsePCEFromRawDataBlock`). -/
def parsePCE (au : Bytes) : Res PCE := do
  if au.length < 4 then .err "raw_data_block too short" else do
  let r ← (do
    let id ← readBits 3
    if id ≠ 5 then fail "expected PCE" else PCE.unmarshal) au 0
  .ok r.1

/-- What an iteration of the loop in `CountChannelsFromRawDataBlock` does: it returns, or it goes on. A `break` inside the
`switch` leaves the `switch` only, so it goes on as well, at the position reached so far. -/
inductive Step where
  | ret (n : Nat)
  | next (pos : Nat)
  deriving Repr, DecidableEq

/-- count_channels.go:49-60, :62-70 and :72-79: a channel element with `n` channels. -/
def stepChannel (n : Nat) (au : Bytes) (pos : Nat) : Res Step :=
  match readBits 4 au pos with
  | .ok _ => .ok (.ret n)
  | .err _ => .ok (.next pos)
  | .panic => .panic

/-- count_channels.go:90-128: a data stream element. -/
def stepDSE (au : Bytes) (pos : Nat) : Res Step :=
  match readBits 4 au pos with
  | .panic => .panic
  | .err _ => .ok (.next pos)
  | .ok (_, pos) =>
  match readFlag au pos with
  | .panic => .panic
  | .err _ => .ok (.next pos)
  | .ok (align, pos) =>
  match readBits 8 au pos with
  | .panic => .panic
  | .err _ => .ok (.next pos)
  | .ok (count, pos) =>
  let fin (total pos : Nat) : Res Step := .ok (.next ((if align then (pos + 7) / 8 * 8 else pos) + total * 8))
  if count = 255 then
    match readBits 8 au pos with
    | .panic => .panic
    | .err _ => .ok (.next pos)
    | .ok (esc, pos) => fin (count + esc) pos
  else fin count pos

/-- count_channels.go:130-150: a fill element. -/
def stepFIL (au : Bytes) (pos : Nat) : Res Step :=
  match readBits 4 au pos with
  | .panic => .panic
  | .err _ => .ok (.next pos)
  | .ok (count, pos) =>
  if count = 15 then
    match readBits 8 au pos with
    | .panic => .panic
    | .err _ => .ok (.next pos)
    | .ok (esc, pos) => .ok (.next (pos + (count + esc - 1) * 8))
  else .ok (.next (pos + count * 8))

/-- count_channels.go:48-168: the `switch`. The variable `channels` is 0 whenever it is reached. -/
def stepElement (id : Nat) (au : Bytes) (pos : Nat) : Res Step :=
  if id = 0 then stepChannel 1 au pos
  else if id = 1 then stepChannel 2 au pos
  else if id = 3 then stepChannel 1 au pos
  else if id = 5 then (PCE.unmarshal au pos).bind fun r => .ok (.ret r.1.channelCount)
  else if id = 4 then stepDSE au pos
  else if id = 6 then stepFIL au pos
  else if id = 2 then .err "cannot determine channels from CCE element"
  else if id = 7 then .err "no channel elements found before END"
  else .err "unknown element id"

/-- count_channels.go:40-173: the loop. The fuel bounds the number of iterations; running out of it is reported as a
panic. -/
def countLoop (au : Bytes) : Nat → Nat → Res Nat
  | 0, _ => .panic
  | fuel + 1, pos =>
    if ¬ pos < au.length * 8 then .err "no channel elements found" else
    match readBits 3 au pos with
    | .panic => .panic
    | .err _ => .err "no channel elements found"
    | .ok (id, pos) =>
      match stepElement id au pos with
      | .panic => .panic
      | .err e => .err e
      | .ok (.ret n) => .ok n
      | .ok (.next pos) => countLoop au fuel pos

/-- pkg/codecs/mpeg4audio/count_channels.go:31-176 (`CountChannelsFromRawDataBlock`). Each iteration reads three bits, so
there are fewer of them than bits. -/
def countChannels (au : Bytes) : Res Nat :=
  if au.length < 1 then .err "raw_data_block too short" else countLoop au (au.length * 8 + 1) 0

end Verif.MPEG4Audio
