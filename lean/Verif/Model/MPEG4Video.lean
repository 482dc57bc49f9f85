import Verif.Model.Base

/-!
# MPEG-4 part 2 configuration check (pkg/codecs/mpeg4video)
-/

namespace Verif.MPEG4Video

/-- `bytes.Index(s, []byte{0, 0, 1})` (standard library), `none` for -1. Used at
pkg/codecs/mpeg4video/is_valid_config.go:21. -/
def indexStartCode : Bytes → Option Nat
  | [] => none
  | b :: t => if [0, 0, 1].isPrefixOf (b :: t) then some 0 else (indexStartCode t).map (· + 1)

/-- The loop and the final checks of pkg/codecs/mpeg4video/is_valid_config.go:20-54. `pos < len(config)-3` is an
`int` comparison, written without subtraction. -/
def loop (config : Bytes) (pos : Nat) (videoObjectFound videoObjectLayerFound : Bool) : Res Unit :=
  if _h : pos + 3 < config.length then
    match sliceFrom config pos with
    | .panic => .panic
    | .err e => .err e
    | .ok tail =>
      match indexStartCode tail with
      | none => finish videoObjectFound videoObjectLayerFound
      | some i =>
        match idx config (pos + i + 3) with
        | .panic => .panic
        | .err e => .err e
        | .ok startCode =>
          if 0x00 ≤ startCode ∧ startCode ≤ 0x1F then loop config (pos + i + 4) true videoObjectLayerFound
          else if 0x20 ≤ startCode ∧ startCode ≤ 0x2F then loop config (pos + i + 4) videoObjectFound true
          else if startCode = 0xB5 ∨ startCode = 0xB2 then
            loop config (pos + i + 4) videoObjectFound videoObjectLayerFound
          else .err "unexpected start code"
  else finish videoObjectFound videoObjectLayerFound
termination_by config.length - pos
where
  /-- pkg/codecs/mpeg4video/is_valid_config.go:46-54. -/
  finish (videoObjectFound videoObjectLayerFound : Bool) : Res Unit :=
    if ¬ videoObjectFound then .err "video object not found"
    else if ¬ videoObjectLayerFound then .err "video object layer not found"
    else .ok ()

/-- pkg/codecs/mpeg4video/is_valid_config.go:9-55 (`IsValidConfig`). -/
def isValidConfig (config : Bytes) : Res Unit :=
  if ¬ [0, 0, 1, 0xB0].isPrefixOf config then .err "doesn't start with visual_object_sequence_start_code"
  else loop config 4 false false

end Verif.MPEG4Video
