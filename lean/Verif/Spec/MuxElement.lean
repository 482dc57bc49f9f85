import Verif.Spec.MPEG4Config
import Verif.Spec.TSOpus

/-!
# AudioMuxElement (ISO 14496-3, Table 1.41), with payloads of variable length only
-/

namespace Verif.Spec
open Verif.MPEG4Audio (ASC Layer StreamMuxConfig MuxElement)

/-- A subframe: the lengths of the payloads (255 as often as it fits, then the remainder), then the payloads, both in the
order of programs and layers. -/
def subFrameBits (sub : List (List Bytes)) : List Bool :=
  sub.flatten.flatMap (fun b => bitsOf (opusSizeBytes b.length)) ++ sub.flatten.flatMap bitsOf

/-- One payload for each layer of each program. -/
def SubFrameFits (programs : List (List Layer)) (sub : List (List Bytes)) : Prop :=
  sub.map List.length = programs.map List.length

/-- All layers have payloads of variable length. -/
def AllVariable (programs : List (List Layer)) : Prop := ∀ p ∈ programs, ∀ l ∈ p, l.frameLengthType = 0

/-- The configuration in use: that of the element, or the previous one. -/
def IsElementHead (present : Bool) (given : Option StreamMuxConfig) (same : Bool) (c : StreamMuxConfig)
    (bits : List Bool) : Prop :=
  if present then
    (same = true ∧ given = some c ∧ bits = [true]) ∨ (same = false ∧ ∃ mb, IsMux c mb ∧ bits = [false] ++ mb)
  else same = false ∧ given = some c ∧ bits = []

/-- An AudioMuxElement, when a previous configuration may be given. -/
def IsElement (present : Bool) (given : Option StreamMuxConfig) (e : MuxElement) (bits : List Bool) : Prop :=
  ∃ c hb, e.config = some c ∧ IsElementHead present given e.useSameStreamMux c hb ∧ AllVariable c.programs ∧
    c.otherDataPresent = false ∧ e.payloads.length = c.numSubFrames + 1 ∧
    (∀ sub ∈ e.payloads, SubFrameFits c.programs sub) ∧ bits = hb ++ e.payloads.flatMap subFrameBits

end Verif.Spec
