import Verif.Model.PCE
import Verif.Spec.Bytes

/-!
# Program config element (ISO 14496-3, Table 4.2) and elements of a raw_data_block that can be skipped
-/

namespace Verif.Spec
open Verif.MPEG4Audio (PCE)

/-- A presence flag and `n` bits. -/
def optBits (n : Nat) : Option Nat → List Bool
  | none => [false]
  | some v => [true] ++ bitsOfNat n v

/-- A channel element of a PCE: whether it is a pair, and its tag. -/
def elementBits (x : Bool × Nat) : List Bool := [x.1] ++ bitsOfNat 4 x.2

/-- Channels of such elements: two for each pair, one for each other. -/
def channelsOf (l : List (Bool × Nat)) : Nat := l.length + (l.filter (·.1)).length

/-- The start of a program config element, up to its channel elements. -/
def IsPCE (p : PCE) (bits : List Bool) : Prop :=
  ∃ (mono stereo mtx : Option Nat) (front side back : List (Bool × Nat)) (lfe : List Nat),
    (∀ v ∈ mono, v < 2 ^ 4) ∧ (∀ v ∈ stereo, v < 2 ^ 4) ∧ (∀ v ∈ mtx, v < 2 ^ 3) ∧
    (∀ x ∈ front, x.2 < 2 ^ 4) ∧ (∀ x ∈ side, x.2 < 2 ^ 4) ∧ (∀ x ∈ back, x.2 < 2 ^ 4) ∧ (∀ x ∈ lfe, x < 2 ^ 4) ∧
    p.elementInstanceTag < 2 ^ 4 ∧ p.objectType < 2 ^ 2 ∧ p.samplingFrequencyIndex < 2 ^ 4 ∧
    (front.length = p.numFront ∧ p.numFront < 2 ^ 4) ∧ (side.length = p.numSide ∧ p.numSide < 2 ^ 4) ∧
    (back.length = p.numBack ∧ p.numBack < 2 ^ 4) ∧ (lfe.length = p.numLFE ∧ p.numLFE < 2 ^ 2) ∧
    p.numAssocData < 2 ^ 3 ∧ p.numValidCC < 2 ^ 4 ∧
    p.channelCount = channelsOf front + channelsOf side + channelsOf back + lfe.length ∧ 1 ≤ p.channelCount ∧
    bits = bitsOfNat 4 p.elementInstanceTag ++ (bitsOfNat 2 p.objectType ++ (bitsOfNat 4 p.samplingFrequencyIndex ++
      (bitsOfNat 4 p.numFront ++ (bitsOfNat 4 p.numSide ++ (bitsOfNat 4 p.numBack ++ (bitsOfNat 2 p.numLFE ++
      (bitsOfNat 3 p.numAssocData ++ (bitsOfNat 4 p.numValidCC ++ (optBits 4 mono ++ (optBits 4 stereo ++ (optBits 3 mtx ++
      (front.flatMap elementBits ++ (side.flatMap elementBits ++ (back.flatMap elementBits ++
      lfe.flatMap (bitsOfNat 4)))))))))))))))

/-- A count with an escape value, of which the excess follows in a byte. -/
def IsCount (n escape : Nat) (bias : Nat) (total : Nat) (bits : List Bool) : Prop :=
  (total < escape ∧ bits = bitsOfNat n total) ∨
  ∃ esc, esc < 256 ∧ total + bias = escape + esc ∧ bits = bitsOfNat n escape ++ bitsOfNat 8 esc

/-- Elements without channels (data stream element: tag, alignment flag, count, alignment, data; fill element: count,
data) that start at bit `pos`. -/
inductive IsSkipped : Nat → List Bool → Prop
  | nil (pos : Nat) : IsSkipped pos []
  | fil (pos : Nat) (total : Nat) (cb data rest : List Bool) : IsCount 4 15 1 total cb → data.length = 8 * total →
      IsSkipped (pos + 3 + cb.length + data.length) rest →
      IsSkipped pos (bitsOfNat 3 6 ++ (cb ++ (data ++ rest)))
  | dse (pos : Nat) (tag : Nat) (align : Bool) (total : Nat) (cb pad data rest : List Bool) : tag < 2 ^ 4 →
      IsCount 8 255 0 total cb → data.length = 8 * total →
      (if align then pad.length < 8 ∧ (pos + 8 + cb.length + pad.length) % 8 = 0 else pad = []) →
      IsSkipped (pos + 8 + cb.length + pad.length + data.length) rest →
      IsSkipped pos (bitsOfNat 3 4 ++ (bitsOfNat 4 tag ++ ([align] ++ (cb ++ (pad ++ (data ++ rest))))))

/-- The start of a channel element, or a program config element, and its channels. -/
def IsChannelElement (n : Nat) (bits : List Bool) : Prop :=
  (∃ tag, tag < 2 ^ 4 ∧ ((n = 1 ∧ bits = bitsOfNat 3 0 ++ bitsOfNat 4 tag) ∨ (n = 2 ∧ bits = bitsOfNat 3 1 ++ bitsOfNat 4 tag) ∨
    (n = 1 ∧ bits = bitsOfNat 3 3 ++ bitsOfNat 4 tag))) ∨
  (∃ p b, IsPCE p b ∧ n = p.channelCount ∧ bits = bitsOfNat 3 5 ++ b)

end Verif.Spec
