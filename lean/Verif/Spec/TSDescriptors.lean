import Verif.Spec.Bytes

/-!
# Specification: what a program map table says of an elementary stream

ISO/IEC 13818-1 table 2-34 (stream types) and 2.6.8 (registration), ATSC A/52 annex A (stream types of AC-3), ETSI EN 300 468 annex D
(descriptors of AC-3) and 6.2.41 (subtitles).
-/

namespace Verif.Spec.TSDescriptors

/-- Kinds of streams. -/
inductive Kind where
  | mpeg2Video | mpeg4Video | avc | hevc | mpeg1Audio | adts | latm | ac3 | eac3 | opus | klv | klvSynchronous | subtitles
  deriving Repr, DecidableEq

/-- What is stated besides the stream type. -/
inductive Statement where
  | nothing
  /-- registration_descriptor with a format identifier -/
  | registered (name : Nat)
  /-- a descriptor with a given tag -/
  | described (tag : Nat)
  deriving Repr, DecidableEq

/-- Four characters as a number. -/
def identifier (a b c d : Char) : Nat := a.toNat * 2 ^ 24 + b.toNat * 2 ^ 16 + c.toNat * 2 ^ 8 + d.toNat

/-- Stream type and the statement that is needed to tell the kind. -/
def kinds : List (Kind × Nat × Statement) :=
  [(.mpeg2Video, 0x02, .nothing), (.mpeg4Video, 0x10, .nothing), (.avc, 0x1B, .nothing), (.hevc, 0x24, .nothing), (.mpeg1Audio, 0x03, .nothing),
    (.adts, 0x0F, .nothing), (.latm, 0x11, .nothing), (.ac3, 0x81, .described 0x6A), (.eac3, 0x87, .described 0x7A),
    (.opus, 0x06, .registered (identifier 'O' 'p' 'u' 's')), (.klv, 0x06, .registered (identifier 'K' 'L' 'V' 'A')),
    (.klvSynchronous, 0x15, .described 0x26), (.subtitles, 0x06, .described 0x59)]

/-- EN 300 468 table D.1: `component_type`. -/
structure Component where
  enhanced : Bool
  fullService : Bool
  service : Nat
  channels : Nat
  deriving Repr, DecidableEq

def component (n : Nat) : Component := ⟨n / 128 % 2 == 1, n / 64 % 2 == 1, n / 8 % 8, n % 8⟩

/-- EN 300 468 table D.5: the channels, low frequency effects included. 0: mono; 1, 2, 3: two channels (independent, stereo, with surround); 4:
more than two; 5: more than 5.1. -/
def ChannelsAre (n : Int) (code : Nat) : Prop :=
  (n = 1 ∧ code = 0) ∨ (n = 2 ∧ (code = 1 ∨ code = 2 ∨ code = 3)) ∨ (2 < n ∧ n ≤ 6 ∧ code = 4) ∨ (6 < n ∧ code = 5)

instance (n : Int) (code : Nat) : Decidable (ChannelsAre n code) := by unfold ChannelsAre; infer_instance

/-- A complete main service, that is a full service, with `n` channels. -/
def MainService (enhanced : Bool) (n : Int) (c : Component) : Prop :=
  c.enhanced = enhanced ∧ c.fullService = true ∧ c.service = 0 ∧ ChannelsAre n c.channels

/-- The value that says this, for 1 to 6 channels. -/
def mainService (enhanced : Bool) (n : Nat) : Nat := (if enhanced then 128 else 0) + 64 + if n = 1 then 0 else if n = 2 then 2 else 4

example : MainService false 2 (component 0x42) ∧ MainService true 6 (component 0xC4) ∧ MainService false 1 (component (mainService false 1)) := by
  unfold MainService; decide

end Verif.Spec.TSDescriptors
