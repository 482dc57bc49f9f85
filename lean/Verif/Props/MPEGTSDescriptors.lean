import Verif.Model.MPEGTS
import Verif.Spec.TSDescriptors

/-!
# C89: the program map table announces streams as the standards define
-/

namespace Verif.Props
open MPEGTS
open Spec.TSDescriptors

/-- The kind of a codec. -/
def announcedKind : Codec → Option Kind
  | .h265 => some .hevc
  | .h264 => some .avc
  | .mpeg4Video => some .mpeg4Video
  | .mpeg1Video => some .mpeg2Video
  | .opus .. => some .opus
  | .mpeg4Audio _ => some .adts
  | .latm => some .latm
  | .mpeg1Audio => some .mpeg1Audio
  | .ac3 .. => some .ac3
  | .eac3 .. => some .eac3
  | .klv true => some .klvSynchronous
  | .klv false => some .klv
  | .dvbSubtitle _ => some .subtitles
  | .unsupported => none

/-- The tags that `astits` writes for the descriptors. -/
def announcedTag : Desc → Option Nat
  | .registration _ => some 0x05
  | .extension .. => some 0x7F
  | .unknown tag _ => some tag
  | .subtitling _ => some 0x59
  | .language _ => some 0x0A
  | .ac3 .. => some 0x6A
  | .enhancedAC3 .. => some 0x7A
  | .other => none

/-- A statement is among descriptors, or it is not needed. -/
def Announces (l : List Desc) : Statement → Prop
  | .nothing => True
  | .registered id => .registration id ∈ l
  | .described tag => ∃ d ∈ l, announcedTag d = some tag

/-- **C89.** Whatever is announced is announced with the stream type of its kind, with the statement that the kind needs and, if the track
has a language, with the language. -/
theorem C89_kinds_partial (t : Track) (es : ES) (h : t.marshal = .ok es) :
    es.pid = t.pid ∧ (∃ k s, announcedKind t.codec = some k ∧ (k, es.streamType, s) ∈ kinds ∧ Announces es.descriptors s) ∧
      (t.language ≠ [] → .language t.language ∈ es.descriptors) := by
  obtain ⟨pid, lang, c⟩ := t
  unfold Track.marshal at h
  obtain ⟨⟨st, l⟩, hc, h⟩ := Res.bind_eq_ok.1 h
  cases h
  refine ⟨rfl, ?_, ?_⟩
  · have key : ∃ k s, announcedKind c = some k ∧ (k, st, s) ∈ kinds ∧ Announces l s := by
      cases c with
      | h265 => cases hc; exact ⟨.hevc, .nothing, rfl, by decide, trivial⟩
      | h264 => cases hc; exact ⟨.avc, .nothing, rfl, by decide, trivial⟩
      | mpeg4Video => cases hc; exact ⟨.mpeg4Video, .nothing, rfl, by decide, trivial⟩
      | mpeg1Video => cases hc; exact ⟨.mpeg2Video, .nothing, rfl, by decide, trivial⟩
      | mpeg4Audio _ => cases hc; exact ⟨.adts, .nothing, rfl, by decide, trivial⟩
      | latm => cases hc; exact ⟨.latm, .nothing, rfl, by decide, trivial⟩
      | mpeg1Audio => cases hc; exact ⟨.mpeg1Audio, .nothing, rfl, by decide, trivial⟩
      | ac3 _ _ => cases hc; exact ⟨.ac3, .described 0x6A, rfl, by decide, _, List.mem_cons_self, rfl⟩
      | eac3 _ _ => cases hc; exact ⟨.eac3, .described 0x7A, rfl, by decide, _, List.mem_cons_self, rfl⟩
      | dvbSubtitle _ => cases hc; exact ⟨.subtitles, .described 0x59, rfl, by decide, _, List.mem_cons_self, rfl⟩
      | unsupported => cases hc
      | opus d n =>
        obtain ⟨e, he, hc⟩ := Res.bind_eq_ok.1 hc
        cases hc
        obtain ⟨enc, _, he⟩ := Res.bind_eq_ok.1 he
        cases he
        exact ⟨.opus, .registered opusIdentifier, rfl, by decide, List.mem_cons_self⟩
      | klv s =>
        cases s with
        | false => cases hc; exact ⟨.klv, .registered klvaIdentifier, rfl, by decide, List.mem_cons_self⟩
        | true =>
          obtain ⟨e, he, hc⟩ := Res.bind_eq_ok.1 hc
          cases hc
          obtain ⟨m, _, he⟩ := Res.bind_eq_ok.1 he
          obtain ⟨s, _, he⟩ := Res.bind_eq_ok.1 he
          cases he
          exact ⟨.klvSynchronous, .described 0x26, rfl, by decide, _, List.mem_cons_self, rfl⟩
    obtain ⟨k, s, h1, h2, h3⟩ := key
    refine ⟨k, s, h1, h2, ?_⟩
    dsimp only
    split
    · cases s with
      | nothing => trivial
      | registered id => exact List.mem_append_left _ h3
      | described tag =>
        obtain ⟨d, hd, e⟩ := h3
        exact ⟨d, List.mem_append_left _ hd, e⟩
    · exact h3
  · intro hl
    dsimp only at hl ⊢
    rw [if_pos hl]
    exact List.mem_append_right _ List.mem_cons_self

/-- No two codecs of different kinds are announced in the same way: stream type and statement tell the kind. -/
theorem C89_distinct (k k' : Kind) (n : Nat) (s : Statement) (h : (k, n, s) ∈ kinds) (h' : (k', n, s) ∈ kinds) : k = k' := by
  have : ∀ x ∈ kinds, ∀ y ∈ kinds, x.2 = y.2 → x.1 = y.1 := by decide
  exact this _ h _ h' rfl

/-- **C89.** The identification of the bit stream is right: 8 for AC-3, 16 for E-AC-3. -/
theorem C89_bsid_partial (rate : Nat) (n : Int) (st : Nat) (l : List Desc) :
    (Codec.marshal (.ac3 rate n) = .ok (st, l) → ∃ ct, l = [.ac3 ct 8]) ∧
      (Codec.marshal (.eac3 rate n) = .ok (st, l) → ∃ ct, l = [.enhancedAC3 ct 16]) :=
  ⟨fun h => by cases h; exact ⟨_, rfl⟩, fun h => by cases h; exact ⟨_, rfl⟩⟩

/-- **C89** is false: for every number of channels, the component types of AC-3 and E-AC-3 are wrong. Bit 0 is used for the flag of full
service, which is bit 6, and the bits of the channels are moved by one. -/
theorem C89_component_false (e : Bool) (n : Int) : ¬ MainService e n (component (componentType n true)) := by
  intro h
  have : (component (componentType n true)).fullService = false := by
    unfold componentType
    rw [if_pos rfl]
    split
    · decide
    · split <;> decide
  rw [h.2.1] at this
  cases this

/-- What the component types say instead: stereo is announced as more than 5.1 channels; with three or four channels, the sound is announced as
music and effects in two channels; with more, as music and effects with more than 5.1 channels. The service is never full. -/
theorem C89_component_partial (n : Int) : component (componentType n true) =
    if n ≤ 2 then ⟨false, false, 0, 5⟩ else if n ≤ 4 then ⟨false, false, 1, 3⟩ else ⟨false, false, 1, 5⟩ := by
  unfold componentType
  rw [if_pos rfl]
  split
  · decide
  · split <;> decide

/-- Stereo AC-3 with a language. -/
example : Track.marshal ⟨256, [0x65, 0x6E, 0x67], .ac3 48000 2⟩ = .ok ⟨256, 0x81, [.ac3 5 8, .language [0x65, 0x6E, 0x67]]⟩ := by decide

example : MainService false 2 (component (mainService false 2)) := by unfold MainService; decide

end Verif.Props
