import Verif.Props.FMP4InitAny

/-!
# C92: segments of the standard that are refused or misread, and examples
-/

namespace Verif.Props
open MP4Box MP4Codec
open FMP4Init (isoFields InitTrack unmarshal)
open Records
open Spec.FMP4 (box)
open Spec.Records (Carries fourcc)
open Spec.InitSegment

/-! ## A segment -/

def alienTkhd : Tkhd :=
  { version := 1, flags := 3, created := 0xE0000000, modified := 0x100000000, id := 7, reserved := 0, duration := 0, reserved2 := 0, layer := 0,
    group := 1, volume := 0x100, reserved3 := 0, matrix := 0x10000 * 2 ^ 256 + 0x10000 * 2 ^ 128 + 0x40000000, width := 0, height := 0 }

def alienMdhd : Mdhd :=
  { version := 1, flags := 0, created := 1, modified := 2, timeScale := 48000, duration := 2 ^ 40, pad := 0, language1 := 5, language2 := 14,
    language3 := 7, preDefined := 0 }

/-- Opus, with a bit rate before the configuration and an unknown box after it. -/
def alienDescription : Description :=
  { head := [0, 0, 0, 0, 0, 0, 0, 1], typ := fourcc 'O' 'p' 'u' 's', entry := pack takenAudio.fields,
    before := [⟨fourcc 'b' 't' 'r' 't', List.replicate 12 1, false⟩], ctyp := fourcc 'd' 'O' 'p' 's',
    config := pack (Spec.Records.DOps.fields ⟨2, 312, 48000, 0, 0, none⟩), after := [⟨fourcc 's' 'r' 'a' 't', [0, 0, 0, 0, 0, 0, 0xBB, 0x80], false⟩], rest := [] }

/-- A track with an edit list before the media, and tables around the sample description. -/
def alienTrack : Track :=
  { trak1 := [], tkhd := pack alienTkhd.fields, trak2 := [⟨fourcc 'e' 'd' 't' 's', [], false⟩], mdia1 := [], mdhd := pack alienMdhd.fields,
    mdia2 := [⟨fourcc 'h' 'd' 'l' 'r', List.replicate 25 0, false⟩], minf1 := [⟨fourcc 's' 'm' 'h' 'd', List.replicate 8 0, false⟩],
    stbl1 := [⟨fourcc 's' 't' 't' 's', List.replicate 8 0, false⟩], description := alienDescription, stbl2 := [⟨fourcc 's' 't' 's' 'c', List.replicate 8 0, false⟩],
    minf2 := [], mdia3 := [⟨fourcc 'f' 'r' 'e' 'e', [1, 2], true⟩], trak3 := [] }

/-- The same without boxes after the sample description. -/
def alienLast : Track := { alienTrack with stbl2 := [], mdia3 := [] }

def alienInit : InitTrack := { id := 7, timeScale := 48000, codec := some (.opus 2) }

def alienMvhd : Bytes := pack [(8, 1), (888, 5)]

theorem alien_mvhd_example : IsMvhd alienMvhd := by unfold IsMvhd; decide +kernel

instance (types : List Bytes) (l : List Other) : Decidable (NoneOf types l) := by unfold NoneOf; infer_instance

theorem alien_description_example : DescriptionMeans alienDescription (.opus 2) where
  head := rfl
  codec := (C91_opus _ _ _ ⟨2, 312, 48000, 0, 0, none⟩ _ taken_audio_example (carries_self (by decide) (by decide))).2 rfl
  before := by decide
  after := by decide
  rest := by decide

theorem alien_track_example : TrackMeans alienTrack alienInit where
  tkhd := ⟨alienTkhd, carries_self (by decide +kernel) (by decide +kernel), rfl⟩
  mdhd := ⟨alienMdhd, carries_self (by decide) (by decide), by decide, rfl⟩
  codec := ⟨_, alien_description_example, rfl⟩
  avgBitrate := rfl
  maxBitrate := rfl
  trak := by decide
  mdia := by decide
  minf := by decide
  stbl := by decide

theorem alien_last_example : TrackMeans alienLast alienInit where
  tkhd := ⟨alienTkhd, carries_self (by decide +kernel) (by decide +kernel), rfl⟩
  mdhd := ⟨alienMdhd, carries_self (by decide) (by decide), by decide, rfl⟩
  codec := ⟨_, alien_description_example, rfl⟩
  avgBitrate := rfl
  maxBitrate := rfl
  trak := by decide
  mdia := by decide
  minf := by decide
  stbl := by decide

/-- User data before the tracks, extensions between them, a box after the movie. -/
def alienSegment : Segment :=
  { ftyp := List.replicate 8 0x69, top1 := [⟨fourcc 'f' 'r' 'e' 'e', [], false⟩], moov1 := [], mvhd := alienMvhd,
    items := [.userData [⟨fourcc 'n' 'a' 'm' 'e', [0x41], false⟩], .track alienTrack, .other ⟨fourcc 'm' 'v' 'e' 'x', [], false⟩, .track alienLast],
    top2 := [⟨fourcc 's' 'i' 'd' 'x', List.replicate 20 0, true⟩] }

theorem alien_segment_example : SegmentMeans alienSegment [alienInit, alienInit] where
  top := by decide
  moov := by decide
  mvhd := alien_mvhd_example
  items := .userData (by decide) (.track alien_track_example (.other (by decide) (by decide) (.track alien_last_example .nil)))

/-- `C92_read`. -/
example : unmarshal isoFields alienSegment.bytes = .ok ⟨[alienInit, alienInit], [(fourcc 'n' 'a' 'm' 'e', [0x41])]⟩ :=
  C92_read alienSegment _ alien_segment_example (by decide +kernel) (by simp) (fun _ => by simp [alienSegment])

/-! ## The sample description at the end -/

/-- C92 without a condition on what comes after the last sample description. ISO 14496-12 does not order the boxes of a sample table. -/
def C92_last : Prop :=
  ∀ (s : Segment) (its : List InitTrack), SegmentMeans s its → s.bytes.length < 2 ^ 32 → its ≠ [] →
    unmarshal isoFields s.bytes = .ok ⟨its, userData s.items⟩

/-- C92 is false if the last box is a sample description: the end of the codec boxes is noticed at the next box. -/
theorem C92_last_false : ¬ C92_last := by
  intro h
  have hm : SegmentMeans { alienSegment with top2 := [] } [alienInit, alienInit] :=
    ⟨⟨by decide, by decide⟩, by decide, alien_mvhd_example, alien_segment_example.items⟩
  have e := h _ _ hm (by decide +kernel) (by simp)
  rw [C92_segment _ _ hm (by decide +kernel), if_pos ⟨rfl, rfl⟩] at e
  cases e

/-! ## Segments in another order -/

/-- A file with a movie. -/
def alienFile (items : Bytes) : Bytes :=
  box (fourcc 'f' 't' 'y' 'p') [] ++ (box (fourcc 'm' 'o' 'o' 'v') (box (fourcc 'm' 'v' 'h' 'd') alienMvhd ++ items) ++ box (fourcc 'm' 'd' 'a' 't') [])

/-- C92 for tracks whose media is before the header. -/
def C92_order : Prop :=
  ∀ (t : Track) (it : InitTrack), TrackMeans t it → t.bytes.length < 2 ^ 31 →
    unmarshal isoFields (alienFile (box (fourcc 't' 'r' 'a' 'k') (t.mdia ++ box (fourcc 't' 'k' 'h' 'd') t.tkhd))) = .ok ⟨[it], []⟩

theorem C92_order_false : ¬ C92_order := by
  intro h
  exact absurd (h _ _ alien_track_example (by decide +kernel)) (by decide +kernel)

/-- In the usual order the track is read. -/
example : unmarshal isoFields (alienFile (box (fourcc 't' 'r' 'a' 'k') (box (fourcc 't' 'k' 'h' 'd') alienTrack.tkhd ++ alienTrack.mdia))) =
    .ok ⟨[alienInit], []⟩ := by decide +kernel

/-! ## User data of tracks -/

/-- C92 for tracks with user data (8.10.1) after the media: it is not user data of the movie. -/
def C92_track_user_data : Prop :=
  ∀ (t : Track) (it : InitTrack) (u : Bytes), TrackMeans t it → t.bytes.length + u.length < 2 ^ 31 →
    unmarshal isoFields (alienFile (box (fourcc 't' 'r' 'a' 'k') (box (fourcc 't' 'k' 'h' 'd') t.tkhd ++ (t.mdia ++
      box (fourcc 'u' 'd' 't' 'a') (box (fourcc 'n' 'a' 'm' 'e') u))))) = .ok ⟨[it], []⟩

/-- The name of a track becomes user data of the movie. -/
theorem C92_track_user_data_false : ¬ C92_track_user_data := by
  intro h
  exact absurd (h _ _ [0x41] alien_track_example (by decide +kernel)) (by decide +kernel)

example : unmarshal isoFields (alienFile (box (fourcc 't' 'r' 'a' 'k') (box (fourcc 't' 'k' 'h' 'd') alienTrack.tkhd ++ (alienTrack.mdia ++
    box (fourcc 'u' 'd' 't' 'a') (box (fourcc 'n' 'a' 'm' 'e') [0x41]))))) = .ok ⟨[alienInit], [(fourcc 'n' 'a' 'm' 'e', [0x41])]⟩ := by decide +kernel

/-- C92 for tracks with user data before the media: they are read. -/
def C92_track_user_data_first : Prop :=
  ∀ (t : Track) (it : InitTrack) (u : Bytes), TrackMeans t it → t.bytes.length + u.length < 2 ^ 31 →
    ∃ ud, unmarshal isoFields (alienFile (box (fourcc 't' 'r' 'a' 'k') (box (fourcc 't' 'k' 'h' 'd') t.tkhd ++
      (box (fourcc 'u' 'd' 't' 'a') (box (fourcc 'n' 'a' 'm' 'e') u) ++ t.mdia)))) = .ok ⟨[it], ud⟩

/-- Such a segment is refused. -/
theorem C92_track_user_data_first_false : ¬ C92_track_user_data_first := by
  intro h
  obtain ⟨ud, e⟩ := h _ _ [0x41] alien_track_example (by decide +kernel)
  have : unmarshal isoFields (alienFile (box (fourcc 't' 'r' 'a' 'k') (box (fourcc 't' 'k' 'h' 'd') alienTrack.tkhd ++
      (box (fourcc 'u' 'd' 't' 'a') (box (fourcc 'n' 'a' 'm' 'e') [0x41]) ++ alienTrack.mdia)))) = .err "unexpected box" := by decide +kernel
  rw [this] at e
  cases e

/-! ## Unknown codecs -/

/-- C92 for segments with a track of another codec: the known tracks are read. -/
def C92_unknown : Prop :=
  ∀ (t t' : Track) (it : InitTrack) (e : Other), TrackMeans t it → NoneOf codecBoxes [e] → t.bytes.length + t'.bytes.length < 2 ^ 31 →
    t' = { t with description := { t.description with typ := e.typ } } →
    ∃ l, unmarshal isoFields (alienFile (t.bytes ++ t'.bytes)) = .ok l ∧ it ∈ l.tracks

/-- A track with an unknown sample entry makes the whole segment unreadable, even if the other tracks are known. -/
theorem C92_unknown_false : ¬ C92_unknown := by
  intro h
  obtain ⟨l, e, _⟩ := h alienTrack { alienTrack with description := { alienDescription with typ := fourcc 't' 'x' '3' 'g' } } _
    ⟨fourcc 't' 'x' '3' 'g', [], false⟩ alien_track_example (by decide) (by decide +kernel) rfl
  have : unmarshal isoFields (alienFile (alienTrack.bytes ++
    ({ alienTrack with description := { alienDescription with typ := fourcc 't' 'x' '3' 'g' } } : Track).bytes)) = .err "codec information not found" := by
    decide +kernel
  rw [this] at e
  cases e

end Verif.Props
