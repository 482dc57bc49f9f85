import Verif.Props.FMP4RoundTrip
import Verif.Props.H264
import Verif.Props.AV1
import Verif.Model.FMP4Sample
import Verif.Spec.FMP4Media

/-!
# C72: access units through fMP4
-/

namespace Verif.Props
open FMP4
open Spec (beBytes)
open Spec.FMP4 (box fullBox beSigned traf run runRow runFlags trackData moof mdat)
open Spec.Media (Codec Frame Agree starts)
open ByteR (beBytes_length)

/-- What the application calls for a frame. -/
def mediaFill : Codec → Frame → Res Sample
  | .h264, f => fillH264 { duration := f.duration } f.ptsOffset f.units
  | .h265, f => fillH265 { duration := f.duration } f.ptsOffset f.units
  | .av1, f => fillAV1 { duration := f.duration, ptsOffset := f.ptsOffset } f.units

/-- What the application calls for a sample. -/
def mediaGet : Codec → Sample → Res (List Bytes)
  | .h264, s => getH264 s
  | .h265, s => getH265 s
  | .av1, s => getAV1 s

/-- The sample of a frame, as it is read. -/
def Carries (c : Codec) (f : Frame) (s : Sample) : Prop :=
  s.duration = f.duration ∧ s.ptsOffset = f.ptsOffset ∧ s.isNonSync = !f.isKey c ∧ mediaGet c s = .ok f.units

def CarriesTrack (t : Spec.Media.Track) (pt : PartTrack) : Prop :=
  pt.id = t.id ∧ pt.baseTime = t.baseTime ∧ Agree (Carries t.codec) t.frames pt.samples

def CarriesPart (p : Spec.Media.Part) (q : Part) : Prop :=
  q.sequenceNumber = p.sequenceNumber ∧ Agree CarriesTrack p.tracks q.tracks

def mediaSamples (c : Codec) : List Frame → Res (List Sample)
  | [] => .ok []
  | f :: l => do
    let s ← mediaFill c f
    let m ← mediaSamples c l
    .ok (s :: m)

def mediaTracks : List Spec.Media.Track → Res (List PartTrack)
  | [] => .ok []
  | t :: l => do
    let s ← mediaSamples t.codec t.frames
    let m ← mediaTracks l
    .ok ({ id := t.id, baseTime := t.baseTime, samples := s } :: m)

def mediaParts : List Spec.Media.Part → Res (List Part)
  | [] => .ok []
  | p :: l => do
    let t ← mediaTracks p.tracks
    let m ← mediaParts l
    .ok ({ sequenceNumber := p.sequenceNumber, tracks := t } :: m)

/-- Units that the packages h264, h265 and av1 support. -/
def GoodUnits : Codec → List Bytes → Prop
  | .av1, l => l ≠ [] ∧ ∀ u ∈ l, ∃ (b : UInt8) (payload : Bytes), u = b :: payload ∧ b.toNat / 128 = 0 ∧ b.toNat / 4 % 2 = 0 ∧
      b.toNat / 2 % 2 = 0 ∧ payload.length < 2 ^ 32
  | _, l => 1 ≤ l.length ∧ l.length ≤ 50 ∧ (∀ u ∈ l, u ≠ []) ∧ Spec.auBytes l ≤ 8 * 1024 * 1024

def GoodFrame (c : Codec) (f : Frame) : Prop :=
  f.duration < 2 ^ 32 ∧ -2 ^ 31 ≤ f.ptsOffset ∧ f.ptsOffset < 2 ^ 31 ∧ GoodUnits c f.units

def frameWeight (f : Frame) : Nat := 16 + (f.units.map fun u => u.length + 6).sum
def trackWeight (t : Spec.Media.Track) : Nat := 64 + (t.frames.map frameWeight).sum

/-- Fields in range, supported units, and less than 2 GiB. -/
def GoodMedia (p : Spec.Media.Part) : Prop :=
  p.sequenceNumber < 2 ^ 32 ∧ 32 + (p.tracks.map trackWeight).sum < 2 ^ 31 ∧
    ∀ t ∈ p.tracks, t.id < 2 ^ 32 ∧ t.baseTime < 2 ^ 64 ∧ t.frames.length ≤ 19200 ∧ ∀ f ∈ t.frames, GoodFrame t.codec f

theorem media_avcc_length (l : List Bytes) : (Spec.avccRecords l).length + 2 * l.length = (l.map fun u => u.length + 6).sum := by
  induction l with
  | nil => rfl
  | cons u l ih =>
    rw [List.map_cons, List.sum_cons, ← ih, Spec.avccRecords, List.flatMap_cons, List.length_append, List.length_append, List.length_cons]
    unfold Spec.avccRecords Spec.be32
    simp only [List.length_cons, List.length_nil]
    omega

theorem media_isKey (c : Codec) (f : Frame) : f.isKey c = decide (∃ u ∈ f.units, u.head?.any (starts c) = true) := by
  unfold Frame.isKey
  rw [Bool.eq_iff_iff, List.any_eq_true]
  simp

theorem media_fill_h264 (d : Nat) (f : Frame) (h : GoodUnits .h264 f.units) :
    ∃ p, fillH264 { duration := d } f.ptsOffset f.units = .ok ⟨d, f.ptsOffset, !f.isKey .h264, p⟩ ∧
      H264.avccUnmarshal p = .ok f.units ∧ p.length ≤ (f.units.map fun u => u.length + 6).sum := by
  obtain ⟨h1, h2, h3, h4⟩ := h
  have hr := C06_avcc_roundtrip f.units h1 h2 h3 h4
  have hl := media_avcc_length f.units
  rw [H264.avccMarshal_spec, Res.bind_ok] at hr
  refine ⟨Spec.avccRecords f.units, ?_, hr, by omega⟩
  unfold fillH264
  rw [H264.avccMarshal_spec, Res.bind_ok, C10_h264 f.units h3, Res.bind_ok, media_isKey]
  congr 3
  rw [decide_eq_decide]
  refine exists_congr fun u => and_congr_right fun _ => ?_
  cases u <;> simp [nalType264, starts]

theorem media_fill_h265 (d : Nat) (f : Frame) (h : GoodUnits .h265 f.units) :
    ∃ p, fillH265 { duration := d } f.ptsOffset f.units = .ok ⟨d, f.ptsOffset, !f.isKey .h265, p⟩ ∧
      H264.avccUnmarshal p = .ok f.units ∧ p.length ≤ (f.units.map fun u => u.length + 6).sum := by
  obtain ⟨h1, h2, h3, h4⟩ := h
  have hr := C06_avcc_roundtrip f.units h1 h2 h3 h4
  have hl := media_avcc_length f.units
  rw [H264.avccMarshal_spec, Res.bind_ok] at hr
  refine ⟨Spec.avccRecords f.units, ?_, hr, by omega⟩
  unfold fillH265
  rw [H264.avccMarshal_spec, Res.bind_ok, C10_h265 f.units h3, Res.bind_ok, media_isKey]
  congr 3
  rw [decide_eq_decide]
  refine exists_congr fun u => and_congr_right fun _ => ?_
  cases u <;> simp [nalType265, starts]

theorem media_av1_length (l : List Bytes) (h : ∀ u ∈ l, u.length < 2 ^ 32 + 1) :
    (l.flatMap AV1.writeRec).length ≤ (l.map fun u => u.length + 6).sum := by
  induction l with
  | nil => exact Nat.le_refl _
  | cons u l ih =>
    have := ih fun x hx => h x (List.mem_cons_of_mem _ hx)
    have hu := h u List.mem_cons_self
    rw [List.flatMap_cons, List.length_append, List.map_cons, List.sum_cons]
    have : (AV1.writeRec u).length ≤ u.length + 6 := by
      cases u with
      | nil => exact Nat.zero_le _
      | cons b p =>
        unfold AV1.writeRec
        rw [List.length_cons] at hu
        obtain ⟨pre, last, f1, f2, _⟩ := AV1.lebBytes_form p.length 4 (by omega)
        rw [List.length_cons, List.length_append, f1, List.length_append]
        simp only [List.length_cons, List.length_nil]
        omega
    omega

theorem media_fill_av1 (d : Nat) (f : Frame) (h : GoodUnits .av1 f.units) :
    ∃ p, fillAV1 { duration := d, ptsOffset := f.ptsOffset } f.units = .ok ⟨d, f.ptsOffset, !f.isKey .av1, p⟩ ∧
      AV1.bitstreamUnmarshal p = .ok f.units ∧ p.length ≤ (f.units.map fun u => u.length + 6).sum := by
  obtain ⟨h1, h2⟩ := h
  have hr := C17_bitstream_roundtrip f.units h1 h2
  rw [AV1.bitstreamMarshal_spec _ h2, Res.bind_ok] at hr
  refine ⟨f.units.flatMap AV1.writeRec, ?_, hr, media_av1_length _ ?_⟩
  · unfold fillAV1
    rw [AV1.bitstreamMarshal_spec _ h2, Res.bind_ok, C10_av1, media_isKey]
    congr 3
    rw [decide_eq_decide]
    refine exists_congr fun u => and_congr_right fun _ => ?_
    cases u <;> simp [obuType, starts]
  · intro u hu
    obtain ⟨b, p, rfl, _, _, _, hp⟩ := h2 u hu
    rw [List.length_cons]; omega

/-- A frame becomes a sample that carries it. -/
theorem media_fill (c : Codec) (f : Frame) (h : GoodFrame c f) :
    ∃ s, mediaFill c f = .ok s ∧ Carries c f s ∧ 16 + s.payload.length ≤ frameWeight f := by
  obtain ⟨h1, h2, h3, h4⟩ := h
  unfold frameWeight
  cases c with
  | h264 =>
    obtain ⟨p, e, g, hp⟩ := media_fill_h264 f.duration f h4
    exact ⟨_, e, ⟨rfl, rfl, rfl, g⟩, by simp only; omega⟩
  | h265 =>
    obtain ⟨p, e, g, hp⟩ := media_fill_h265 f.duration f h4
    exact ⟨_, e, ⟨rfl, rfl, rfl, g⟩, by simp only; omega⟩
  | av1 =>
    obtain ⟨p, e, g, hp⟩ := media_fill_av1 f.duration f h4
    exact ⟨_, e, ⟨rfl, rfl, rfl, g⟩, by simp only; omega⟩

theorem media_samples (c : Codec) (l : List Frame) (h : ∀ f ∈ l, GoodFrame c f) (hw : (l.map frameWeight).sum < 2 ^ 31) :
    ∃ m, mediaSamples c l = .ok m ∧ Agree (Carries c) l m ∧ m.length = l.length ∧ (∀ s ∈ m, FitsSample s) ∧
      16 * m.length + (m.flatMap (·.payload)).length ≤ (l.map frameWeight).sum := by
  induction l with
  | nil => exact ⟨[], rfl, trivial, rfl, (fun s hs => by cases hs), Nat.le_refl _⟩
  | cons f l ih =>
    rw [List.map_cons, List.sum_cons] at hw ⊢
    obtain ⟨m, e1, g1, g2, g3, g4⟩ := ih (fun x hx => h x (List.mem_cons_of_mem _ hx)) (by omega)
    obtain ⟨s, e2, k1, k2⟩ := media_fill c f (h f List.mem_cons_self)
    obtain ⟨h1, h2, h3, h4⟩ := h f List.mem_cons_self
    refine ⟨s :: m, ?_, ⟨k1, g1⟩, by rw [List.length_cons, List.length_cons, g2], ?_, ?_⟩
    · unfold mediaSamples
      rw [e2, Res.bind_ok, e1, Res.bind_ok]
    · intro x hx
      rcases List.mem_cons.mp hx with rfl | hx
      · obtain ⟨c1, c2, c3, c4⟩ := k1
        exact ⟨by rw [c1]; exact h1, by rw [c2]; exact h2, by rw [c2]; exact h3, by omega⟩
      · exact g3 x hx
    · rw [List.length_cons, List.flatMap_cons, List.length_append]
      omega

theorem media_row_length (a b : Bool) (s : Sample) : (runRow a b s).length ≤ 16 := by
  unfold runRow beSigned
  cases a <;> cases b <;> simp [beBytes_length]

theorem media_rows_length (a b : Bool) (l : List Sample) : (l.flatMap (runRow a b)).length ≤ 16 * l.length := by
  induction l with
  | nil => exact Nat.le_refl _
  | cons s l ih =>
    have := media_row_length a b s
    rw [List.flatMap_cons, List.length_append, List.length_cons]; omega

theorem media_traf_length (t : PartTrack) (d : Int) : (traf t d).length ≤ 64 + 16 * t.samples.length := by
  have := media_rows_length (t.samples.any (·.isNonSync)) (t.samples.any (·.ptsOffset ≠ 0)) t.samples
  unfold traf run fullBox beSigned
  simp only [box_length _ _ (show ([0x74, 0x72, 0x61, 0x66] : Bytes).length = 4 from rfl),
    box_length _ _ (show ([0x74, 0x66, 0x68, 0x64] : Bytes).length = 4 from rfl),
    box_length _ _ (show ([0x74, 0x66, 0x64, 0x74] : Bytes).length = 4 from rfl),
    box_length _ _ (show ([0x74, 0x72, 0x75, 0x6E] : Bytes).length = 4 from rfl), List.length_append, beBytes_length]
  omega

theorem media_tracks (l : List Spec.Media.Track) (hw : (l.map trackWeight).sum < 2 ^ 31)
    (h : ∀ t ∈ l, t.id < 2 ^ 32 ∧ t.baseTime < 2 ^ 64 ∧ t.frames.length ≤ 19200 ∧ ∀ f ∈ t.frames, GoodFrame t.codec f) :
    ∃ m, mediaTracks l = .ok m ∧ Agree CarriesTrack l m ∧ (∀ t ∈ m, FitsTrack t) ∧
      ((m.map (traf · 0)).flatten).length + (m.flatMap trackData).length ≤ (l.map trackWeight).sum := by
  induction l with
  | nil => exact ⟨[], rfl, trivial, (fun s hs => by cases hs), Nat.le_refl _⟩
  | cons t l ih =>
    rw [List.map_cons, List.sum_cons] at hw ⊢
    obtain ⟨m, e1, g1, g3, g4⟩ := ih (by omega) (fun x hx => h x (List.mem_cons_of_mem _ hx))
    obtain ⟨h1, h2, h3, h4⟩ := h t List.mem_cons_self
    obtain ⟨s, e2, k1, k2, k3, k4⟩ := media_samples t.codec t.frames h4 (by unfold trackWeight at hw; omega)
    have hl := media_traf_length { id := t.id, baseTime := t.baseTime, samples := s } 0
    refine ⟨{ id := t.id, baseTime := t.baseTime, samples := s } :: m, ?_, ⟨⟨rfl, rfl, k1⟩, g1⟩, ?_, ?_⟩
    · unfold mediaTracks
      rw [e2, Res.bind_ok, e1, Res.bind_ok]
    · intro x hx
      rcases List.mem_cons.mp hx with rfl | hx
      · exact ⟨h1, h2, by simp only; omega, k3⟩
      · exact g3 x hx
    · rw [List.map_cons, List.flatten_cons, List.flatMap_cons, List.length_append, List.length_append]
      have : trackData { id := t.id, baseTime := t.baseTime, samples := s } = s.flatMap (·.payload) := rfl
      have hw' : trackWeight t = 64 + (t.frames.map frameWeight).sum := rfl
      rw [this]
      simp only at hl
      omega

theorem media_parts (l : List Spec.Media.Part) (h : ∀ p ∈ l, GoodMedia p) :
    ∃ m, mediaParts l = .ok m ∧ Agree CarriesPart l m ∧ ∀ p ∈ m, FitsPart p := by
  induction l with
  | nil => exact ⟨[], rfl, trivial, fun s hs => by cases hs⟩
  | cons p l ih =>
    obtain ⟨m, e1, g1, g2⟩ := ih (fun x hx => h x (List.mem_cons_of_mem _ hx))
    obtain ⟨h1, h2, h3⟩ := h p List.mem_cons_self
    obtain ⟨s, e2, k1, k2, k3⟩ := media_tracks p.tracks (by omega) h3
    refine ⟨{ sequenceNumber := p.sequenceNumber, tracks := s } :: m, ?_, ⟨⟨rfl, k1⟩, g1⟩, ?_⟩
    · unfold mediaParts
      rw [e2, Res.bind_ok, e1, Res.bind_ok]
    · intro x hx
      rcases List.mem_cons.mp hx with rfl | hx
      · refine ⟨h1, k2, ?_⟩
        unfold moof mdat fullBox
        simp only [box_length _ _ (show ([0x6D, 0x6F, 0x6F, 0x66] : Bytes).length = 4 from rfl),
          box_length _ _ (show ([0x6D, 0x66, 0x68, 0x64] : Bytes).length = 4 from rfl),
          box_length _ _ (show ([0x6D, 0x64, 0x61, 0x74] : Bytes).length = 4 from rfl), List.length_append, beBytes_length]
        rw [fmp4_zip_zero]
        omega
      · exact g2 x hx

/-- C72: access units handed to `FillH264`, `FillH265` and `FillAV1`, written by `Parts.Marshal` and read by `Parts.Unmarshal`, come back from
`GetH264`, `GetH265` and `GetAV1` with their duration and time offset, and samples are sync samples exactly at random access units. -/
theorem C72_media_round_trip (l : List Spec.Media.Part) (h : ∀ p ∈ l, GoodMedia p) :
    ∃ b, (mediaParts l >>= fun ps => marshalParts ps (full [])) = .ok (full b) ∧
      (b.length < 2 ^ 64 → ∃ ps, unmarshal b = .ok ps ∧ Agree CarriesPart l ps) := by
  obtain ⟨m, e, g1, g2⟩ := media_parts l h
  obtain ⟨b, e', hb⟩ := C68_round_trip m g2
  exact ⟨b, by rw [e, Res.bind_ok, e'], fun hl => ⟨m, hb hl, g1⟩⟩

/-- A part with a key frame and another frame of H264, a CRA picture of H265 and a temporal unit of AV1. -/
def exampleMedia : Spec.Media.Part :=
  { sequenceNumber := 3,
    tracks := [
      { id := 1, codec := .h264, baseTime := 90000,
        frames := [{ duration := 3000, ptsOffset := 6000, units := [[0x67, 1], [0x68, 2], [0x65, 3, 4]] }, { duration := 3000, ptsOffset := -1, units := [[0x41]] }] },
      { id := 2, codec := .h265, frames := [{ duration := 1, units := [[0x2A, 1, 7]] }] },
      { id := 3, codec := .av1, frames := [{ duration := 1, units := [[0x08, 1, 7], [0x30, 2]] }, { duration := 1, units := [[0x30, 2]] }] }] }

example : GoodMedia exampleMedia := by
  refine ⟨by decide, by decide, ?_⟩
  intro t ht
  simp only [exampleMedia, List.mem_cons, List.not_mem_nil, or_false] at ht
  rcases ht with rfl | rfl | rfl
  · refine ⟨by decide, by decide, by decide, ?_⟩
    intro f hf
    simp only [List.mem_cons, List.not_mem_nil, or_false] at hf
    rcases hf with rfl | rfl <;> exact ⟨by decide, by decide, by decide, by decide, by decide, by decide, by decide⟩
  · refine ⟨by decide, by decide, by decide, ?_⟩
    intro f hf
    simp only [List.mem_cons, List.not_mem_nil, or_false] at hf
    subst hf
    exact ⟨by decide, by decide, by decide, by decide, by decide, by decide, by decide⟩
  · refine ⟨by decide, by decide, by decide, ?_⟩
    intro f hf
    simp only [List.mem_cons, List.not_mem_nil, or_false] at hf
    rcases hf with rfl | rfl
    · refine ⟨by decide, by decide, by decide, by decide, ?_⟩
      intro u hu
      simp only [List.mem_cons, List.not_mem_nil, or_false] at hu
      rcases hu with rfl | rfl <;> exact ⟨_, _, rfl, by decide, by decide, by decide, by decide⟩
    · refine ⟨by decide, by decide, by decide, by decide, ?_⟩
      intro u hu
      simp only [List.mem_cons, List.not_mem_nil, or_false] at hu
      subst hu
      exact ⟨_, _, rfl, by decide, by decide, by decide, by decide⟩

example : (do
    let ps ← mediaParts [exampleMedia]
    let f ← marshalParts ps (full [])
    let qs ← unmarshal f.buf
    .ok (qs.map fun (q : FMP4.Part) => q.tracks.map fun (t : PartTrack) => t.samples.map fun (s : Sample) => (s.isNonSync, s.payload))) =
    .ok [[[(false, [0, 0, 0, 2, 0x67, 1, 0, 0, 0, 2, 0x68, 2, 0, 0, 0, 3, 0x65, 3, 4]), (true, [0, 0, 0, 1, 0x41])],
      [(false, [0, 0, 0, 3, 0x2A, 1, 7])], [(false, [0x0A, 2, 1, 7, 0x32, 1, 2]), (true, [0x32, 1, 2])]]] := by decide +kernel

/-- Limits matter: `FillH264` and `FillAV1` accept access units that `GetH264` and `GetAV1` reject. -/
theorem C72_limits : (fillH264 {} 0 (List.replicate 51 [0x65])).isOk = true ∧ (fillH264 {} 0 (List.replicate 51 [0x65]) >>= getH264).isOk = false ∧
    (fillH264 {} 0 []).isOk = true ∧ (fillH264 {} 0 [] >>= getH264).isOk = false ∧
    (fillAV1 {} []).isOk = true ∧ (fillAV1 {} [] >>= getAV1).isOk = false := by decide +kernel

end Verif.Props
