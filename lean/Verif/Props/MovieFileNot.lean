import Verif.Props.MovieFileRead
import Verif.Props.FMP4InitAnyCases

/-!
# C93: files of the standard that are refused or misread, and examples

The files of the witnesses are read by the reader of Spec/ISOFile.lean.
-/

namespace Verif.Props
open MP4Box MP4Codec
open FMP4Init (isoFields)
open PMP4 (RSample RTrack getPayload)
open Records
open Spec.FMP4 (box)
open Spec.Records (Carries fourcc)
open Spec.InitSegment (Other others NoneOf Description Tkhd Mdhd IsMvhd)
open Spec.MovieFile (Tables readTables pathBoxes tableBoxes Ordered Item File Sample)
open Spec.ISO (readMovie Movie)
open SampleTables (expand)

/-! ## A file -/

def movieStts : Other := ⟨fourcc 's' 't' 't' 's', pack [(8, 0), (24, 0), (32, 2), (32, 2), (32, 960), (32, 1), (32, 480)], false⟩
def movieStss : Other := ⟨fourcc 's' 't' 's' 's', pack [(8, 0), (24, 0), (32, 1), (32, 1)], false⟩
def movieCtts : Other := ⟨fourcc 'c' 't' 't' 's', pack [(8, 1), (24, 0), (32, 2), (32, 1), (32, 0), (32, 2), (32, 2 ^ 32 - 480)], false⟩
def movieStsc : Other := ⟨fourcc 's' 't' 's' 'c', pack [(8, 0), (24, 0), (32, 2), (32, 1), (32, 2), (32, 1), (32, 2), (32, 1), (32, 1)], false⟩
def movieStsz : Other := ⟨fourcc 's' 't' 's' 'z', pack [(8, 0), (24, 0), (32, 0), (32, 3), (32, 3), (32, 4), (32, 5)], false⟩
def movieStco : Other := ⟨fourcc 's' 't' 'c' 'o', pack [(8, 0), (24, 0), (32, 2), (32, 16), (32, 24)], false⟩

/-- Three samples in two chunks. -/
def movieSampleTables : Tables := ⟨[(2, 960), (1, 480)], some [(1, 0), (2, -480)], some [1], [⟨1, 2, 1⟩, ⟨2, 1, 1⟩], [3, 4, 5], [16, 24]⟩

/-- The tables in another order than that of the writer of the module, with other boxes. -/
def movieTableBoxes : List Other :=
  [⟨fourcc 'f' 'r' 'e' 'e', [], false⟩, movieStts, movieCtts, ⟨fourcc 's' 'd' 't' 'p', List.replicate 7 0, false⟩, movieStsz, movieStsc, movieStco, movieStss,
    ⟨fourcc 's' 'g' 'p' 'd', List.replicate 12 0, false⟩]

theorem movie_tables_example : TablesMean movieTableBoxes movieSampleTables where
  read := by decide +kernel
  consistent :=
    { times := by decide
      offsets := fun l h => by injection h with h; subst h; decide
      syncs := fun l h => by injection h with h; subst h; decide
      first := fun e h => by injection h with h; subst h; decide
      increasing := by decide
      last := by decide
      described := fun h => by cases h
      chunks := by decide }
  limits :=
    { samples := by decide
      offsets := fun l h => by injection h with h; subst h; decide
      low := by unfold MovieLow; decide +kernel
      chunks := by decide }
  ordered := ⟨[⟨fourcc 'f' 'r' 'e' 'e', [], false⟩], movieStts, [movieCtts, ⟨fourcc 's' 'd' 't' 'p', List.replicate 7 0, false⟩, movieStsz, movieStsc], movieStco,
    [movieStss, ⟨fourcc 's' 'g' 'p' 'd', List.replicate 12 0, false⟩], rfl, rfl, rfl, by decide, by decide⟩
  listed := by unfold MovieListed; decide +kernel
  path := by decide

def movieMdhd : Mdhd :=
  { version := 0, flags := 0, created := 1, modified := 2, timeScale := 48000, duration := 2400, pad := 0, language1 := 5, language2 := 14,
    language3 := 7, preDefined := 0 }

def movieTkhd : Tkhd := { alienTkhd with version := 0, created := 1, modified := 2, duration := 50 }

def movieHdlr : Other := ⟨fourcc 'h' 'd' 'l' 'r', pack [(64, 0), (32, 0x736F756E), (104, 0)], false⟩
def movieSmhd : Other := ⟨fourcc 's' 'm' 'h' 'd', List.replicate 8 0, false⟩
def movieDinf : Other := ⟨fourcc 'd' 'i' 'n' 'f', box (fourcc 'd' 'r' 'e' 'f') (pack [(32, 0), (32, 1)] ++ box (fourcc 'u' 'r' 'l' ' ') (pack [(32, 1)])), false⟩

/-- One edit: 50 ms from the start. -/
def movieElst : Bytes := pack [(8, 0), (24, 0), (32, 1), (32, 50), (32, 0), (16, 1), (16, 0)]

def movieExample : Spec.MovieFile.Track :=
  { trak1 := [], tkhd := pack movieTkhd.fields, trak2 := [⟨fourcc 't' 'a' 'p' 't', [0], false⟩], edts1 := [], elst := movieElst, edts2 := [], trak3 := [],
    mdia1 := [], mdhd := pack movieMdhd.fields, mdia2 := [movieHdlr], minf1 := [movieSmhd, movieDinf], stbl1 := [], description := alienDescription,
    tables := movieTableBoxes, minf2 := [], mdia3 := [⟨fourcc 'f' 'r' 'e' 'e', [1, 2], false⟩], trak4 := [⟨fourcc 'u' 'd' 't' 'a', [], false⟩] }

theorem movie_track_example : MovieTrackMeans movieExample movieTkhd movieMdhd movieSampleTables (.opus 2) where
  tkhd := carries_self (by decide +kernel) (by decide +kernel)
  mdhd := carries_self (by decide) (by decide)
  time := by decide
  codec := alien_description_example
  tables := movie_tables_example
  trak := by decide
  edts := by decide
  mdia := by decide
  minf := by decide
  stbl := by decide

def movieMvhd : Bytes := pack [(8, 0), (24, 0), (32, 0), (32, 0), (32, 1000), (32, 50), (32, 65536), (16, 256), (560, 0), (32, 2)]

def movieMdat : Other := ⟨fourcc 'm' 'd' 'a' 't', [1, 2, 3, 4, 5, 6, 7, 0, 8, 9, 10, 11, 12], false⟩

/-- The media data are before the movie, and after it is a box with a header of 16 bytes. -/
def movieFile : File :=
  { ftyp := [], top1 := [movieMdat], moov1 := [], mvhd := movieMvhd,
    items := [.other ⟨fourcc 'i' 'o' 'd' 's', [0], false⟩, .track movieExample, .other ⟨fourcc 'u' 'd' 't' 'a', [], false⟩], top2 := [⟨fourcc 'f' 'r' 'e' 'e', [1], true⟩] }

instance (o : Other) : Decidable o.Fits := by unfold Other.Fits; infer_instance

theorem movie_file_example : MovieFileMeans movieFile [⟨movieTkhd, movieMdhd, movieSampleTables, .opus 2⟩] where
  top := by decide
  topSize := by decide +kernel
  ftypSize := by decide
  moovSize := by decide +kernel
  moov := by decide
  mvhd := by unfold IsMvhd; decide +kernel
  items := .other (by decide) (by decide) (.track movie_track_example (.other (by decide) (by decide) .nil))

/-- `C93_file_partial`. -/
example : ∃ l, PMP4File.unmarshal isoFields movieFile.bytes = .ok l ∧ l.map (fun x => (x.1.id, x.1.timeScale, x.2, x.1.reader.samples)) =
    [(7, 48000, some (.opus 2), [⟨960, 0, false, 3, some (16, 3)⟩, ⟨960, -480, true, 4, some (19, 4)⟩, ⟨480, -480, true, 5, some (24, 5)⟩])] := by
  obtain ⟨l, h1, h2⟩ := C93_file_partial movieFile _ movie_file_example (by simp)
  exact ⟨l, h1, by rw [h2]; decide +kernel⟩

/-- `C93_offsets` and `C93_presented_partial`. -/
example : (expand movieSampleTables.stts).sum = 2400 ∧ Spec.ISO.presented 1000 48000 [⟨50, 0, 65536⟩] 0 480 = some (480 * 1000) := by decide

/-- `C93_payload`. -/
example : getPayload movieFile.bytes (movieSeen ⟨480, -480, false, 24, 5⟩) = .ok [8, 9, 10, 11, 12] := by decide +kernel

/-- `C93_empty`. -/
example : MovieFileMeans { movieFile with items := [] } [] where
  top := by decide
  topSize := by decide +kernel
  ftypSize := by decide
  moovSize := by decide +kernel
  moov := by decide
  mvhd := by unfold IsMvhd; decide +kernel
  items := .nil

/-- The media data may be of more than 4 GiB. -/
example (payload : Bytes) (h : payload.length < 2 ^ 63) :
    MovieFileMeans { movieFile with top2 := [⟨fourcc 'm' 'd' 'a' 't', payload, true⟩] } [⟨movieTkhd, movieMdhd, movieSampleTables, .opus 2⟩] :=
  { movie_file_example with
    top := ⟨movie_file_example.top.1, fun o ho => by rw [List.mem_singleton.1 ho]; dsimp only; decide⟩
    topSize := fun o ho => by
      rcases List.mem_append.1 ho with ho | ho
      · exact movie_file_example.topSize o (List.mem_append_left _ ho)
      · rw [List.mem_singleton.1 ho]
        unfold Other.Fits Other.bytes
        rw [if_pos rfl, if_pos rfl, alien_box_length _ _ (by rfl)]
        dsimp only
        omega }

/-- The reader of the standard reads it too. -/
example : (readMovie movieFile.bytes).map (fun m => m.tracks.map fun t => t.samples) =
    some [[⟨0, 0, true, 16, 3⟩, ⟨960, 480, false, 19, 4⟩, ⟨1920, 1440, false, 24, 5⟩]] := by decide +kernel

/-! ## Files in other forms -/

/-- A file with a track, whose edit list, media header and tables may be any. -/
def movieWith (edts : Bytes) (mdhd : Bytes) (tables : List Other) : Bytes :=
  box (fourcc 'f' 't' 'y' 'p') [] ++ (movieMdat.bytes ++ box (fourcc 'm' 'o' 'o' 'v') (box (fourcc 'm' 'v' 'h' 'd') movieMvhd ++
    box (fourcc 't' 'r' 'a' 'k') (box (fourcc 't' 'k' 'h' 'd') movieExample.tkhd ++ (edts ++ box (fourcc 'm' 'd' 'i' 'a') (box (fourcc 'm' 'd' 'h' 'd') mdhd ++
      (movieHdlr.bytes ++ box (fourcc 'm' 'i' 'n' 'f') (movieSmhd.bytes ++ (movieDinf.bytes ++ box (fourcc 's' 't' 'b' 'l') (alienDescription.bytes ++
        others tables)))))))))

/-- A file of the standard: it is read by the reader of Spec/ISOFile.lean, and its tables are consistent. -/
structure StandardMovie (b : Bytes) (m : Movie) : Prop where
  read : readMovie b = some m
  tracks : m.tracks ≠ []
  consistent : ∀ t ∈ m.tracks, t.Consistent

/-- C93 for files without edit lists. They are optional (8.6.5). -/
def C93_edits : Prop :=
  ∀ (b : Bytes) (m : Movie), StandardMovie b m → (∀ t ∈ m.tracks, t.edits = none) → ∃ l, PMP4File.unmarshal isoFields b = .ok l

def movieNoEdits : Bytes := movieWith [] movieExample.mdhd movieTableBoxes

def movieOf (b : Bytes) : Movie := (readMovie b).getD ⟨0, 0, 0, 0, [], 0, []⟩

instance (t : Spec.ISO.Track) : Decidable t.Consistent := by unfold Spec.ISO.Track.Consistent; infer_instance

/-- Files without edit lists are refused. -/
theorem C93_edits_false : ¬ C93_edits := by
  intro h
  obtain ⟨l, e⟩ := h movieNoEdits (movieOf movieNoEdits) ⟨by decide +kernel, by decide +kernel, by decide +kernel⟩ (by decide +kernel)
  have : PMP4File.unmarshal isoFields movieNoEdits = .err "unexpected box" := by decide +kernel
  rw [this] at e
  cases e

/-- C93 for samples of the same size, which is told once (8.7.3.2). -/
def C93_sizes : Prop :=
  ∀ (b : Bytes) (m : Movie), StandardMovie b m → (∀ t ∈ m.tracks, t.edits ≠ none ∧ ∃ n, ∀ s ∈ t.sizes, s = n) →
    ∃ l, PMP4File.unmarshal isoFields b = .ok l

def movieConstant : Bytes :=
  movieWith movieExample.edts movieExample.mdhd [movieStts, movieStsc, ⟨fourcc 's' 't' 's' 'z', pack [(8, 0), (24, 0), (32, 4), (32, 3)], false⟩, movieStco]

/-- Files with constant sample sizes are refused. -/
theorem C93_sizes_false : ¬ C93_sizes := by
  intro h
  obtain ⟨l, e⟩ := h movieConstant (movieOf movieConstant) ⟨by decide +kernel, by decide +kernel, by decide +kernel⟩ (by
    have : ∀ t ∈ (movieOf movieConstant).tracks, t.edits ≠ none ∧ ∀ s ∈ t.sizes, s = 4 := by decide +kernel
    exact fun t ht => ⟨(this t ht).1, 4, (this t ht).2⟩)
  have : PMP4File.unmarshal isoFields movieConstant = .err "invalid stsz" := by decide +kernel
  rw [this] at e
  cases e

/-- C93 for tables in any order. ISO 14496-12 does not order them. -/
def C93_order : Prop :=
  ∀ (b : Bytes) (m : Movie), StandardMovie b m → (∀ t ∈ m.tracks, t.edits ≠ none) → ∃ l, PMP4File.unmarshal isoFields b = .ok l

def movieOther : Bytes := movieWith movieExample.edts movieExample.mdhd [movieStss, movieStts, movieCtts, movieStsc, movieStsz, movieStco]
def movieOther2 : Bytes := movieWith movieExample.edts movieExample.mdhd [movieStts, movieStss, movieCtts, movieStsc, movieStco, movieStsz]

/-- Files whose sync samples are before the durations are refused. -/
theorem C93_order_false : ¬ C93_order := by
  intro h
  obtain ⟨l, e⟩ := h movieOther (movieOf movieOther) ⟨by decide +kernel, by decide +kernel, by decide +kernel⟩ (by decide +kernel)
  have : PMP4File.unmarshal isoFields movieOther = .err "unexpected box 'stss'" := by decide +kernel
  rw [this] at e
  cases e

/-- And so are those whose chunk offsets are before the sizes of samples. -/
theorem C93_order_sizes_false : ¬ C93_order := by
  intro h
  obtain ⟨l, e⟩ := h movieOther2 (movieOf movieOther2) ⟨by decide +kernel, by decide +kernel, by decide +kernel⟩ (by decide +kernel)
  have : PMP4File.unmarshal isoFields movieOther2 = .err "invalid stsz" := by decide +kernel
  rw [this] at e
  cases e

/-- C93 for files with chunk offsets of 64 bits (8.7.5): if they are read, their samples have payloads. -/
def C93_payloads : Prop :=
  ∀ (b : Bytes) (l : List (RTrack × Option Codec)), PMP4File.unmarshal isoFields b = .ok l → ∀ x ∈ l, ∀ s ∈ x.1.reader.samples, getPayload b s ≠ .panic

def movieCo64 : Other := ⟨fourcc 'c' 'o' '6' '4', pack [(8, 0), (24, 0), (32, 2), (64, 16), (64, 24)], false⟩
def movieLong : Bytes := movieWith movieExample.edts movieExample.mdhd [movieStts, movieStss, movieCtts, movieStsc, movieStsz, movieCo64]

/-- They are read without an error, but getting a payload is a call of a nil function. -/
theorem C93_payloads_false : ¬ C93_payloads := by
  intro h
  have e : ∃ l, PMP4File.unmarshal isoFields movieLong = .ok l ∧ ∃ x ∈ l, ∃ s ∈ x.1.reader.samples, getPayload movieLong s = .panic := by
    have hok : (PMP4File.unmarshal isoFields movieLong).isOk = true := by decide +kernel
    cases hu : PMP4File.unmarshal isoFields movieLong with
    | ok l =>
      refine ⟨l, rfl, ?_⟩
      have : (match PMP4File.unmarshal isoFields movieLong with
        | .ok l => l.any fun x => x.1.reader.samples.any fun s => s.location.isNone
        | _ => false) = true := by decide +kernel
      rw [hu] at this
      simp only [List.any_eq_true] at this
      obtain ⟨x, hx, s, hs, hn⟩ := this
      refine ⟨x, hx, s, hs, ?_⟩
      unfold getPayload
      rw [Option.isNone_iff_eq_none.1 hn]
    | err m => rw [hu] at hok; cases hok
    | panic => rw [hu] at hok; cases hok
  obtain ⟨l, e1, x, hx, s, hs, e2⟩ := e
  exact h _ l e1 x hx s hs e2

/-- C93 for large files: samples are where the tables say. Offsets of chunks are below 4 GiB, but chunks may go beyond. -/
def C93_locations : Prop :=
  ∀ (b : Bytes) (m : Movie) (l : List (RTrack × Option Codec)), StandardMovie b m → PMP4File.unmarshal isoFields b = .ok l →
    ∀ (i : Nat) (x : RTrack × Option Codec) (t : Spec.ISO.Track), l[i]? = some x → m.tracks[i]? = some t →
      x.1.reader.samples.map (·.location) = t.locations.map some

/-- A chunk that crosses 4 GiB. -/
def movieCrossing : Bytes :=
  movieWith movieExample.edts movieExample.mdhd [movieStts, movieStsc, movieStsz,
    ⟨fourcc 's' 't' 'c' 'o', pack [(8, 0), (24, 0), (32, 2), (32, 2 ^ 32 - 2), (32, 24)], false⟩]

def movieResult (b : Bytes) : List (RTrack × Option Codec) :=
  match PMP4File.unmarshal isoFields b with
  | .ok l => l
  | _ => []

def movieTrackOf (b : Bytes) : Spec.ISO.Track := (movieOf b).tracks.getD 0
  ⟨⟨⟨[], [], none, none, [], [], []⟩, 0, 0, [], [], [], []⟩, 0, 0, 0, 0, 0, [], 0, 0, none⟩

/-- The offset of the second sample of such a chunk wraps. -/
theorem C93_locations_false : ¬ C93_locations := by
  intro h
  exact absurd (h movieCrossing (movieOf movieCrossing) (movieResult movieCrossing) ⟨by decide +kernel, by decide +kernel, by decide +kernel⟩
    (by decide +kernel) 0 ((movieResult movieCrossing).getD 0 ({}, none)) (movieTrackOf movieCrossing) (by decide +kernel) (by decide +kernel))
    (by decide +kernel)

/-! ## Times -/

/-- C93 for presentation times: the time of a sample, with the time offset of the track, is when the edits present it. -/
def C93_presented : Prop :=
  ∀ (b : Bytes) (m : Movie) (l : List (RTrack × Option Codec)), StandardMovie b m → PMP4File.unmarshal isoFields b = .ok l →
    ∀ (i : Nat) (x : RTrack × Option Codec) (t : Spec.ISO.Track), l[i]? = some x → m.tracks[i]? = some t → ∀ s ∈ t.samples, ∀ p, t.presentedAt m s.composition = some p →
      p = (x.1.reader.timeOffset + s.composition) * m.timeScale

/-- Composition offsets are not negative in files of many writers; an edit makes the first sample start at 0. -/
def movieShifted : Bytes :=
  movieWith (box (fourcc 'e' 'd' 't' 's') (box (fourcc 'e' 'l' 's' 't') (pack [(8, 0), (24, 0), (32, 1), (32, 50), (32, 960), (16, 1), (16, 0)])))
    movieExample.mdhd [movieStts, movieStsc, movieStsz, movieStco]

/-- A file whose media starts 1 s after the movie. -/
def movieDelayed : Bytes :=
  movieWith (box (fourcc 'e' 'd' 't' 's') (box (fourcc 'e' 'l' 's' 't') (pack [(8, 0), (24, 0), (32, 2), (32, 1000), (32, 2 ^ 32 - 1), (16, 1), (16, 0),
    (32, 50), (32, 0), (16, 1), (16, 0)]))) movieExample.mdhd [movieStts, movieStsc, movieStsz, movieStco]

theorem movie_presented (b : Bytes) (s : Spec.ISO.Sample) (x : RTrack × Option Codec) (t : Spec.ISO.Track) (p : Int)
    (h1 : StandardMovie b (movieOf b)) (h2 : PMP4File.unmarshal isoFields b = .ok (movieResult b)) (h3 : (movieResult b)[0]? = some x)
    (h4 : (movieOf b).tracks[0]? = some t) (h5 : s ∈ t.samples) (h6 : t.presentedAt (movieOf b) s.composition = some p)
    (h7 : p ≠ (x.1.reader.timeOffset + s.composition) * (movieOf b).timeScale) : ¬ C93_presented :=
  fun h => h7 (h b _ _ h1 h2 0 x t h3 h4 s h5 p h6)

/-- The edit list is not read: a sample that starts the presentation is said to be 20 ms after it. -/
theorem C93_shifted_false : ¬ C93_presented :=
  movie_presented movieShifted ⟨960, 960, true, 19, 4⟩ ((movieResult movieShifted).getD 0 ({}, none)) (movieTrackOf movieShifted) 0
    ⟨by decide +kernel, by decide +kernel, by decide +kernel⟩ (by decide +kernel) (by decide +kernel) (by decide +kernel) (by decide +kernel)
    (by decide +kernel) (by decide +kernel)

/-- Nor are empty edits: a track that starts after one second is said to start at once. -/
theorem C93_delayed_false : ¬ C93_presented :=
  movie_presented movieDelayed ⟨0, 0, true, 16, 3⟩ ((movieResult movieDelayed).getD 0 ({}, none)) (movieTrackOf movieDelayed) 48000000
    ⟨by decide +kernel, by decide +kernel, by decide +kernel⟩ (by decide +kernel) (by decide +kernel) (by decide +kernel) (by decide +kernel)
    (by decide +kernel) (by decide +kernel)

/-- C93 for time offsets: zero if the header of the media has the duration of the samples. -/
def C93_version : Prop :=
  ∀ (f : File) (xs : List MovieTrack), MovieFileMeans f xs → xs ≠ [] → (∀ x ∈ xs, x.mdhd.duration = (expand x.tables.stts).sum) →
    ∃ l, PMP4File.unmarshal isoFields f.bytes = .ok l ∧ ∀ x ∈ l, x.1.reader.timeOffset = 0

def movieMdhd1 : Mdhd := { movieMdhd with version := 1 }
def movieFile1 : File := { movieFile with items := [.track { movieExample with mdhd := pack movieMdhd1.fields }] }

theorem movie_file1_example : MovieFileMeans movieFile1 [⟨movieTkhd, movieMdhd1, movieSampleTables, .opus 2⟩] where
  top := by decide
  topSize := by decide +kernel
  ftypSize := by decide
  moovSize := by decide +kernel
  moov := by decide
  mvhd := by unfold IsMvhd; decide +kernel
  items := .track { movie_track_example with mdhd := carries_self (by decide) (by decide) } .nil

/-- A duration of 64 bits is not read: the time offset is the duration of the samples, negative. -/
theorem C93_version_false : ¬ C93_version := by
  intro h
  obtain ⟨l, h1, h2⟩ := h movieFile1 _ movie_file1_example (by simp) (by decide)
  obtain ⟨l', h3, h4⟩ := C93_offsets movieFile1 _ movie_file1_example (by simp)
  rw [h1] at h3
  injection h3 with h3
  subst h3
  cases l with
  | nil => cases h4
  | cons x l =>
    have := h2 x (by simp)
    rw [List.map_cons, List.map_cons, this] at h4
    injection h4 with h4
    exact absurd h4 (by decide +kernel)

end Verif.Props
