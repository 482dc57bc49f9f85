import Verif.Props.MovieFileAny

/-!
# C93: non-fragmented files of any writer

A file with the boxes that the reader knows, in the order that it wants, and with any other boxes between them, is read as
Spec/MovieFile.lean says. Props/MovieFileNot.lean has the files of the standard that are not.
-/

namespace Verif.Props
open MP4Box MP4Codec
open PMP4File hiding Track
open FMP4Init (isoFields)
open FMP4 (box_length)
open PMP4 (Run StscEntry RSample RTrack PReader State Event readEvent maxSamples getPayload)
open Records
open Spec.FMP4 (box)
open Spec.Records (Carries field fourcc)
open Spec.InitSegment (Other others NoneOf codecBoxes Description Tkhd Mdhd IsMvhd times)
open Spec.MovieFile (Tables readTables pathBoxes tableBoxes Ordered Track Item File items Sample)
open SampleTables
open Bits (toInt32 wrapInt32)

/-! ## The sample description -/

theorem movie_description (d : Description) (c : Codec) (ts : List RTrack) (t : RTrack) (n : Nat) (cr0 : Option CodecReader)
    (cs : List (Option Codec)) (h : DescriptionMeans d c) (hl : d.bytes.length < 2 ^ 32) :
    ∃ cr : CodecReader, cr.codec = some c ∧ cr.state = .waitingAdditional ∧
      Reads isoFields PMP4File.handle d.bytes 6 (movieAt .waitingStsd ts t n cr0 none cs) (movieAt .readingCodec ts t n (some cr) none cs) := by
  obtain ⟨h1, h2, h3, r, h4, h5⟩ := h.codec
  unfold Description.bytes at hl ⊢
  have hl' := hl
  rw [box_length _ _ (by rfl), List.length_append, List.length_append, box_length _ _ h1, List.length_append, List.length_append,
    List.length_append, box_length _ _ h2] at hl'
  have hs := h.head
  refine ⟨{ r with codec := some c, state := .waitingAdditional }, rfl, rfl, ?_⟩
  refine tree_node (by rfl) (by rwa [box_length _ _ (by rfl)] at hl) (by rw [hs]; rfl) (fun bi expand e => ?_)
    (r1 := movieAt .readingCodec ts t n (some {}) none cs) (tree_append (r' :=
      movieAt .readingCodec ts t n (some { r with codec := some c, state := .waitingAdditional }) none cs) ?_ ?_)
  · show PMP4File.Reader.readBox _ bi.typ _ expand = _
    rw [e]; rfl
  · refine tree_node h1 (by rw [List.length_append, List.length_append, List.length_append, box_length _ _ h2]; omega) (h3 _)
      (fun bi expand e => ?_) (r1 := movieAt .readingCodec ts t n (some r) none cs)
      (tree_append (r' := movieAt .readingCodec ts t n (some r) none cs) ?_
        (tree_append (r' := movieAt .readingCodec ts t n (some { r with codec := some c, state := .waitingAdditional }) none cs) ?_ ?_))
    · show (deref (some ({} : CodecReader)) >>= _) = _
      unfold deref
      rw [Res.bind_ok]
      unfold CodecReader.read
      rw [if_neg (by decide), e, h4, Res.bind_ok]
      rfl
    · exact movie_codec _ _ _ _ _ (movie_small (by omega)) h.before (by decide) rfl
    · refine tree_leaf h2 (by omega) fun bi expand e => ?_
      show (deref (some r) >>= _) = _
      unfold deref
      rw [Res.bind_ok]
      unfold CodecReader.read
      rw [if_neg (by decide), e, h5]
      rfl
    · exact movie_codec _ _ _ _ _ (movie_small (by omega)) h.after (by decide) rfl
  · exact movie_codec _ _ _ _ _ (movie_small (by omega)) h.rest (by decide) rfl

/-! ## Tracks -/

/-- A track that the reader can read: its headers, its sample tables and its codec. -/
structure MovieTrackMeans (t : Track) (k : Tkhd) (m : Mdhd) (tb : Tables) (c : Codec) : Prop where
  tkhd : Carries t.tkhd k.fields
  mdhd : Carries t.mdhd m.fields
  time : 0 < m.timeScale
  codec : DescriptionMeans t.description c
  tables : TablesMean t.tables tb
  trak : NoneOf (pathBoxes ++ tableBoxes) t.trak1 ∧ NoneOf (pathBoxes ++ tableBoxes) t.trak2 ∧ NoneOf (pathBoxes ++ tableBoxes) t.trak3 ∧
    NoneOf (pathBoxes ++ tableBoxes) t.trak4
  edts : NoneOf (pathBoxes ++ tableBoxes) t.edts1 ∧ NoneOf (pathBoxes ++ tableBoxes) t.edts2
  mdia : NoneOf (pathBoxes ++ tableBoxes) t.mdia1 ∧ NoneOf (pathBoxes ++ tableBoxes) t.mdia2 ∧ NoneOf (pathBoxes ++ tableBoxes) t.mdia3
  minf : NoneOf (pathBoxes ++ tableBoxes) t.minf1 ∧ NoneOf (pathBoxes ++ tableBoxes) t.minf2
  stbl : NoneOf (pathBoxes ++ tableBoxes) t.stbl1

/-- The duration that the reader takes from the header of the media. -/
def movieDuration (m : Mdhd) : Nat := if m.version = 0 then m.duration else 0

/-- The track as it is left by the reader. -/
def movieTrack (k : Tkhd) (m : Mdhd) (tb : Tables) : RTrack :=
  ⟨k.id, m.timeScale, movieReader tb (movieDuration m) true true true true true⟩

/-- The reader between tracks. -/
structure MovieBetween (ts : List RTrack) (cs : List (Option Codec)) (r : PMP4File.Reader) : Prop where
  state : r.base.state = .waitingTrak ∨ r.base.state = .waitingSampleProps
  tracks : r.base.all = ts
  codecs : r.allCodecs = cs

theorem MovieBetween.notCodec {ts : List RTrack} {cs : List (Option Codec)} {r : PMP4File.Reader} (h : MovieBetween ts cs r) :
    r.base.state ≠ .readingCodec := by
  rcases h.state with e | e <;> rw [e] <;> simp

theorem movie_trak {ts : List RTrack} {cs : List (Option Codec)} {r : PMP4File.Reader} (h : MovieBetween ts cs r) :
    r.step .trak = .ok (movieAt .waitingTkhd ts {} r.base.trackDuration r.codecReader none cs) := by
  unfold PMP4File.Reader.step readEvent
  dsimp only
  rw [if_neg (fun x => h.state.elim x.1 x.2), Res.bind_ok, h.tracks, h.codecs]
  rfl

theorem movie_track (t : Track) (k : Tkhd) (m : Mdhd) (tb : Tables) (c : Codec) (ts : List RTrack) (cs : List (Option Codec))
    (r : PMP4File.Reader) (h : MovieTrackMeans t k m tb c) (hr : MovieBetween ts cs r) (hl : t.bytes.length < 2 ^ 32) :
    ∃ cr, Reads isoFields PMP4File.handle t.bytes 2 r
      (movieAt .waitingSampleProps ts (movieTrack k m tb) (movieDuration m) cr (some c) cs) := by
  have ht := h.time
  unfold Track.bytes at hl ⊢
  have hl1 := hl
  rw [box_length _ _ (by rfl)] at hl
  simp only [List.length_append] at hl
  have hl2 : t.mdia.length < 2 ^ 32 := by omega
  unfold Track.mdia at hl2
  have hl2' := hl2
  rw [box_length _ _ (by rfl)] at hl2
  simp only [List.length_append] at hl2
  have hl3 : t.minf.length < 2 ^ 32 := by omega
  unfold Track.minf at hl3
  have hl3' := hl3
  rw [box_length _ _ (by rfl)] at hl3
  simp only [List.length_append] at hl3
  have hl4 : t.stbl.length < 2 ^ 32 := by omega
  unfold Track.stbl at hl4
  have hl4' := hl4
  rw [box_length _ _ (by rfl)] at hl4
  simp only [List.length_append] at hl4
  have hl5 : t.edts.length < 2 ^ 32 := by omega
  unfold Track.edts at hl5
  have hl5' := hl5
  rw [box_length _ _ (by rfl)] at hl5
  simp only [List.length_append] at hl5
  obtain ⟨cr, g1, g2, g3⟩ := movie_description t.description c ts ⟨k.id, m.timeScale, {}⟩ (movieDuration m) r.codecReader cs h.codec (by omega)
  have g4 := movie_stbl t.tables tb h.tables (by omega) ts k.id m.timeScale (movieDuration m) cr c cs g1 g2
  refine ⟨some cr, ?_⟩
  have P : ∀ (l : List Other) (depth : Nat) (s : State) (x : RTrack) (n : Nat) (cr : Option CodecReader) (c : Option Codec),
      NoneOf (pathBoxes ++ tableBoxes) l → (others l).length < 2 ^ 32 → s ≠ .readingCodec →
      Reads isoFields PMP4File.handle (others l) depth (movieAt s ts x n cr c cs) (movieAt s ts x n cr c cs) :=
    fun l depth s x n cr c h1 h2 h3 => movie_plain depth _ (movie_small h2) h1 h3
  have e5 : Reads isoFields PMP4File.handle t.edts 3 (movieAt .waitingElst ts ⟨k.id, 0, {}⟩ r.base.trackDuration r.codecReader none cs)
      (movieAt .waitingMdhd ts ⟨k.id, 0, {}⟩ r.base.trackDuration r.codecReader none cs) := by
    unfold Track.edts
    refine file_node _ _ 3 _ (movieAt .waitingElst ts ⟨k.id, 0, {}⟩ r.base.trackDuration r.codecReader none cs) _ .edts (by rfl) hl5' (fun _ => rfl)
      (by show State.waitingElst ≠ _; simp) (fun _ => rfl) rfl (by rfl) ?_
    refine tree_append (P _ _ _ _ _ _ _ h.edts.1 (by omega) (by simp)) (tree_append ?_ (P _ _ _ _ _ _ _ h.edts.2 (by omega) (by simp)))
    exact file_leaf _ _ 4 _ _ .elst (by rfl) (by omega) (by show State.waitingElst ≠ _; simp) rfl rfl (by rfl)
  have e4 : Reads isoFields PMP4File.handle t.stbl 5 (movieAt .waitingStsd ts ⟨k.id, m.timeScale, {}⟩ (movieDuration m) r.codecReader none cs)
      (movieAt .waitingSampleProps ts (movieTrack k m tb) (movieDuration m) (some cr) (some c) cs) := by
    unfold Track.stbl
    refine file_node _ _ 5 _ (movieAt .waitingStsd ts ⟨k.id, m.timeScale, {}⟩ (movieDuration m) r.codecReader none cs) _ .stbl (by rfl) hl4'
      (fun _ => rfl) (by show State.waitingStsd ≠ _; simp) (fun _ => rfl) rfl (by rfl) ?_
    exact tree_append (P _ _ _ _ _ _ _ h.stbl (by omega) (by simp)) (tree_append g3 g4)
  have e3 : Reads isoFields PMP4File.handle t.minf 4 (movieAt .waitingStsd ts ⟨k.id, m.timeScale, {}⟩ (movieDuration m) r.codecReader none cs)
      (movieAt .waitingSampleProps ts (movieTrack k m tb) (movieDuration m) (some cr) (some c) cs) := by
    unfold Track.minf
    refine file_node _ _ 4 _ (movieAt .waitingStsd ts ⟨k.id, m.timeScale, {}⟩ (movieDuration m) r.codecReader none cs) _ .minf (by rfl) hl3'
      (fun _ => rfl) (by show State.waitingStsd ≠ _; simp) (fun _ => rfl) rfl (by rfl) ?_
    exact tree_append (P _ _ _ _ _ _ _ h.minf.1 (by omega) (by simp)) (tree_append e4 (P _ _ _ _ _ _ _ h.minf.2 (by omega) (by simp)))
  have e2 : Reads isoFields PMP4File.handle t.mdia 3 (movieAt .waitingMdhd ts ⟨k.id, 0, {}⟩ r.base.trackDuration r.codecReader none cs)
      (movieAt .waitingSampleProps ts (movieTrack k m tb) (movieDuration m) (some cr) (some c) cs) := by
    unfold Track.mdia
    refine file_node _ _ 3 _ (movieAt .waitingMdhd ts ⟨k.id, 0, {}⟩ r.base.trackDuration r.codecReader none cs) _ .mdia (by rfl) hl2' (fun _ => rfl)
      (by show State.waitingMdhd ≠ _; simp) (fun _ => rfl) rfl (by rfl) ?_
    refine tree_append (P _ _ _ _ _ _ _ h.mdia.1 (by omega) (by simp)) (tree_append (r' :=
      movieAt .waitingStsd ts ⟨k.id, m.timeScale, {}⟩ (movieDuration m) r.codecReader none cs) ?_
      (tree_append (P _ _ _ _ _ _ _ h.mdia.2.1 (by omega) (by simp)) (tree_append e3 (P _ _ _ _ _ _ _ h.mdia.2.2 (by omega) (by simp)))))
    refine file_leaf _ _ 4 _ _ (.mdhd m.timeScale (movieDuration m)) (by rfl) (by omega) (by show State.waitingMdhd ≠ _; simp)
      (by rw [movie_event_mdhd, movie_mdhd h.mdhd, Res.bind_ok]; rfl) rfl ?_
    unfold PMP4File.Reader.step readEvent
    dsimp only
    rw [if_neg (by show ¬ (State.waitingMdhd ≠ _); simp), if_neg (by omega)]
    rfl
  refine file_node _ _ 2 _ _ _ .trak (by rfl) hl1 (fun _ => rfl) hr.notCodec (fun _ => rfl) rfl (movie_trak hr) ?_
  refine tree_append (P _ _ _ _ _ _ _ h.trak.1 (by omega) (by simp)) (tree_append (r' :=
    movieAt .waitingElst ts ⟨k.id, 0, {}⟩ r.base.trackDuration r.codecReader none cs) ?_
    (tree_append (P _ _ _ _ _ _ _ h.trak.2.1 (by omega) (by simp)) (tree_append e5
      (tree_append (P _ _ _ _ _ _ _ h.trak.2.2.1 (by omega) (by simp)) (tree_append e2 (P _ _ _ _ _ _ _ h.trak.2.2.2 (by omega) (by simp)))))))
  exact file_leaf _ _ 3 _ _ (.tkhd k.id) (by rfl) (by omega) (by show State.waitingTkhd ≠ _; simp)
    (by rw [movie_event_tkhd, alien_tkhd h.tkhd, Res.bind_ok]) rfl (by rfl)

/-! ## Movies -/

/-- A track as the standard describes it, for a reader of samples. -/
structure MovieTrack where
  tkhd : Tkhd
  mdhd : Mdhd
  tables : Tables
  codec : Codec

/-- The boxes after the header of the movie, and the tracks among them. -/
inductive MovieItems : List Item → List MovieTrack → Prop
  | nil : MovieItems [] []
  | track {t x l xs} : MovieTrackMeans t x.tkhd x.mdhd x.tables x.codec → MovieItems l xs → MovieItems (.track t :: l) (x :: xs)
  | other {o l xs} : o.typ.length = 4 → o.typ ∉ pathBoxes ++ tableBoxes → MovieItems l xs → MovieItems (.other o :: l) xs

/-- The track as it is left by the reader. -/
def MovieTrack.left (x : MovieTrack) : RTrack := movieTrack x.tkhd x.mdhd x.tables

theorem movie_items {l : List Item} {xs : List MovieTrack} (h : MovieItems l xs) : ∀ (ts : List RTrack) (cs : List (Option Codec))
    (r : PMP4File.Reader), MovieBetween ts cs r → (items l).length < 2 ^ 32 → ∃ r', Reads isoFields PMP4File.handle (items l) 2 r r' ∧
      MovieBetween (ts ++ xs.map MovieTrack.left) (cs ++ xs.map fun x => some x.codec) r' := by
  induction h with
  | nil =>
    intro ts cs r hr _
    refine ⟨r, tree_nil _ _ _ _, ?_⟩
    rw [List.map_nil, List.map_nil, List.append_nil, List.append_nil]
    exact hr
  | @track t x l xs ht _ ih =>
    intro ts cs r hr hl
    rw [show items (.track t :: l) = t.bytes ++ items l from List.flatMap_cons] at hl ⊢
    rw [List.length_append] at hl
    obtain ⟨cr, g⟩ := movie_track t _ _ _ _ ts cs r ht hr (by omega)
    obtain ⟨r', k1, k2⟩ := ih (ts ++ [x.left]) (cs ++ [some x.codec])
      (movieAt .waitingSampleProps ts x.left (movieDuration x.mdhd) cr (some x.codec) cs) ⟨.inr rfl, rfl, rfl⟩ (by omega)
    refine ⟨r', tree_append g k1, ?_⟩
    rw [List.append_assoc, List.append_assoc] at k2
    exact k2
  | @other o l xs h1 h2 _ ih =>
    intro ts cs r hr hl
    rw [show items (.other o :: l) = o.bytes ++ items l from List.flatMap_cons] at hl ⊢
    rw [List.length_append] at hl
    obtain ⟨r', k1, k2⟩ := ih ts cs r hr (by omega)
    rw [List.mem_append, not_or] at h2
    exact ⟨r', tree_append (movie_leaf o 2 r r .other h1 (alien_fits (by omega)) hr.notCodec
      (movie_other _ _ h2.1 h2.2) rfl rfl) k1, k2⟩

/-! ## Files -/

/-- A file and its tracks. Boxes beside the movie may have headers of 16 bytes and be of 4 GiB or more. -/
structure MovieFileMeans (f : File) (xs : List MovieTrack) : Prop where
  top : NoneOf (pathBoxes ++ tableBoxes) f.top1 ∧ NoneOf (pathBoxes ++ tableBoxes) f.top2
  topSize : ∀ o ∈ f.top1 ++ f.top2, o.Fits
  ftypSize : (box (fourcc 'f' 't' 'y' 'p') f.ftyp).length < 2 ^ 32
  moovSize : f.moov.length < 2 ^ 32
  moov : NoneOf (pathBoxes ++ tableBoxes) f.moov1
  mvhd : IsMvhd f.mvhd
  items : MovieItems f.items xs

theorem movie_file (f : File) (xs : List MovieTrack) (h : MovieFileMeans f xs) :
    PMP4File.unmarshal isoFields f.bytes =
      if xs = [] then .err "no tracks found" else .ok (xs.map fun x => (x.left, some x.codec)) := by
  have hm := h.moovSize
  unfold File.moov at hm
  have hm' := hm
  rw [box_length _ _ (by rfl)] at hm'
  simp only [List.length_append] at hm'
  rw [box_length _ _ (by rfl)] at hm'
  have hb : MovieBetween [] [] (⟨⟨.waitingTrak, [], none, false, 0⟩, none, none, []⟩ : PMP4File.Reader) := ⟨.inl rfl, rfl, rfl⟩
  obtain ⟨r, k1, k2⟩ := movie_items h.items [] [] _ hb (by omega)
  rw [List.nil_append, List.nil_append] at k2
  have hv : isoFields (fourcc 'm' 'v' 'h' 'd') f.mvhd = some f.mvhd.length := by
    rcases h.mvhd with ⟨g1, g2⟩ | ⟨g1, g2⟩
    · show (if f.mvhd.head? = some 0 then some 100 else some 112) = _
      rw [if_pos g1, g2]
    · show (if f.mvhd.head? = some 0 then some 100 else some 112) = _
      rw [g1, if_neg (by decide), g2]
  have key := tree_file (tree_append (file_leaf (fourcc 'f' 't' 'y' 'p') f.ftyp 1 {} ⟨⟨.waitingMoov, [], none, false, 0⟩, none, none, []⟩ .ftyp (by rfl)
      h.ftypSize (by show State.waitingFtyp ≠ _; simp) rfl rfl (by rfl))
    (tree_append (movie_plain (l := f.top1) 1 ⟨⟨.waitingMoov, [], none, false, 0⟩, none, none, []⟩ (fun o ho => h.topSize o (by simp [ho])) h.top.1
        (by show State.waitingMoov ≠ _; simp))
      (tree_append (file_node (fourcc 'm' 'o' 'o' 'v') _ 1 _ ⟨⟨.waitingMvhd, [], none, false, 0⟩, none, none, []⟩ r .moov (by rfl) hm (fun _ => rfl)
          (by show State.waitingMoov ≠ _; simp) (fun _ => rfl) rfl (by rfl)
        (tree_append (movie_plain (l := f.moov1) 2 ⟨⟨.waitingMvhd, [], none, false, 0⟩, none, none, []⟩ (movie_small (by omega)) h.moov
            (by show State.waitingMvhd ≠ _; simp))
          (tree_append (x := box (fourcc 'm' 'v' 'h' 'd') f.mvhd) (r' := ⟨⟨.waitingTrak, [], none, false, 0⟩, none, none, []⟩) (by
            have := tree_node (fields := isoFields) (h := PMP4File.handle) (typ := fourcc 'm' 'v' 'h' 'd') (fs := f.mvhd) (body := []) (depth := 2)
              (r := ⟨⟨.waitingMvhd, [], none, false, 0⟩, none, none, []⟩) (r1 := ⟨⟨.waitingTrak, [], none, false, 0⟩, none, none, []⟩)
              (r' := ⟨⟨.waitingTrak, [], none, false, 0⟩, none, none, []⟩) (by rfl) (by rw [List.append_nil]; omega) (by rw [List.append_nil]; exact hv)
              (fun bi expand e => by
                show PMP4File.Reader.readBox _ bi.typ _ expand = _
                rw [e]; rfl) (tree_nil _ _ _ _)
            rwa [List.append_nil] at this) k1)))
        (movie_plain (l := f.top2) 1 r (fun o ho => h.topSize o (by simp [ho])) h.top.2 k2.notCodec))))
  unfold PMP4File.unmarshal
  have e0 : f.bytes = box (fourcc 'f' 't' 'y' 'p') f.ftyp ++ (others f.top1 ++ (box (fourcc 'm' 'o' 'o' 'v') (others f.moov1 ++
      (box (fourcc 'm' 'v' 'h' 'd') f.mvhd ++ items f.items)) ++ others f.top2)) := rfl
  rw [e0, key, Res.bind_ok, if_neg (fun x => k2.state.elim x.1 x.2), k2.tracks, k2.codecs]
  by_cases hx : xs = []
  · rw [if_pos hx, if_pos (by simp [hx])]
  · rw [if_neg hx, if_neg (by simpa using hx), List.zip_map']

/-- A sample as the reader returns it. -/
def movieSeen (s : Sample) : RSample :=
  { duration := s.duration, ptsOffset := s.compositionOffset, isNonSync := !s.sync, payloadSize := s.size, location := some (s.offset, s.size) }

/-- **C93.** The tracks of a file, their codecs and their samples are those that the boxes of the standard say, whatever other boxes are between
them. -/
theorem C93_file_partial (f : File) (xs : List MovieTrack) (h : MovieFileMeans f xs) (hx : xs ≠ []) :
    ∃ l, PMP4File.unmarshal isoFields f.bytes = .ok l ∧
      l.map (fun x => (x.1.id, x.1.timeScale, x.2, x.1.reader.samples)) =
        xs.map fun x => (x.tkhd.id, x.mdhd.timeScale, some x.codec, x.tables.samples.map movieSeen) := by
  refine ⟨_, by rw [movie_file f xs h, if_neg hx], ?_⟩
  rw [List.map_map]
  refine List.map_congr_left fun x _ => ?_
  show (_, _, _, movieSamples x.tables true true true) = _
  unfold movieSamples Tables.samples
  rw [List.map_map]
  rfl

/-- Files without tracks are refused. -/
theorem C93_empty (f : File) (h : MovieFileMeans f []) : PMP4File.unmarshal isoFields f.bytes = .err "no tracks found" := by
  rw [movie_file f [] h, if_pos rfl]

/-- The time offsets: the duration in the header of the media, when it is of 32 bits, minus that of the samples. -/
theorem C93_offsets (f : File) (xs : List MovieTrack) (h : MovieFileMeans f xs) (hx : xs ≠ []) :
    ∃ l, PMP4File.unmarshal isoFields f.bytes = .ok l ∧
      l.map (fun x => x.1.reader.timeOffset) =
        xs.map fun x => wrapInt32 ((if x.mdhd.version = 0 then x.mdhd.duration else 0 : Nat) - ((expand x.tables.stts).sum : Nat)) := by
  refine ⟨_, by rw [movie_file f xs h, if_neg hx], ?_⟩
  rw [List.map_map]
  rfl

/-- The payload of a sample is the part of the file that the tables say, if the file has it. -/
theorem C93_payload (file : Bytes) (s : Sample) :
    getPayload file (movieSeen s) =
      if s.offset + s.size ≤ file.length ∨ s.size = 0 then .ok ((file.drop s.offset).take s.size) else .err "EOF" := by
  unfold getPayload movieSeen
  dsimp only
  by_cases h : s.offset + s.size ≤ file.length ∨ s.size = 0
  · rw [if_pos h, if_pos (by rw [List.length_take, List.length_drop]; omega)]
  · rw [if_neg h, if_neg (by rw [List.length_take, List.length_drop]; omega)]

/-- **C93.** Samples are presented when the reader says, if the track has one edit that presents all of the media, at normal rate, and the
header of the media tells the duration of the samples. Presentation times are in units of `1 / (movie * media)` seconds. -/
theorem C93_presented_partial (f : File) (xs : List MovieTrack) (h : MovieFileMeans f xs) (hx : xs ≠ [])
    (hv : ∀ x ∈ xs, x.mdhd.version = 0 ∧ x.mdhd.duration = (expand x.tables.stts).sum) :
    ∃ l, PMP4File.unmarshal isoFields f.bytes = .ok l ∧ ∀ x ∈ l, ∀ (movie duration : Nat) (c : Int),
      0 ≤ c → c * movie < duration * x.1.timeScale →
      Spec.ISO.presented movie x.1.timeScale [⟨duration, 0, 65536⟩] 0 c = some ((x.1.reader.timeOffset + c) * movie) := by
  refine ⟨_, by rw [movie_file f xs h, if_neg hx], fun y hy movie duration c h1 h2 => ?_⟩
  obtain ⟨x, hx, rfl⟩ := List.mem_map.1 hy
  obtain ⟨g1, g2⟩ := hv x hx
  have e : x.left.reader.timeOffset = 0 := by
    show wrapInt32 ((movieDuration x.mdhd : Nat) - ((expand x.tables.stts).sum : Nat)) = 0
    unfold movieDuration
    rw [if_pos g1, g2, Int.sub_self]
    rfl
  rw [e]
  unfold Spec.ISO.presented
  dsimp only at h2 ⊢
  rw [if_pos ⟨by decide, rfl, h1, by rw [Int.sub_zero]; exact h2⟩, Int.sub_zero]
  simp

end Verif.Props
