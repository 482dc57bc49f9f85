import Verif.Props.FMP4PartsISO
import Verif.Props.PMP4FileMovie

/-!
# C90: what fragmented MP4 files mean

A file that consists of a segment of `Init.Marshal` and of parts is read by the reader of Spec/ISOFragments.lean, which was written from
ISO 14496-12.
-/

namespace Verif.Props
open FMP4 hiding marshalTrack marshalTracks
open FMP4Init MP4Codec MP4Box MP4Writer ISOLemmas
open Spec (beBytes)
open Spec.FMP4 (box moof mdat trackData)
open Spec.ISO (boxes only maybe named all ensure readMovie readTrack readMedia readMinf readTable readMaybe readOffsets readWords readTimes readChunks
  readSizes readMediaHeader readReferences listed readTrex readExtends readFragments readFragmented Movie Defaults Fragmented ChunkRun SampleTable
  readEdts)
open Spec.Records (field fourcc Fields)
open ByteR (beBytes_length)
open Readers (SBuf)

/-! ## What is written -/

/-- What is written for a track. -/
structure InitParts where
  codec : Codec
  info : CodecInfo
  typ : Bytes
  entry : Bytes
  ctyp : Bytes
  config : Bytes
  avg : Nat
  max : Nat

def InitParts.body (p : InitParts) : Bytes := p.entry ++ (box p.ctyp p.config ++ box typBtrt (encodeBtrt p.max p.avg))

/-- Codec, sample entry and bit rates of a track that is written. -/
structure InitWritten (it : InitTrack) (p : InitParts) : Prop where
  codec : it.codec = some p.codec
  filled : fill (some p.codec) = .ok p.info
  entries : sampleEntry p.info p.codec = .ok (p.typ, p.entry)
  config : configBox it.id p.info p.avg p.max p.codec = .ok (p.ctyp, p.config)
  avg : p.avg = if it.avgBitrate ≠ 0 then it.avgBitrate else if p.codec.isVideo then 1000000 else 128825
  max : p.max = if it.maxBitrate ≠ 0 then it.maxBitrate else if p.codec.isVideo then 1000000 else 128825

/-- The bytes of a track, without the header of the box. -/
def initTrakBody (it : InitTrack) (p : InitParts) : Bytes :=
  box typTkhd (tkhdPayload it.id p.codec p.info) ++ initMdia it.timeScale p.codec (box p.typ p.body)

theorem fiso_put_stsd (a : Bytes) (it : InitTrack) (c : Codec) (info : CodecInfo) (f : SBuf) (hc : it.codec = some c)
    (hf : fill (some c) = .ok info) (h : writeStsd (full a) it c info = .ok f) :
    ∃ p, InitWritten it p ∧ p.codec = c ∧ p.info = info ∧ f = full (a ++ box typStsd (encodeCount 1 ++ box p.typ p.body)) := by
  obtain ⟨typ, entry, ctyp, config, avg, max, ⟨info', h1, h2, h3⟩, ha, hm, e⟩ := C85_stsd_fmp4 a it c info f hf h
  rw [hf] at h1
  cases h1
  exact ⟨⟨c, info, typ, entry, ctyp, config, avg, max⟩, ⟨hc, hf, h2, h3, ha, hm⟩, rfl, rfl, e⟩

theorem fiso_put_stbl (a : Bytes) (it : InitTrack) (c : Codec) (info : CodecInfo) (f : SBuf) (hc : it.codec = some c)
    (hf : fill (some c) = .ok info) (h : writeStbl (full a) it c info = .ok f) :
    ∃ p, InitWritten it p ∧ p.codec = c ∧ p.info = info ∧ f = full (a ++ initStbl (box p.typ p.body)) := by
  unfold writeStbl at h
  have T := fun a f h => fiso_put_stsd a it c info f hc hf h
  generalize writeStsd = stsd at T h
  have W := put_writers
  generalize writeBoxStart = start at W h
  generalize writeBox = one at W h
  generalize writeBoxEnd = stop at W h
  obtain ⟨⟨_, _⟩, e, h⟩ := Res.bind_eq_ok.1 h
  cases W.start _ _ _ _ e
  clear e
  dsimp only at h
  obtain ⟨f2, h2, h⟩ := Res.bind_eq_ok.1 h
  obtain ⟨p, hw, hp1, hp2, rfl⟩ := T _ _ h2
  obtain ⟨⟨_, _⟩, e, h⟩ := Res.bind_eq_ok.1 h
  obtain rfl := W.one _ _ _ _ _ (by rfl) e
  clear e
  dsimp only at h
  obtain ⟨⟨_, _⟩, e, h⟩ := Res.bind_eq_ok.1 h
  obtain rfl := W.one _ _ _ _ _ (by rfl) e
  clear e
  dsimp only at h
  obtain ⟨⟨_, _⟩, e, h⟩ := Res.bind_eq_ok.1 h
  obtain rfl := W.one _ _ _ _ _ (by rfl) e
  clear e
  dsimp only at h
  obtain ⟨⟨_, _⟩, e, h⟩ := Res.bind_eq_ok.1 h
  obtain rfl := W.one _ _ _ _ _ (by rfl) e
  clear e
  dsimp only at h
  refine ⟨p, hw, hp1, hp2, ?_⟩
  unfold initStbl
  exact (W.stop _ _ _ _ _ (by rfl) (by simp only [List.append_nil, List.append_assoc]) h).1

/-- What is written for a track, for all codecs. -/
theorem fiso_put_track (a : Bytes) (it : InitTrack) (f : SBuf) (h : marshalTrack (full a) it = .ok f) :
    ∃ p, InitWritten it p ∧ f = full (a ++ box typTrak (initTrakBody it p)) := by
  unfold marshalTrack at h
  have D := put_dinf
  generalize writeDinf = dinf at D h
  have M : ∀ a c o f, writeMediaHeader (full a) c = .ok (o, f) → f = full (a ++ initMediaHeader c) := fun a c o f h => put_media a c _ h
  generalize writeMediaHeader = header at M h
  have T := fun a c info f hc hf h => fiso_put_stbl a it c info f hc hf h
  generalize writeStbl = stbl at T h
  have W := put_writers
  generalize writeBoxStart = start at W h
  generalize writeBox = one at W h
  generalize writeBoxEnd = stop at W h
  obtain ⟨⟨_, _⟩, e, h⟩ := Res.bind_eq_ok.1 h
  cases W.start _ _ _ _ e
  clear e
  dsimp only at h
  obtain ⟨info, hf, h⟩ := Res.bind_eq_ok.1 h
  obtain ⟨c, hc, h⟩ := Res.bind_eq_ok.1 h
  cases hcd : it.codec with
  | none => rw [hcd] at hc; cases hc
  | some c' =>
    rw [hcd] at hc hf
    cases hc
    obtain ⟨⟨_, _⟩, e, h⟩ := Res.bind_eq_ok.1 h
    obtain rfl := W.one _ _ _ _ _ (by rfl) e
    clear e
    dsimp only at h
    obtain ⟨⟨_, _⟩, e, h⟩ := Res.bind_eq_ok.1 h
    cases W.start _ _ _ _ e
    clear e
    dsimp only at h
    obtain ⟨⟨_, _⟩, e, h⟩ := Res.bind_eq_ok.1 h
    obtain rfl := W.one _ _ _ _ _ (by rfl) e
    clear e
    dsimp only at h
    obtain ⟨⟨_, _⟩, e, h⟩ := Res.bind_eq_ok.1 h
    obtain rfl := W.one _ _ _ _ _ (by rfl) e
    clear e
    dsimp only at h
    obtain ⟨⟨_, _⟩, e, h⟩ := Res.bind_eq_ok.1 h
    cases W.start _ _ _ _ e
    clear e
    dsimp only at h
    obtain ⟨⟨_, _⟩, e, h⟩ := Res.bind_eq_ok.1 h
    obtain rfl := M _ _ _ _ e
    clear e
    dsimp only at h
    obtain ⟨f8, h8, h⟩ := Res.bind_eq_ok.1 h
    obtain rfl := D _ _ h8
    obtain ⟨f9, h9, h⟩ := Res.bind_eq_ok.1 h
    obtain ⟨p, hw, rfl, rfl, rfl⟩ := T _ _ _ _ hcd hf h9
    obtain ⟨f10, h10, h⟩ := Res.bind_eq_ok.1 h
    obtain ⟨rfl, _⟩ := W.stop _ _ (initMediaHeader p.codec ++ (initDinf ++ initStbl (box p.typ p.body))) _ _ (by rfl)
      (by simp only [List.append_nil, List.append_assoc]) h10
    obtain ⟨f11, h11, h⟩ := Res.bind_eq_ok.1 h
    obtain ⟨rfl, _⟩ := W.stop _ _ (box typMdhd (encodeMdhd it.timeScale) ++ (box typHdlr (hdlrPayload p.codec) ++
      initMinf p.codec (box p.typ p.body))) _ _ (by rfl)
      (by unfold initMinf; simp only [List.append_nil, List.append_assoc]) h11
    obtain ⟨rfl, hl⟩ := W.stop _ _ (initTrakBody it p) _ _ (by rfl)
      (by unfold initTrakBody initMdia; simp only [List.append_nil, List.append_assoc]) h
    exact ⟨p, hw, rfl⟩

/-- Boxes one after the other. -/
def boxBytes (l : List (Bytes × Bytes)) : Bytes := l.flatMap fun x => box x.1 x.2

theorem fiso_boxBytes (l : List (Bytes × Bytes)) : boxBytes l = l.flatMap fun x => box x.1 x.2 := rfl

theorem fiso_put_tracks (l : List InitTrack) : ∀ (a : Bytes) (f : SBuf) (_ : marshalTracks l (full a) = .ok f),
    ∃ xs : List (InitTrack × InitParts), xs.map (·.1) = l ∧ (∀ x ∈ xs, InitWritten x.1 x.2) ∧
      f = full (a ++ boxBytes (xs.map fun x => (typTrak, initTrakBody x.1 x.2))) := by
  induction l with
  | nil => intro a f h; cases h; exact ⟨[], rfl, (fun _ h => by cases h), by simp [boxBytes]⟩
  | cons t l ih =>
    intro a f h
    unfold marshalTracks at h
    have T := fiso_put_track
    generalize marshalTrack = track at T h
    obtain ⟨f1, h1, h⟩ := Res.bind_eq_ok.1 h
    obtain ⟨p, hp, rfl⟩ := T _ _ _ h1
    obtain ⟨xs, e1, e2, rfl⟩ := ih _ _ h
    refine ⟨(t, p) :: xs, by rw [List.map_cons, e1], fun x hx => ?_, ?_⟩
    · rcases List.mem_cons.1 hx with rfl | hx
      · exact hp
      · exact e2 x hx
    · unfold boxBytes
      rw [List.map_cons, List.flatMap_cons, List.append_assoc]

theorem fiso_put_trexs (l : List InitTrack) : ∀ (a : Bytes) (f : SBuf) (_ : writeTrexs l (full a) = .ok f),
    f = full (a ++ boxBytes (l.map fun it => (typTrex, encodeTrex (u32 it.id)))) := by
  induction l with
  | nil => intro a f h; cases h; simp [boxBytes]
  | cons t l ih =>
    intro a f h
    unfold writeTrexs at h
    have W := put_writers
    generalize writeBoxStart = start at W
    generalize writeBox = one at W h
    generalize writeBoxEnd = stop at W
    obtain ⟨⟨_, _⟩, e, h⟩ := Res.bind_eq_ok.1 h
    obtain rfl := W.one _ _ _ _ _ (by rfl) e
    clear e
    rw [ih _ _ h]
    unfold boxBytes
    rw [List.map_cons, List.flatMap_cons, List.append_assoc]

/-- The box of user data, if there is one. -/
def udtaBoxes (l : List (Bytes × Bytes)) : List (Bytes × Bytes) := if l.length ≠ 0 then [(typUdta, boxBytes l)] else []

theorem fiso_put_all (l : List (Bytes × Bytes)) : ∀ (a : Bytes) (f : SBuf) (_ : ∀ u ∈ l, u.1.length = 4) (_ : writeAll l (full a) = .ok f),
    f = full (a ++ boxBytes l) := by
  induction l with
  | nil => intro a f _ h; cases h; simp [boxBytes]
  | cons t l ih =>
    intro a f hu h
    unfold writeAll at h
    have W := put_writers
    generalize writeBoxStart = start at W
    generalize writeBox = one at W h
    generalize writeBoxEnd = stop at W
    obtain ⟨⟨_, _⟩, e, h⟩ := Res.bind_eq_ok.1 h
    obtain rfl := W.one _ _ _ _ _ (hu t List.mem_cons_self) e
    clear e
    rw [ih _ _ (fun u h => hu u (List.mem_cons_of_mem _ h)) h]
    unfold boxBytes
    rw [List.flatMap_cons, List.append_assoc]

theorem fiso_put_user (l : List (Bytes × Bytes)) (a : Bytes) (f : SBuf) (hu : ∀ u ∈ l, u.1.length = 4)
    (h : writeUserData l (full a) = .ok f) : f = full (a ++ boxBytes (udtaBoxes l)) := by
  unfold writeUserData at h
  unfold udtaBoxes
  by_cases hl : l.length ≠ 0
  · rw [if_pos hl] at h ⊢
    have W := put_writers
    have A := fiso_put_all l
    generalize writeBoxStart = start at W h
    generalize writeBox = one at W
    generalize writeBoxEnd = stop at W h
    generalize writeAll = all at A h
    obtain ⟨⟨_, _⟩, e, h⟩ := Res.bind_eq_ok.1 h
    cases W.start _ _ _ _ e
    clear e
    obtain ⟨f2, h2, h⟩ := Res.bind_eq_ok.1 h
    obtain rfl := A _ _ hu h2
    obtain ⟨rfl, _⟩ := W.stop _ typUdta (boxBytes l) _ _ (by rfl) (by simp only [List.append_nil, List.append_assoc]) h
    rw [show boxBytes [(typUdta, boxBytes l)] = box typUdta (boxBytes l) ++ [] from rfl, List.append_nil]
  · rw [if_neg hl] at h ⊢
    cases h
    simp [boxBytes]

/-- The boxes of `moov`. -/
def moovBoxes (xs : List (InitTrack × InitParts)) (ud : List (Bytes × Bytes)) : List (Bytes × Bytes) :=
  (typMvhd, encodeMvhd) :: (xs.map fun x => (typTrak, initTrakBody x.1 x.2)) ++
    ((typMvex, boxBytes (xs.map fun x => (typTrex, encodeTrex (u32 x.1.id)))) :: udtaBoxes ud)

/-- What is written for a segment. -/
theorem fiso_put_init (i : Init) (f : SBuf) (hu : ∀ u ∈ i.userData, u.1.length = 4) (h : FMP4Init.marshal ⟨[], 0⟩ i = .ok f) :
    ∃ xs : List (InitTrack × InitParts), xs.map (·.1) = i.tracks ∧ (∀ x ∈ xs, InitWritten x.1 x.2) ∧
      f.buf = boxBytes [(typFtyp, encodeFtyp), (typMoov, boxBytes (moovBoxes xs i.userData))] ∧ 8 + (boxBytes (moovBoxes xs i.userData)).length < 2 ^ 32 := by
  unfold FMP4Init.marshal at h
  have h0 : (⟨[], 0⟩ : SBuf) = full [] := rfl
  rw [h0] at h
  have W := put_writers
  have T := fiso_put_tracks i.tracks
  have X := fiso_put_trexs i.tracks
  have U := fiso_put_user i.userData
  generalize writeBoxStart = start at W h
  generalize writeBox = one at W h
  generalize writeBoxEnd = stop at W h
  generalize marshalTracks = tracks at T h
  generalize writeTrexs = trexs at X h
  generalize writeUserData = user at U h
  obtain ⟨⟨_, _⟩, e, h⟩ := Res.bind_eq_ok.1 h
  obtain rfl := W.one _ _ _ _ _ (by rfl) e
  clear e
  dsimp only at h
  obtain ⟨⟨_, _⟩, e, h⟩ := Res.bind_eq_ok.1 h
  cases W.start _ _ _ _ e
  clear e
  dsimp only at h
  obtain ⟨⟨_, _⟩, e, h⟩ := Res.bind_eq_ok.1 h
  obtain rfl := W.one _ _ _ _ _ (by rfl) e
  clear e
  dsimp only at h
  obtain ⟨f1, h1, h⟩ := Res.bind_eq_ok.1 h
  obtain ⟨xs, hx1, hx2, rfl⟩ := T _ _ h1
  obtain ⟨⟨_, _⟩, e, h⟩ := Res.bind_eq_ok.1 h
  cases W.start _ _ _ _ e
  clear e
  dsimp only at h
  obtain ⟨f2, h2, h⟩ := Res.bind_eq_ok.1 h
  obtain rfl := X _ _ h2
  obtain ⟨f3, h3, h⟩ := Res.bind_eq_ok.1 h
  obtain ⟨rfl, _⟩ := W.stop _ typMvex (boxBytes (i.tracks.map fun it => (typTrex, encodeTrex (u32 it.id)))) _ _ (by rfl)
    (by simp only [List.append_nil, List.append_assoc]) h3
  obtain ⟨f4, h4, h⟩ := Res.bind_eq_ok.1 h
  obtain rfl := U _ _ hu h4
  have hmap : (xs.map fun x => (typTrex, encodeTrex (u32 x.1.id))) = i.tracks.map fun it => (typTrex, encodeTrex (u32 it.id)) := by
    rw [← hx1, List.map_map]; rfl
  obtain ⟨rfl, hl⟩ := W.stop _ typMoov (boxBytes (moovBoxes xs i.userData)) _ _ (by rfl)
    (by
      unfold moovBoxes
      rw [hmap]
      unfold boxBytes
      simp only [List.flatMap_cons, List.flatMap_append, List.cons_append, List.append_nil, List.append_assoc]) h
  rw [box_len _ _ rfl] at hl
  refine ⟨xs, hx1, hx2, ?_, hl⟩
  show [] ++ box typFtyp encodeFtyp ++ box typMoov (boxBytes (moovBoxes xs i.userData)) = boxBytes [(typFtyp, encodeFtyp), (typMoov, _)]
  generalize boxBytes (moovBoxes xs i.userData) = m
  unfold boxBytes
  simp only [List.flatMap_cons, List.flatMap_nil, List.append_nil, List.nil_append]

/-! ## What a track means -/

theorem fiso_count_stts : encodeCount 0 = PMP4File.encodeStts [] := by decide +kernel
theorem fiso_count_stsc : encodeCount 0 = PMP4File.encodeStsc [] := by decide +kernel
theorem fiso_count_stco : encodeCount 0 = PMP4File.encodeTable 0 (([] : List Nat).map fun n => [(32, n)]) := by decide +kernel
theorem fiso_stsz : encodeStsz = PMP4File.encodeStsz [] := by decide +kernel
theorem fiso_mdhd_eq (ts : Nat) : encodeMdhd ts = PMP4File.encodeMdhd ts 0 := rfl
theorem fiso_tkhd_eq (id g v w h : Nat) : encodeTkhd id g v w h = PMP4File.encodeTkhd id 0 g v w h := rfl
theorem fiso_mvhd_eq : encodeMvhd = PMP4File.encodeMvhd 0 4294967295 := rfl

/-- The meaning of a track of a segment: there are no samples and no edits. -/
def initMeaning (it : InitTrack) (p : InitParts) : Spec.ISO.Track :=
  { flags := 3, id := u32 it.id, duration := 0, group := if p.codec.isVideo then 0 else 1,
    volume := if p.codec.isVideo then 0 else 256, matrix := isoUnity,
    width := if p.codec.isVideo then u32 (p.info.width * 65536) else 0,
    height := if p.codec.isVideo then u32 (p.info.height * 65536) else 0,
    edits := none, timeScale := it.timeScale, mediaDuration := 0,
    language := isoUndetermined, name := if p.codec.isVideo then videoHandler ++ [0] else soundHandler ++ [0],
    handler := if p.codec.isVideo then fourcc 'v' 'i' 'd' 'e' else fourcc 's' 'o' 'u' 'n',
    mediaHeader := if p.codec.isVideo then fourcc 'v' 'm' 'h' 'd' else fourcc 's' 'm' 'h' 'd',
    descriptions := [(p.typ, p.body)], stts := [], ctts := none, stss := none, stsc := [], sizes := [], stco := [] }

/-- The payload of `stbl`. -/
def initStblBody (e : Bytes) : Bytes :=
  boxBytes [(typStsd, encodeCount 1 ++ e), (typStts, encodeCount 0), (typStsc, encodeCount 0), (typStsz, encodeStsz), (typStco, encodeCount 0)]

theorem fiso_stbl_bytes (e : Bytes) : initStbl e = box typStbl (initStblBody e) := by
  unfold initStbl initStblBody boxBytes
  simp only [List.flatMap_cons, List.flatMap_nil, List.append_nil]

theorem fiso_table (it : InitTrack) (p : InitParts) (hw : InitWritten it p) (hl : (initStblBody (box p.typ p.body)).length < 2 ^ 32) :
    readTable 1 (initStblBody (box p.typ p.body)) = some (initMeaning it p).toSampleTable := by
  obtain ⟨b4, f4⟩ := iso_boxes _ (initStblBody (box p.typ p.body)) rfl
    (by simp only [List.forall_mem_cons]; exact ⟨rfl, rfl, rfl, rfl, rfl, fun _ h => by cases h⟩) hl
  have l5 := iso_len (f4 _ List.mem_cons_self)
  dsimp only at l5
  have hentry : listed (encodeCount 1 ++ box p.typ p.body) = some [(p.typ, p.body)] := by
    refine iso_listed _ _ (fits_of _ _ ?_ (record_typ4 _ _ _ _ hw.entries))
    rw [List.length_append] at l5
    omega
  have hdesc : field p.body 48 16 = 1 := iso_description p.codec p.info p.typ p.entry _ hw.entries
  have hs1 : readTimes (encodeCount 0) = some [] := by
    rw [fiso_count_stts, iso_stts [] (by decide) (fun _ h => by cases h)]; rfl
  have hs2 : readChunks (encodeCount 0) = some [] := by
    rw [fiso_count_stsc, iso_stsc [] (by decide) (fun _ h => by cases h)]; rfl
  have hs3 : readSizes encodeStsz = some [] := by
    rw [fiso_stsz, iso_stsz [] (by decide) (fun _ h => by cases h)]
  have hs4 : readWords (encodeCount 0) = some [] := by
    rw [fiso_count_stco, iso_words [] (by decide) (fun _ h => by cases h)]
  have hrefs : ∀ x ∈ [(p.typ, p.body)], 1 ≤ field x.2 48 16 ∧ field x.2 48 16 ≤ 1 := by
    intro x hx
    rw [List.mem_singleton.1 hx]
    dsimp only
    rw [hdesc]
    exact ⟨Nat.le_refl _, Nat.le_refl _⟩
  have hidx : ∀ x ∈ ([] : List ChunkRun), 1 ≤ x.description ∧ x.description ≤ [(p.typ, p.body)].length := fun _ h => by cases h
  unfold initMeaning
  dsimp only
  unfold readTable
  generalize initStblBody (box p.typ p.body) = b at *
  generalize [(p.typ, p.body)] = ds at *
  generalize encodeCount 1 ++ box p.typ p.body = a1 at *
  generalize encodeCount 0 = a2 at *
  generalize encodeStsz = a3 at *
  have n1 : only (fourcc 's' 't' 's' 'd') [(typStsd, a1), (typStts, a2), (typStsc, a2), (typStsz, a3), (typStco, a2)] = some a1 := rfl
  have n2 : only (fourcc 's' 't' 't' 's') [(typStsd, a1), (typStts, a2), (typStsc, a2), (typStsz, a3), (typStco, a2)] = some a2 := rfl
  have n3 : maybe (fourcc 'c' 't' 't' 's') [(typStsd, a1), (typStts, a2), (typStsc, a2), (typStsz, a3), (typStco, a2)] = some none := rfl
  have n4 : maybe (fourcc 's' 't' 's' 's') [(typStsd, a1), (typStts, a2), (typStsc, a2), (typStsz, a3), (typStco, a2)] = some none := rfl
  have n5 : only (fourcc 's' 't' 's' 'c') [(typStsd, a1), (typStts, a2), (typStsc, a2), (typStsz, a3), (typStco, a2)] = some a2 := rfl
  have n6 : only (fourcc 's' 't' 's' 'z') [(typStsd, a1), (typStts, a2), (typStsc, a2), (typStsz, a3), (typStco, a2)] = some a3 := rfl
  have n7 : only (fourcc 's' 't' 'c' 'o') [(typStsd, a1), (typStts, a2), (typStsc, a2), (typStsz, a3), (typStco, a2)] = some a2 := rfl
  have m1 : readMaybe readOffsets none = some none := rfl
  have m2 : readMaybe readWords none = some none := rfl
  rw [b4, some_bind, n1, some_bind, hentry, some_bind, ensure_bind _ hrefs, n2, some_bind, hs1, some_bind, n3, some_bind, m1, some_bind, n4,
    some_bind, m2, some_bind, n5, some_bind, hs2, some_bind, ensure_bind _ hidx, n6, some_bind, hs3, some_bind, n7, some_bind, hs4, some_bind]

theorem fiso_minf (it : InitTrack) (p : InitParts) (hw : InitWritten it p)
    (hl : (initMediaHeader p.codec ++ (initDinf ++ initStbl (box p.typ p.body))).length < 2 ^ 32) :
    readMinf (initMediaHeader p.codec ++ (initDinf ++ initStbl (box p.typ p.body))) =
      some ((initMeaning it p).mediaHeader, (initMeaning it p).toSampleTable) := by
  obtain ⟨mt, mb, hm1, hm2, hm3, hm4⟩ : ∃ mt mb, initMediaHeader p.codec = box mt mb ∧ mt.length = 4 ∧
      (∀ a b, readMediaHeader [(mt, mb), (typDinf, a), (typStbl, b)] = some (initMeaning it p).mediaHeader) ∧
      ∀ a b, only (fourcc 'd' 'i' 'n' 'f') [(mt, mb), (typDinf, a), (typStbl, b)] = some a ∧
        only (fourcc 's' 't' 'b' 'l') [(mt, mb), (typDinf, a), (typStbl, b)] = some b := by
    unfold initMediaHeader initMeaning
    dsimp only
    split
    · exact ⟨typVmhd, encodeVmhd, rfl, rfl, iso_vmhd, fun _ _ => ⟨rfl, rfl⟩⟩
    · exact ⟨typSmhd, encodeSmhd, rfl, rfl, iso_smhd, fun _ _ => ⟨rfl, rfl⟩⟩
  rw [fiso_stbl_bytes] at hl ⊢
  obtain ⟨b3, f3⟩ := iso_boxes [(mt, mb), (typDinf, box typDref (encodeCount 1 ++ box typUrl encodeUrl)),
    (typStbl, initStblBody (box p.typ p.body))] _
      (by unfold initDinf; rw [hm1]; simp only [List.flatMap_cons, List.flatMap_nil, List.append_nil])
      (by simp only [List.forall_mem_cons]; exact ⟨hm2, rfl, rfl, fun _ h => by cases h⟩) hl
  have l4 := iso_len (f3 _ (List.mem_cons_of_mem _ (List.mem_cons_of_mem _ List.mem_cons_self)))
  have ld := iso_len (f3 _ (List.mem_cons_of_mem _ List.mem_cons_self))
  dsimp only at l4 ld
  obtain ⟨bd, _⟩ := iso_boxes [(typDref, encodeCount 1 ++ box typUrl encodeUrl)] _
      (by simp only [List.flatMap_cons, List.flatMap_nil, List.append_nil])
      (by simp only [List.forall_mem_cons]; exact ⟨rfl, fun _ h => by cases h⟩) ld
  have ht := fiso_table it p hw l4
  have o7 : ∀ a, only (fourcc 'd' 'r' 'e' 'f') [(typDref, a)] = some a := fun _ => rfl
  have hr := iso_dinf
  generalize initMeaning it p = tr at *
  generalize initMediaHeader p.codec ++ (initDinf ++ box typStbl (initStblBody (box p.typ p.body))) = b at *
  generalize initStblBody (box p.typ p.body) = c at *
  generalize box typDref (encodeCount 1 ++ box typUrl encodeUrl) = d at *
  generalize encodeCount 1 ++ box typUrl encodeUrl = e at *
  unfold readMinf
  rw [b3, some_bind, hm3, some_bind, (hm4 _ _).1, some_bind, bd, some_bind, o7, some_bind, hr, some_bind, (hm4 _ _).2, some_bind, ht, some_bind]

theorem fiso_media (it : InitTrack) (p : InitParts) (hw : InitWritten it p) (hts : it.timeScale < 2 ^ 32) (b : Bytes)
    (hb : b = box typMdhd (encodeMdhd it.timeScale) ++ (box typHdlr (hdlrPayload p.codec) ++ initMinf p.codec (box p.typ p.body)))
    (hl : b.length < 2 ^ 32) : readMedia b = some (initMeaning it p).toMedia := by
  obtain ⟨b2, f2⟩ := iso_boxes [(typMdhd, encodeMdhd it.timeScale), (typHdlr, hdlrPayload p.codec),
    (typMinf, initMediaHeader p.codec ++ (initDinf ++ initStbl (box p.typ p.body)))] b
      (by rw [hb]; unfold initMinf; simp only [List.flatMap_cons, List.flatMap_nil, List.append_nil])
      (by simp only [List.forall_mem_cons]; exact ⟨rfl, rfl, rfl, fun _ h => by cases h⟩) hl
  have l3 := iso_len (f2 _ (List.mem_cons_of_mem _ (List.mem_cons_of_mem _ List.mem_cons_self)))
  have hm := iso_mdhd it.timeScale 0 hts (by decide) _ (fiso_mdhd_eq it.timeScale)
  have hh : ((hdlrPayload p.codec).drop 8).take 4 = (initMeaning it p).handler := iso_hdlr p.codec
  have hn : (hdlrPayload p.codec).drop 24 = (initMeaning it p).name := (iso_hdlr_form p.codec).2
  have hy := (iso_hdlr_form p.codec).1
  have e3 : isoUndetermined = (initMeaning it p).language := rfl
  have ht := fiso_minf it p hw l3
  have o4 : ∀ a b c, only (fourcc 'm' 'd' 'h' 'd') [(typMdhd, a), (typHdlr, b), (typMinf, c)] = some a := fun _ _ _ => rfl
  have o5 : ∀ a b c, only (fourcc 'h' 'd' 'l' 'r') [(typMdhd, a), (typHdlr, b), (typMinf, c)] = some b := fun _ _ _ => rfl
  have o6 : ∀ a b c, only (fourcc 'm' 'i' 'n' 'f') [(typMdhd, a), (typHdlr, b), (typMinf, c)] = some c := fun _ _ _ => rfl
  have e1 : it.timeScale = (initMeaning it p).timeScale := rfl
  have e2 : 0 = (initMeaning it p).mediaDuration := rfl
  clear hb hl l3 f2
  generalize initMeaning it p = tr at *
  generalize encodeMdhd it.timeScale = x at *
  generalize hdlrPayload p.codec = y at *
  generalize initMediaHeader p.codec ++ (initDinf ++ initStbl (box p.typ p.body)) = z at *
  unfold readMedia
  rw [b2, some_bind, o4, some_bind, ensure_bind _ ⟨hm.2.1, hm.1⟩, o5, some_bind, ensure_bind _ hy, o6, some_bind, ht, some_bind]
  dsimp only
  rw [hh, hn, hm.2.2.1, hm.2.2.2.1, hm.2.2.2.2, e1, e2, e3]

theorem fiso_tkhd_payload (it : InitTrack) (p : InitParts) (b : Bytes) (hb : b = tkhdPayload it.id p.codec p.info) :
    b.length = 84 ∧ field b 0 8 = 0 ∧ field b 8 24 = 3 ∧ field b 96 32 = u32 it.id ∧ field b 160 32 = 0 ∧
      field b 288 16 = (initMeaning it p).volume ∧ field b 608 32 = (initMeaning it p).width ∧
      field b 640 32 = (initMeaning it p).height ∧ field b 272 16 = (initMeaning it p).group ∧
      Spec.ISO.matrix b 320 = (initMeaning it p).matrix := by
  unfold tkhdPayload at hb
  unfold initMeaning
  dsimp only
  split at hb
  · rename_i hv
    rw [if_pos hv, if_pos hv, if_pos hv, if_pos hv]
    exact iso_tkhd _ _ _ _ _ _ (iso_u32 _) (by decide) (by decide) (by decide) (iso_u32 _) (iso_u32 _) b hb
  · rename_i hv
    rw [if_neg hv, if_neg hv, if_neg hv, if_neg hv]
    exact iso_tkhd _ _ _ _ _ _ (iso_u32 _) (by decide) (by decide) (by decide) (by decide) (by decide) b hb

/-- A track of a segment means what is given. -/
theorem fiso_trak (it : InitTrack) (p : InitParts) (hw : InitWritten it p) (hts : it.timeScale < 2 ^ 32)
    (hl : (initTrakBody it p).length < 2 ^ 32) : readTrack (initTrakBody it p) = some (initMeaning it p) := by
  unfold initTrakBody at *
  obtain ⟨b1, f1⟩ := iso_boxes [(typTkhd, tkhdPayload it.id p.codec p.info),
    (typMdia, box typMdhd (encodeMdhd it.timeScale) ++ (box typHdlr (hdlrPayload p.codec) ++ initMinf p.codec (box p.typ p.body)))] _
      (by unfold initMdia; simp only [List.flatMap_cons, List.flatMap_nil, List.append_nil])
      (by simp only [List.forall_mem_cons]; exact ⟨rfl, rfl, fun _ h => by cases h⟩) hl
  have l2 := iso_len (f1 _ (List.mem_cons_of_mem _ List.mem_cons_self))
  dsimp only at l2
  have ht := fiso_tkhd_payload it p _ rfl
  have hm := fiso_media it p hw hts _ rfl l2
  have o1 : ∀ a c, only (fourcc 't' 'k' 'h' 'd') [(typTkhd, a), (typMdia, c)] = some a := fun _ _ => rfl
  have o2 : ∀ a c, maybe (fourcc 'e' 'd' 't' 's') [(typTkhd, a), (typMdia, c)] = some none := fun _ _ => rfl
  have o3 : ∀ a c, only (fourcc 'm' 'd' 'i' 'a') [(typTkhd, a), (typMdia, c)] = some c := fun _ _ => rfl
  have hedits : readMaybe readEdts none = some (initMeaning it p).edits := rfl
  have e1 : 3 = (initMeaning it p).flags := rfl
  have e2 : u32 it.id = (initMeaning it p).id := rfl
  have e3 : 0 = (initMeaning it p).duration := rfl
  clear hl f1 l2
  generalize initMeaning it p = tr at *
  generalize box typTkhd (tkhdPayload it.id p.codec p.info) ++ initMdia it.timeScale p.codec (box p.typ p.body) = w at *
  generalize tkhdPayload it.id p.codec p.info = x at *
  generalize box typMdhd (encodeMdhd it.timeScale) ++ (box typHdlr (hdlrPayload p.codec) ++ initMinf p.codec (box p.typ p.body)) = z at *
  unfold readTrack
  rw [b1, some_bind, o1, some_bind, ensure_bind _ ⟨ht.2.1, ht.1⟩, o2, some_bind, hedits, some_bind, o3, some_bind, hm, some_bind, ht.2.2.1,
    ht.2.2.2.1, ht.2.2.2.2.1, ht.2.2.2.2.2.1, ht.2.2.2.2.2.2.1, ht.2.2.2.2.2.2.2.1, ht.2.2.2.2.2.2.2.2.1,
    ht.2.2.2.2.2.2.2.2.2, e1, e2, e3]

/-! ## Files -/

theorem fiso_filter_neg {α : Type} (typ other : Bytes) (f : α → Bytes) (l : List α) (h : (other == typ) = false) :
    (l.map fun x => (other, f x)).filter (fun x => x.1 == typ) = [] := by
  induction l with
  | nil => rfl
  | cons x l ih => rw [List.map_cons, List.filter_cons_of_neg (by dsimp only; rw [h]; exact Bool.false_ne_true), ih]

theorem fiso_filter_pos {α : Type} (typ : Bytes) (f : α → Bytes) (l : List α) :
    (l.map fun x => (typ, f x)).filter (fun x => x.1 == typ) = l.map fun x => (typ, f x) := by
  induction l with
  | nil => rfl
  | cons x l ih => rw [List.map_cons, List.filter_cons_of_pos (by exact beq_self_eq_true typ), ih]

theorem fiso_filter_udta (typ : Bytes) (l : List (Bytes × Bytes)) (h : (typUdta == typ) = false) :
    (udtaBoxes l).filter (fun x => x.1 == typ) = [] := by
  unfold udtaBoxes
  split
  · rw [List.filter_cons_of_neg (by dsimp only; rw [h]; exact Bool.false_ne_true)]; rfl
  · rfl

theorem fiso_udta_4 (l : List (Bytes × Bytes)) : ∀ x ∈ udtaBoxes l, x.1.length = 4 := by
  unfold udtaBoxes
  split
  · intro x hx; rw [List.mem_singleton.1 hx]; rfl
  · intro x hx; cases hx

theorem fiso_moov_named {α : Type} (mvhd mvex : Bytes) (f : α → Bytes) (l : List α) (ud : List (Bytes × Bytes)) :
    only (fourcc 'm' 'v' 'h' 'd') ((typMvhd, mvhd) :: (l.map fun x => (typTrak, f x)) ++ ((typMvex, mvex) :: udtaBoxes ud)) = some mvhd ∧
    only (fourcc 'm' 'v' 'e' 'x') ((typMvhd, mvhd) :: (l.map fun x => (typTrak, f x)) ++ ((typMvex, mvex) :: udtaBoxes ud)) = some mvex ∧
    named (fourcc 't' 'r' 'a' 'k') ((typMvhd, mvhd) :: (l.map fun x => (typTrak, f x)) ++ ((typMvex, mvex) :: udtaBoxes ud)) = l.map f := by
  have e1 : fourcc 'm' 'v' 'h' 'd' = typMvhd := by decide
  have e2 : fourcc 'm' 'v' 'e' 'x' = typMvex := by decide
  have e3 : fourcc 't' 'r' 'a' 'k' = typTrak := by decide
  unfold only named
  rw [e1, e2, e3]
  refine ⟨?_, ?_, ?_⟩
  · rw [List.cons_append, List.filter_cons_of_pos (by exact beq_self_eq_true typMvhd), List.filter_append,
      fiso_filter_neg typMvhd typTrak f l (by decide), List.filter_cons_of_neg (by dsimp only; decide), fiso_filter_udta _ _ (by decide)]
    rfl
  · rw [List.cons_append, List.filter_cons_of_neg (by dsimp only; decide), List.filter_append,
      fiso_filter_neg typMvex typTrak f l (by decide), List.filter_cons_of_pos (by exact beq_self_eq_true typMvex),
      fiso_filter_udta _ _ (by decide)]
    rfl
  · rw [List.cons_append, List.filter_cons_of_neg (by dsimp only; decide), List.filter_append,
      fiso_filter_pos typTrak f l, List.filter_cons_of_neg (by dsimp only; decide), fiso_filter_udta _ _ (by decide), List.append_nil, List.map_map]
    rfl

theorem fiso_trex (id : Nat) (hi : id < 2 ^ 32) : readTrex (encodeTrex id) = some ⟨id, 1, 0, 0, 0⟩ := by
  unfold readTrex encodeTrex
  rw [ensure_bind _ ⟨field_pack' _ 0 8 0 (by simp [widths]) (by rfl) (by decide), by rw [pack_length]; simp [widths]⟩,
    field_pack' _ 32 32 id (by simp [widths]) (by rfl) hi, field_pack' _ 64 32 1 (by simp [widths]) (by rfl) (by decide),
    field_pack' _ 96 32 0 (by simp [widths]) (by rfl) (by decide), field_pack' _ 128 32 0 (by simp [widths]) (by rfl) (by decide),
    field_pack' _ 160 32 0 (by simp [widths]) (by rfl) (by decide)]

/-- The boxes of a file. -/
def fragBoxes (m : Bytes) (l : List Part) : List (Bytes × Bytes) := (typFtyp, encodeFtyp) :: (typMoov, m) :: l.flatMap partBoxes

theorem fiso_frag_named (m : Bytes) (l : List Part) : only (fourcc 'm' 'o' 'o' 'v') (fragBoxes m l) = some m ∧
    (fragBoxes m l).head?.map (·.1) = some (fourcc 'f' 't' 'y' 'p') := by
  have e1 : fourcc 'm' 'o' 'o' 'v' = typMoov := by decide
  have e2 : fourcc 'f' 't' 'y' 'p' = typFtyp := by decide
  have hp : (l.flatMap partBoxes).filter (fun x => x.1 == typMoov) = [] := by
    induction l with
    | nil => rfl
    | cons p l ih =>
      rw [List.flatMap_cons, List.filter_append, ih, List.append_nil]
      unfold partBoxes
      rw [List.filter_cons_of_neg (by dsimp only; decide), List.filter_cons_of_neg (by dsimp only; decide)]
      rfl
  refine ⟨?_, by rw [e2]; rfl⟩
  unfold only named fragBoxes
  rw [e1, List.filter_cons_of_neg (by dsimp only; decide), List.filter_cons_of_pos (by exact beq_self_eq_true typMoov), hp]
  rfl

theorem fiso_frag_boxes (m : Bytes) (l : List Part) (hm : 8 + m.length < 2 ^ 32) (hp : ∀ p ∈ l, FitsPart32 p) :
    boxes (boxBytes (fragBoxes m l)) = some (fragBoxes m l) := by
  refine boxes_flat _ _ rfl fun x hx => ?_
  rcases List.mem_cons.1 hx with rfl | hx
  · exact ⟨rfl, by decide +kernel⟩
  rcases List.mem_cons.1 hx with rfl | hx
  · exact ⟨rfl, hm⟩
  obtain ⟨p, hpl, hx⟩ := List.mem_flatMap.1 hx
  obtain ⟨_, _, h3⟩ := hp p hpl
  have hl := fiso_moof_length p
  have hmdat : (mdat p).length = 8 + (p.tracks.flatMap trackData).length := by unfold mdat; rw [box_length _ _ rfl]
  have hsz : moofSize p = (moof p (p.tracks.map fun _ => 0)).length := rfl
  unfold partBoxes at hx
  rcases List.mem_cons.1 hx with rfl | hx
  · exact ⟨rfl, by dsimp only; omega⟩
  · rw [List.mem_singleton.1 hx]
    exact ⟨rfl, by dsimp only; omega⟩

theorem fiso_short_boxes (l : List (Bytes × Bytes)) (h4 : ∀ x ∈ l, x.1.length = 4) (h : (boxBytes l).length < 2 ^ 32) :
    boxes (boxBytes l) = some l := (iso_boxes l _ (fiso_boxBytes l) h4 h).1

/-- The movie of a segment. -/
def initMovie (xs : List (InitTrack × InitParts)) : Movie :=
  { timeScale := 1000, duration := 0, rate := 65536, volume := 256, matrix := isoUnity, nextTrackID := 4294967295,
    tracks := xs.map fun x => initMeaning x.1 x.2 }

/-- The reader, on a segment and parts. -/
theorem fiso_read_movie (xs : List (InitTrack × InitParts)) (ud : List (Bytes × Bytes)) (l : List Part) (hw : ∀ x ∈ xs, InitWritten x.1 x.2)
    (hts : ∀ x ∈ xs, x.1.timeScale < 2 ^ 32) (hp : ∀ p ∈ l, FitsPart32 p) (m : Bytes) (hm : m = boxBytes (moovBoxes xs ud))
    (hl : 8 + m.length < 2 ^ 32) :
    readMovie (boxBytes (fragBoxes m l)) = some (initMovie xs) ∧
      readExtends (boxBytes (fragBoxes m l)) = some (xs.map fun x => ⟨u32 x.1.id, 1, 0, 0, 0⟩) := by
  have b0 := fiso_frag_boxes m l hl hp
  obtain ⟨n0, n1⟩ := fiso_frag_named m l
  have h4 : ∀ x ∈ moovBoxes xs ud, x.1.length = 4 := by
    unfold moovBoxes
    intro x hx
    rcases List.mem_append.1 hx with hx | hx
    · rcases List.mem_cons.1 hx with rfl | hx
      · rfl
      · obtain ⟨y, _, rfl⟩ := List.mem_map.1 hx
        rfl
    · rcases List.mem_cons.1 hx with rfl | hx
      · rfl
      · exact fiso_udta_4 ud x hx
  obtain ⟨b1, f1⟩ := iso_boxes (moovBoxes xs ud) m hm h4 (by omega)
  obtain ⟨n2, n3, n4⟩ := fiso_moov_named encodeMvhd (boxBytes (xs.map fun x => (typTrex, encodeTrex (u32 x.1.id))))
    (fun x : InitTrack × InitParts => initTrakBody x.1 x.2) xs ud
  have lx : (boxBytes (xs.map fun x => (typTrex, encodeTrex (u32 x.1.id)))).length < 2 ^ 32 := by
    refine iso_len (f1 (typMvex, _) ?_)
    unfold moovBoxes
    exact List.mem_append_right _ List.mem_cons_self
  have ht : all readTrack (xs.map fun x => initTrakBody x.1 x.2) = some (xs.map fun x => initMeaning x.1 x.2) := by
    refine fiso_all _ _ _ _ fun x hx => fiso_trak x.1 x.2 (hw x hx) (hts x hx) ?_
    refine iso_len (f1 (typTrak, _) ?_)
    unfold moovBoxes
    exact List.mem_append_left _ (List.mem_cons_of_mem _ (List.mem_map.2 ⟨x, hx, rfl⟩))
  have hx : all readTrex (xs.map fun x => encodeTrex (u32 x.1.id)) = some (xs.map fun x => ⟨u32 x.1.id, 1, 0, 0, 0⟩) :=
    fiso_all _ _ _ _ fun x _ => fiso_trex _ (iso_u32 _)
  have b2 : boxes (boxBytes (xs.map fun x => (typTrex, encodeTrex (u32 x.1.id)))) = some (xs.map fun x => (typTrex, encodeTrex (u32 x.1.id))) := by
    have h4 : ∀ y ∈ xs.map fun x => (typTrex, encodeTrex (u32 x.1.id)), y.1.length = 4 := by
      intro y hy
      obtain ⟨y, _, rfl⟩ := List.mem_map.1 hy
      exact rfl
    exact fiso_short_boxes _ h4 lx
  have n5 : named (fourcc 't' 'r' 'e' 'x') (xs.map fun x => (typTrex, encodeTrex (u32 x.1.id))) = xs.map fun x => encodeTrex (u32 x.1.id) := by
    have e : fourcc 't' 'r' 'e' 'x' = typTrex := by decide
    unfold named
    rw [e, fiso_filter_pos typTrex (fun x : InitTrack × InitParts => encodeTrex (u32 x.1.id)) xs, List.map_map]
    rfl
  have hv := iso_mvhd 0 4294967295 (by omega) (by omega) _ fiso_mvhd_eq
  unfold moovBoxes at b1
  clear h4 f1 hm hl lx
  generalize boxBytes (fragBoxes m l) = file at *
  generalize fragBoxes m l = fb at *
  generalize boxBytes (xs.map fun x => (typTrex, encodeTrex (u32 x.1.id))) = mvex at *
  generalize (xs.map fun x => (typTrex, encodeTrex (u32 x.1.id))) = trexs at *
  generalize encodeMvhd = mvhd at *
  generalize (typMvhd, mvhd) :: List.map (fun x => (typTrak, initTrakBody x.1 x.2)) xs ++ (typMvex, mvex) :: udtaBoxes ud = mb at *
  constructor
  · unfold readMovie initMovie
    rw [b0, some_bind, ensure_bind _ n1, n0, some_bind, b1, some_bind, n2, some_bind, ensure_bind _ ⟨hv.2.1, hv.1⟩, n4, ht, some_bind,
      hv.2.2.1, hv.2.2.2.1, hv.2.2.2.2.1, hv.2.2.2.2.2.1, hv.2.2.2.2.2.2.1, hv.2.2.2.2.2.2.2]
  · unfold readExtends
    rw [b0, some_bind, n0, some_bind, b1, some_bind, n3, some_bind, b2, some_bind, n5, hx]

/-! ## C90 -/

/-- What the reader finds for a track of a segment, in terms of what was given. -/
structure InitMeans (it : InitTrack) (u : Spec.ISO.Track) : Prop where
  id : (u.id : Int) = it.id
  enabled : u.flags = 3 ∧ u.matrix = [65536, 0, 0, 0, 65536, 0, 0, 0, 1073741824] ∧
    u.language.map (fun n => Char.ofNat (n + 0x60)) = ['u', 'n', 'd']
  timeScale : u.timeScale = it.timeScale
  empty : u.samples = [] ∧ u.edits = none ∧ u.duration = 0 ∧ u.mediaDuration = 0
  codec : ∃ c typ entry ctyp config avg max, it.codec = some c ∧
    avg = (if it.avgBitrate ≠ 0 then it.avgBitrate else if c.isVideo then 1000000 else 128825) ∧
    max = (if it.maxBitrate ≠ 0 then it.maxBitrate else if c.isVideo then 1000000 else 128825) ∧
    RecordWritten it.id avg max c typ entry ctyp config ∧
    (∃ btrt, u.descriptions = [(typ, entry ++ (box ctyp config ++ box (fourcc 'b' 't' 'r' 't') btrt))] ∧
      (max < 2 ^ 32 → avg < 2 ^ 32 → Spec.Records.Carries btrt (Spec.Records.bitRateFields max avg))) ∧
    u.handler = (if c.isVideo then fourcc 'v' 'i' 'd' 'e' else fourcc 's' 'o' 'u' 'n') ∧
    u.mediaHeader = (if c.isVideo then fourcc 'v' 'm' 'h' 'd' else fourcc 's' 'm' 'h' 'd') ∧
    u.name = (if c.isVideo then fourcc 'V' 'i' 'd' 'e' else fourcc 'S' 'o' 'u' 'n') ++
      (if c.isVideo then fourcc 'o' 'H' 'a' 'n' else fourcc 'd' 'H' 'a' 'n') ++ fourcc 'd' 'l' 'e' 'r' ++ [0] ∧
    u.group = (if c.isVideo then 0 else 1) ∧ u.volume = (if c.isVideo then 0 else 256) ∧
    u.width = (if c.isVideo then field entry 192 16 * 65536 else 0) ∧ u.height = if c.isVideo then field entry 208 16 * 65536 else 0

theorem fiso_means (it : InitTrack) (p : InitParts) (hw : InitWritten it p) (hi : 0 ≤ it.id ∧ it.id < 2 ^ 32) : InitMeans it (initMeaning it p) := by
  refine ⟨?_, ⟨rfl, rfl, iso_language⟩, rfl, ⟨rfl, rfl, rfl, rfl⟩, p.codec, p.typ, p.entry, p.ctyp, p.config, p.avg, p.max, hw.codec, hw.avg, hw.max,
    ⟨p.info, hw.filled, hw.entries, hw.config⟩, ⟨_, rfl, fun hm ha => (C85_btrt p.max p.avg hm ha).2⟩, rfl, rfl, iso_name _, rfl, rfl, ?_, ?_⟩
  · show ((u32 it.id : Nat) : Int) = it.id
    unfold u32
    omega
  · show (if p.codec.isVideo then _ else _) = _
    by_cases hv : p.codec.isVideo = true
    · rw [if_pos hv, if_pos hv, (iso_size p.info p.codec p.typ p.entry hv hw.entries).1]
    · rw [if_neg hv, if_neg hv]
  · show (if p.codec.isVideo then _ else _) = _
    by_cases hv : p.codec.isVideo = true
    · rw [if_pos hv, if_pos hv, (iso_size p.info p.codec p.typ p.entry hv hw.entries).2]
    · rw [if_neg hv, if_neg hv]

theorem fiso_find (xs : List InitTrack) (id : Nat) (h : ∃ it ∈ xs, u32 it.id = id) :
    ∃ i, (xs.map fun x => (⟨u32 x.id, 1, 0, 0, 0⟩ : Defaults)).find? (fun d => d.id == id) = some ⟨i, 1, 0, 0, 0⟩ := by
  induction xs with
  | nil => obtain ⟨_, h, _⟩ := h; cases h
  | cons x xs ih =>
    rw [List.map_cons]
    by_cases e : u32 x.id = id
    · exact ⟨u32 x.id, by rw [List.find?_cons_of_pos (by exact beq_iff_eq.2 e)]⟩
    · rw [List.find?_cons_of_neg (by exact fun h => e (beq_iff_eq.1 h))]
      obtain ⟨it, hm, hi⟩ := h
      rcases List.mem_cons.1 hm with rfl | hm
      · exact absurd hi e
      · exact ih ⟨it, hm, hi⟩

/-- **C90.** A segment of `Init.Marshal` followed by the bytes of `Parts.Marshal` is a fragmented file: the reader finds a movie with a track
for each track that is given, in the same order, with the identifier, the time scale, the codec and the bit rates that were given and without
samples; a fragment for each part, in the same order, with its sequence number; in a fragment, for each track of the part, exactly the samples
that were given, with their decoding and composition times and sync flags, the first description, and the payloads at the places that the
fragment says. -/
theorem C90_fragmented (i : Init) (l : List Part) (f g : SBuf) (hi : ∀ it ∈ i.tracks, (0 ≤ it.id ∧ it.id < 2 ^ 32) ∧ it.timeScale < 2 ^ 32)
    (hu : ∀ u ∈ i.userData, u.1.length = 4) (h : FMP4Init.marshal ⟨[], 0⟩ i = .ok f) (hg : FMP4.marshalParts l ⟨[], 0⟩ = .ok g)
    (hp : ∀ p ∈ l, FitsPart32 p) (ht : ∀ p ∈ l, ∀ t ∈ p.tracks, ∃ it ∈ i.tracks, it.id = t.id) :
    ∃ r, readFragmented (f.buf ++ g.buf) = some r ∧ r.movie.timeScale = 1000 ∧ r.movie.tracks.length = i.tracks.length ∧
      (∀ (n : Nat) it u, i.tracks[n]? = some it → r.movie.tracks[n]? = some u → InitMeans it u) ∧
      r.fragments.map (fun x => (x.1, seenTracks (f.buf ++ g.buf) x.2)) = l.map givenPart := by
  obtain ⟨xs, e1, hw, hf, hl⟩ := fiso_put_init i f hu h
  have h0 : (⟨[], 0⟩ : SBuf) = full [] := rfl
  rw [h0, fmp4_marshalParts l [] fun p h => (hp p h).2.2] at hg
  cases hg
  obtain ⟨m, hm⟩ : ∃ m, m = boxBytes (moovBoxes xs i.userData) := ⟨_, rfl⟩
  have hparts : l.flatMap partBytes = (l.flatMap partBoxes).flatMap fun x => box x.1 x.2 := by
    rw [List.flatMap_assoc]
    exact congrArg (fun f => l.flatMap f) (funext fun p => fiso_partBytes p)
  have hfile : f.buf ++ l.flatMap partBytes = boxBytes (fragBoxes m l) := by
    rw [hf, hparts, ← hm]
    unfold boxBytes fragBoxes
    rw [List.flatMap_cons, List.flatMap_cons, List.flatMap_nil, List.flatMap_cons, List.flatMap_cons, List.append_nil]
    simp only [List.append_assoc]
  rw [← hm] at hl hf
  obtain ⟨r1, r2⟩ := fiso_read_movie xs i.userData l hw (fun x hx => by
    refine (hi x.1 ?_).2
    rw [← e1]
    exact List.mem_map_of_mem hx) hp m hm hl
  rw [← hfile] at r1 r2
  have r3 := fiso_frag_boxes m l hl hp
  rw [← hfile] at r3
  have hlen : f.buf.length = 0 + 8 + encodeFtyp.length + 8 + m.length := by
    rw [hf]
    show ([(typFtyp, encodeFtyp), (typMoov, m)].flatMap fun x => box x.1 x.2).length = _
    rw [List.flatMap_cons, List.flatMap_cons, List.flatMap_nil, List.append_nil, List.length_append, box_len _ _ rfl, box_len _ _ rfl]
    dsimp only
    omega
  have r4 : readFragments 0 (fragBoxes m l) = some (fragmentsOf f.buf.length l) := by
    have := fiso_fragments l f.buf.length hp
    have n1 : ¬ typFtyp = fourcc 'm' 'o' 'o' 'f' := by decide
    have n2 : ¬ typMoov = fourcc 'm' 'o' 'o' 'f' := by decide
    unfold fragBoxes
    rw [readFragments, readFragments, ← hlen, this, some_bind]
    dsimp only
    rw [if_neg n2, some_bind, if_neg n1]
  have hdef : (xs.map fun x => (⟨u32 x.1.id, 1, 0, 0, 0⟩ : Defaults)) = i.tracks.map fun x => ⟨u32 x.id, 1, 0, 0, 0⟩ := by
    rw [← e1, List.map_map]; rfl
  obtain ⟨r, r5, r6⟩ := fiso_parts (xs.map fun x => (⟨u32 x.1.id, 1, 0, 0, 0⟩ : Defaults)) (f.buf ++ l.flatMap partBytes) l f.buf
    (fun p hpl t htp => by
      rw [hdef]
      obtain ⟨it, hit, e⟩ := ht p hpl t htp
      refine fiso_find _ _ ⟨it, hit, ?_⟩
      have := (hi it hit).1
      unfold u32
      omega) rfl
  have r7 : (xs.map fun x => (⟨u32 x.1.id, 1, 0, 0, 0⟩ : Defaults)).map (·.id) = (initMovie xs).tracks.map (·.id) := by
    unfold initMovie
    rw [List.map_map, List.map_map]
    rfl
  refine ⟨⟨initMovie xs, r⟩, ?_, rfl, ?_, ?_, ?_⟩
  · show readFragmented (f.buf ++ ([] ++ l.flatMap partBytes)) = _
    rw [List.nil_append]
    unfold readFragmented
    rw [r1, some_bind, r2, some_bind, ensure_bind _ r7, r3, some_bind, r4, some_bind, r5, some_bind]
  · unfold initMovie
    rw [List.length_map, ← e1, List.length_map]
  · intro n it u h1 h2
    unfold initMovie at h2
    rw [List.getElem?_map] at h2
    rw [← e1, List.getElem?_map] at h1
    obtain ⟨x, hx, rfl⟩ := Option.map_eq_some_iff.1 h2
    rw [hx] at h1
    cases h1
    have hxm : x ∈ xs := List.mem_of_getElem? hx
    exact fiso_means x.1 x.2 (hw x hxm) (hi x.1 (by rw [← e1]; exact List.mem_map_of_mem hxm)).1
  · show r.map (fun x => (x.1, seenTracks (f.buf ++ ([] ++ l.flatMap partBytes)) x.2)) = _
    rw [List.nil_append]
    exact r6

/-- Video with reordered frames, and audio whose identifier is the highest one. -/
def fisoExample : List Part :=
  [{ sequenceNumber := 7, tracks := [{ id := 1, baseTime := 2 ^ 40, samples := [⟨3000, 3000, false, [1, 2]⟩, ⟨3000, 6000, true, [3]⟩, ⟨3000, -3000, true, []⟩] },
      { id := 4294967295, baseTime := 44100, samples := [⟨1024, 0, false, [4]⟩, ⟨1024, 0, false, [5, 6]⟩] }] },
    { sequenceNumber := 8, tracks := [{ id := 4294967295, baseTime := 46148, samples := [⟨1024, 0, false, [7]⟩] }] }]

theorem fiso_example_fits : ∀ p ∈ fisoExample, FitsPart32 p := by
  intro p hp
  simp only [fisoExample, List.mem_cons, List.not_mem_nil, or_false] at hp
  rcases hp with rfl | rfl
  · refine ⟨by decide, ?_, by decide +kernel⟩
    intro t ht
    simp only [List.mem_cons, List.not_mem_nil, or_false] at ht
    rcases ht with rfl | rfl <;> refine ⟨by decide, by decide, by decide, ?_⟩ <;> intro sa hs <;>
      simp only [List.mem_cons, List.not_mem_nil, or_false] at hs
    · rcases hs with rfl | rfl | rfl <;> exact ⟨by decide, by decide, by decide⟩
    · rcases hs with rfl | rfl <;> exact ⟨by decide, by decide, by decide⟩
  · refine ⟨by decide, ?_, by decide +kernel⟩
    intro t ht
    simp only [List.mem_cons, List.not_mem_nil, or_false] at ht
    rcases ht with rfl
    refine ⟨by decide, by decide, by decide, ?_⟩
    intro sa hs
    simp only [List.mem_cons, List.not_mem_nil, or_false] at hs
    rcases hs with rfl
    exact ⟨by decide, by decide, by decide⟩

example : ∃ f g, FMP4Init.marshal ⟨[], 0⟩ initWithRates = .ok f ∧ FMP4.marshalParts fisoExample ⟨[], 0⟩ = .ok g ∧
    (∀ it ∈ initWithRates.tracks, (0 ≤ it.id ∧ it.id < 2 ^ 32) ∧ it.timeScale < 2 ^ 32) ∧ (∀ u ∈ initWithRates.userData, u.1.length = 4) ∧
    (∀ p ∈ fisoExample, FitsPart32 p) ∧ ∀ p ∈ fisoExample, ∀ t ∈ p.tracks, ∃ it ∈ initWithRates.tracks, it.id = t.id := by
  have h : (FMP4Init.marshal ⟨[], 0⟩ initWithRates).bind (fun _ => .ok ()) = .ok () := by decide +kernel
  obtain ⟨f, hf, _⟩ := Res.bind_eq_ok.1 h
  refine ⟨f, _, hf, fmp4_marshalParts fisoExample [] fun p h => (fiso_example_fits p h).2.2, by decide, by decide, fiso_example_fits, by decide⟩

/-- The reader, run on the example. -/
def fisoReadExample : Option (List (Nat × Nat) × List (Nat × List (Nat × List (Int × Int × Bool × Bytes × Nat)))) :=
  match FMP4Init.marshal ⟨[], 0⟩ initWithRates, FMP4.marshalParts fisoExample ⟨[], 0⟩ with
  | .ok f, .ok g => (readFragmented (f.buf ++ g.buf)).map fun r =>
      (r.movie.tracks.map fun u => (u.id, u.timeScale), r.fragments.map fun x => (x.1, seenTracks (f.buf ++ g.buf) x.2))
  | _, _ => none

#guard fisoReadExample == some ([(1, 90000), (4294967295, 44100)],
  [(7, [(1, [(2 ^ 40, 2 ^ 40 + 3000, true, [1, 2], 1), (2 ^ 40 + 3000, 2 ^ 40 + 9000, false, [3], 1), (2 ^ 40 + 6000, 2 ^ 40 + 3000, false, [], 1)]),
      (4294967295, [(44100, 44100, true, [4], 1), (45124, 45124, true, [5, 6], 1)])]),
    (8, [(4294967295, [(46148, 46148, true, [7], 1)])])])

end Verif.Props
