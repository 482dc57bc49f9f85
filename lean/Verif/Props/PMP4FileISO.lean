import Verif.Lemmas.ISOFile
import Verif.Props.PMP4FileRoundTrip
import Verif.Props.PMP4Edits
import Verif.Props.CodecRecords

/-!
# C86: what MP4 files that are written mean

The files are read by the reader of Spec/ISOFile.lean, which was written from ISO 14496-12.
-/

namespace Verif.Props
open PMP4File MP4Codec MP4Box MP4Writer ISOLemmas
open FMP4Init (typFtyp typMoov typMvhd typTrak typTkhd typEdts typMdia typMdhd typHdlr typMinf typStbl typStsd typStts typStsc typStsz typStco
  typVmhd typSmhd typDinf typDref typUrl hdlrPayload)
open PMP4 (Run StscEntry ElstEntry marshalSTTS marshalCTTS marshalSTSS marshalSTSC marshalSTSZ marshalSTCO marshalELST mediaDuration shiftChunks
  maxSamples)
open Spec (beBytes)
open Spec.FMP4 (box)
open Spec.ISO
open Spec.Records (field fourcc Fields)
open ByteR (beBytes_length)
open SampleTables (expand startTimes tableLocations region)

/-! ## Tables -/

theorem iso_signed (v : Int) (h : -(2 ^ 31) ≤ v ∧ v < 2 ^ 31) : signed (FMP4.u32 v) = v := by
  unfold signed FMP4.u32
  split <;> omega

theorem iso_u32 (v : Int) : FMP4.u32 v < 2 ^ 32 := by unfold FMP4.u32; omega

theorem iso_maps {α β : Type} (l : List α) (enc : α → Fields) (dec : Bytes → β) (f : α → β) (hd : ∀ e ∈ l, dec (pack (enc e)) = f e) :
    ((l.map enc).map pack).map dec = l.map f := by
  rw [List.map_map, List.map_map]
  exact List.map_congr_left hd

/-- `mp4t_*` for the reader of the specification: entries are read field by field. -/
theorem iso_rows {α β : Type} (size v : Nat) (l : List α) (enc : α → Fields) (dec : Bytes → β) (f : α → β)
    (hs : ∀ e ∈ l, (pack (enc e)).length = size) (hl : l.length < 2 ^ 32) (hd : ∀ e ∈ l, dec (pack (enc e)) = f e) :
    (rows size (encodeTable v (l.map enc)) >>= fun l => some (l.map dec)) = some (l.map f) := by
  rw [rows_table size v _ (by
    intro e he
    obtain ⟨x, hx, rfl⟩ := List.mem_map.1 he
    exact hs x hx) (by rwa [List.length_map])]
  show some (((l.map enc).map pack).map dec) = _
  rw [List.map_map, List.map_map]
  exact congrArg some (List.map_congr_left hd)

theorem iso_word (fs : Fields) (pos v : Nat) (h8 : (widths fs).sum % 8 = 0) (h : fieldAt fs pos = some (32, v)) (hv : v < 2 ^ 32) :
    field (pack fs) pos 32 = v := field_pack' fs pos 32 v h8 h hv

theorem iso_stts (l : List (Run Nat)) (hl : l.length < 2 ^ 32) (h : ∀ e ∈ l, e.count < 2 ^ 32 ∧ e.value < 2 ^ 32) :
    readTimes (encodeStts l) = some (l.map fun e => (e.count, e.value)) := by
  refine (iso_rows 8 0 l (fun e => [(32, e.count), (32, e.value)]) (fun r => (field r 0 32, field r 32 32)) _
    (fun e _ => by rw [pack_length]; simp [widths]) hl fun e he => ?_)
  rw [iso_word _ 0 e.count (by simp [widths]) (by rfl) (h e he).1, iso_word _ 32 e.value (by simp [widths]) (by rfl) (h e he).2]

theorem iso_ctts (l : List (Run Int)) (hl : l.length < 2 ^ 32) (h : ∀ e ∈ l, e.count < 2 ^ 32 ∧ -(2 ^ 31) ≤ e.value ∧ e.value < 2 ^ 31) :
    readOffsets (encodeCtts l) = some (l.map fun e => (e.count, e.value)) := by
  have hv : field (encodeCtts l) 0 8 = 1 := version_table 1 _ (by decide)
  unfold readOffsets
  rw [hv]
  refine (iso_rows 8 1 l (fun e => [(32, e.count), (32, FMP4.u32 e.value)]) (fun r => (field r 0 32, signed (field r 32 32))) _
    (fun e _ => by rw [pack_length]; simp [widths]) hl fun e he => ?_)
  rw [iso_word _ 0 e.count (by simp [widths]) (by rfl) (h e he).1, iso_word _ 32 _ (by simp [widths]) (by rfl) (iso_u32 e.value),
    iso_signed _ (h e he).2]

theorem iso_words (l : List Nat) (hl : l.length < 2 ^ 32) (h : ∀ n ∈ l, n < 2 ^ 32) :
    readWords (encodeTable 0 (l.map fun n => [(32, n)])) = some l := by
  have := (iso_rows 4 0 l (fun n => [(32, n)]) (fun r => field r 0 32) (fun n => n)
    (fun e _ => by rw [pack_length]; simp [widths]) hl fun e he => ?_)
  · rw [List.map_id'] at this; exact this
  · exact iso_word _ 0 e (by simp [widths]) (by rfl) (h e he)

theorem iso_stsc (l : List StscEntry) (hl : l.length < 2 ^ 32) (h : ∀ e ∈ l, e.firstChunk < 2 ^ 32 ∧ e.samplesPerChunk < 2 ^ 32) :
    readChunks (encodeStsc l) = some (l.map fun e => ⟨e.firstChunk, e.samplesPerChunk, 1⟩) := by
  refine (iso_rows 12 0 l (fun e => [(32, e.firstChunk), (32, e.samplesPerChunk), (32, 1)])
    (fun r => (⟨field r 0 32, field r 32 32, field r 64 32⟩ : ChunkRun)) _ (fun e _ => by rw [pack_length]; simp [widths]) hl fun e he => ?_)
  rw [iso_word _ 0 e.firstChunk (by simp [widths]) (by rfl) (h e he).1, iso_word _ 32 e.samplesPerChunk (by simp [widths]) (by rfl) (h e he).2,
    iso_word _ 64 1 (by simp [widths]) (by rfl) (by decide)]

theorem iso_elst (l : List ElstEntry) (hl : l.length < 2 ^ 32)
    (h : ∀ e ∈ l, e.segmentDuration < 2 ^ 32 ∧ -(2 ^ 31) ≤ e.mediaTime ∧ e.mediaTime < 2 ^ 31) :
    readEdits (encodeElst l) = some (l.map fun e => ⟨e.segmentDuration, e.mediaTime, 65536⟩) := by
  have hv : field (encodeElst l) 0 8 = 0 := by unfold encodeElst; exact version_table 0 _ (Nat.two_pow_pos 8)
  unfold readEdits
  rw [ensure_bind _ hv]
  refine (iso_rows 12 0 l (fun e => [(32, e.segmentDuration), (32, FMP4.u32 e.mediaTime), (16, 1), (16, 0)])
    (fun r => (⟨field r 0 32, signed (field r 32 32), field r 64 32⟩ : Edit)) _ (fun e _ => by rw [pack_length]; simp [widths]) hl fun e he => ?_)
  have hg := pack_group [(32, e.segmentDuration), (32, FMP4.u32 e.mediaTime)] [(16, 1), (16, 0)] []
  simp only [List.cons_append, List.nil_append] at hg
  rw [hg]
  rw [iso_word _ 0 e.segmentDuration (by simp [widths]) (by rfl) (h e he).1, iso_word _ 32 _ (by simp [widths]) (by rfl) (iso_u32 e.mediaTime),
    iso_word _ 64 65536 (by simp [widths]) (by rfl) (by decide), iso_signed _ (h e he).2]

theorem iso_stsz (l : List Nat) (hl : l.length < 2 ^ 32) (h : ∀ n ∈ l, n < 2 ^ 32) : readSizes (PMP4File.encodeStsz l) = some l := by
  unfold readSizes PMP4File.encodeStsz
  have e1 := field_pack [(8, 0), (24, 0), (32, 0), (32, (l.length))] (encodeEntries (l.map fun n => [(32, n)])) 64 32 l.length (by simp [widths])
    rfl hl
  have e2 := field_pack [(8, 0), (24, 0), (32, 0), (32, (l.length))] (encodeEntries (l.map fun n => [(32, n)])) 32 32 0 (by simp [widths])
    rfl (Nat.two_pow_pos 32)
  have h12 : (pack [(8, 0), (24, 0), (32, 0), (32, l.length)]).length = 12 := by rw [pack_length]; simp [widths]
  have h4 : ∀ e ∈ l.map fun n => [(32, n)], (pack e).length = 4 := by
    intro e he
    obtain ⟨x, _, rfl⟩ := List.mem_map.1 he
    rw [pack_length]; simp [widths]
  dsimp only
  have hp := pieces_entries 4 (l.map fun n => [(32, n)]) [] h4
  rw [List.append_nil, List.length_map] at hp
  have hn : ¬ (0 : Nat) ≠ 0 := fun h => h rfl
  rw [e1, e2, if_neg hn, ensure_bind _ (by rw [List.length_append, h12, entries_length 4 _ h4, List.length_map]), List.drop_left' h12, hp,
    iso_maps l (fun n => [(32, n)]) (fun r => field r 0 32) (fun n => n) fun n hn => iso_word _ 0 n (by simp [widths]) (by rfl) (h n hn),
    List.map_id']

/-! ## Lists of boxes -/

theorem iso_count (n : Nat) (rest : Bytes) (hn : n < 2 ^ 32) : field (encodeCount n ++ rest) 32 32 = n :=
  field_pack _ _ 32 32 n (by simp [widths]) (by rfl) hn

theorem iso_count_length (n : Nat) : (encodeCount n).length = 8 := by unfold encodeCount; rw [pack_length]; simp [widths]

/-- A box, in a list of boxes. -/
theorem iso_listed (typ body : Bytes) (h : Fits (typ, body)) : listed (encodeCount 1 ++ box typ body) = some [(typ, body)] := by
  unfold listed
  rw [List.drop_left' (iso_count_length 1), boxes_flat [(typ, body)] _ (by simp) (by simpa using h), iso_count 1 _ (by decide)]
  rw [some_bind, ensure_bind _ ⟨rfl, by rw [List.length_append, iso_count_length]; omega⟩]

theorem iso_dinf : readReferences (encodeCount 1 ++ box typUrl encodeUrl) = some 1 := by decide +kernel

theorem iso_description (c : Codec) (info : CodecInfo) (typ entry rest : Bytes) (h : sampleEntry info c = .ok (typ, entry)) :
    field (entry ++ rest) 48 16 = 1 := by
  have hv : ∀ w h, field (encodeVisual w h ++ rest) 48 16 = 1 := fun w h =>
    field_pack _ _ 48 16 1 (by simp [widths]) (by rfl) (by decide)
  have ha : ∀ a b c, field (encodeAudio a b c ++ rest) 48 16 = 1 := fun a b c =>
    field_pack _ _ 48 16 1 (by simp [widths]) (by rfl) (by decide)
  cases c with
  | flac si =>
    obtain ⟨s, _, h⟩ := Res.bind_eq_ok.1 h
    cases h; exact ha _ _ _
  | mpeg4Audio c =>
    obtain ⟨s, _, h⟩ := Res.bind_eq_ok.1 h
    cases h; exact ha _ _ _
  | av1 | vp9 | h265 | h264 | mpeg4Video | mpeg1Video | mjpeg => cases h; exact hv _ _
  | opus | mpeg1Audio | ac3 | eac3 | lpcm => cases h; exact ha _ _ _

/-! ## Tracks -/

/-- Pictures are not transformed. -/
def isoUnity : List Nat := [65536, 0, 0, 0, 65536, 0, 0, 0, 1073741824]

/-- "und", without 0x60. -/
def isoUndetermined : List Nat := [21, 14, 4]

/-- What a track means, in terms of what is written. -/
def isoTrack (t : PMP4.Track) (p : FileParts) (offs : List Nat) : Spec.ISO.Track :=
  { flags := 3, id := t.id, duration := p.duration, group := if p.codec.isVideo then 0 else 1,
    volume := if p.codec.isVideo then 0 else 256, matrix := isoUnity,
    width := if p.codec.isVideo then FMP4.u32 (p.info.width * 65536) else 0,
    height := if p.codec.isVideo then FMP4.u32 (p.info.height * 65536) else 0,
    edits := some (p.elst.map fun e => ⟨e.segmentDuration, e.mediaTime, 65536⟩), timeScale := t.timeScale, mediaDuration := mediaDuration t,
    language := isoUndetermined, name := if p.codec.isVideo then videoHandler ++ [0] else soundHandler ++ [0],
    handler := if p.codec.isVideo then fourcc 'v' 'i' 'd' 'e' else fourcc 's' 'o' 'u' 'n',
    mediaHeader := if p.codec.isVideo then fourcc 'v' 'm' 'h' 'd' else fourcc 's' 'm' 'h' 'd',
    descriptions := [(p.typ, p.entry ++ box p.ctyp p.config)], stts := p.stts.map fun e => (e.count, e.value),
    ctts := some (p.ctts.map fun e => (e.count, e.value)), stss := marshalSTSS t.samples,
    stsc := p.stsc.map fun e => ⟨e.firstChunk, e.samplesPerChunk, 1⟩, sizes := marshalSTSZ t.samples, stco := offs }

theorem iso_tkhd_fields (id d g v w h : Nat) : PMP4File.encodeTkhd id d g v w h = pack ([(8, 0), (24, 3), (32, 0), (32, 0), (32, id), (32, 0), (32, d),
    (64, 0), (16, 0), (16, g), (16, v), (16, 0), (32, 0x10000), (32, 0), (32, 0), (32, 0), (32, 0x10000), (32, 0), (32, 0), (32, 0),
    (32, 0x40000000), (32, w), (32, h)]) := by
  unfold PMP4File.encodeTkhd unity
  simp only [List.cons_append, List.nil_append]

/-- Fields of `tkhd`. -/
theorem iso_tkhd (id d g v w h : Nat) (hi : id < 2 ^ 32) (hd : d < 2 ^ 32) (hg : g < 2 ^ 16) (hv : v < 2 ^ 16) (hw : w < 2 ^ 32) (hh : h < 2 ^ 32) (b : Bytes)
    (hb : b = PMP4File.encodeTkhd id d g v w h) : b.length = 84 ∧ field b 0 8 = 0 ∧ field b 8 24 = 3 ∧ field b 96 32 = id ∧ field b 160 32 = d ∧
      field b 288 16 = v ∧ field b 608 32 = w ∧ field b 640 32 = h ∧ field b 272 16 = g ∧ matrix b 320 = isoUnity := by
  subst hb
  rw [iso_tkhd_fields]
  exact ⟨by rw [pack_length]; simp [widths], field_pack' _ 0 8 0 (by simp [widths]) (by rfl) (by decide),
    field_pack' _ 8 24 3 (by simp [widths]) (by rfl) (by decide), field_pack' _ 96 32 id (by simp [widths]) (by rfl) hi,
    field_pack' _ 160 32 d (by simp [widths]) (by rfl) hd, field_pack' _ 288 16 v (by simp [widths]) (by rfl) hv,
    field_pack' _ 608 32 w (by simp [widths]) (by rfl) hw, field_pack' _ 640 32 h (by simp [widths]) (by rfl) hh,
    field_pack' _ 272 16 g (by simp [widths]) (by rfl) hg, by
    unfold matrix
    rw [field_pack' _ 320 32 65536 (by simp [widths]) (by rfl) (by decide), field_pack' _ (320 + 32) 32 0 (by simp [widths]) (by rfl) (by decide),
      field_pack' _ (320 + 64) 32 0 (by simp [widths]) (by rfl) (by decide), field_pack' _ (320 + 96) 32 0 (by simp [widths]) (by rfl) (by decide),
      field_pack' _ (320 + 128) 32 65536 (by simp [widths]) (by rfl) (by decide), field_pack' _ (320 + 160) 32 0 (by simp [widths]) (by rfl) (by decide),
      field_pack' _ (320 + 192) 32 0 (by simp [widths]) (by rfl) (by decide), field_pack' _ (320 + 224) 32 0 (by simp [widths]) (by rfl) (by decide),
      field_pack' _ (320 + 256) 32 1073741824 (by simp [widths]) (by rfl) (by decide)]
    rfl⟩

theorem iso_mdhd (ts d : Nat) (h1 : ts < 2 ^ 32) (h2 : d < 2 ^ 32) (b : Bytes) (hb : b = PMP4File.encodeMdhd ts d) :
    b.length = 24 ∧ field b 0 8 = 0 ∧ field b 96 32 = ts ∧ field b 128 32 = d ∧
      [field b 161 5, field b 166 5, field b 171 5] = isoUndetermined := by
  subst hb
  unfold PMP4File.encodeMdhd
  exact ⟨by rw [pack_length]; simp [widths], field_pack' _ 0 8 0 (by simp [widths]) (by rfl) (by decide),
    field_pack' _ 96 32 ts (by simp [widths]) (by rfl) h1, field_pack' _ 128 32 d (by simp [widths]) (by rfl) h2, by
    rw [field_pack' _ 161 5 21 (by simp [widths]) (by rfl) (by decide), field_pack' _ 166 5 14 (by simp [widths]) (by rfl) (by decide),
      field_pack' _ 171 5 4 (by simp [widths]) (by rfl) (by decide)]
    rfl⟩

theorem iso_hdlr (c : Codec) : ((hdlrPayload c).drop 8).take 4 = if c.isVideo then fourcc 'v' 'i' 'd' 'e' else fourcc 's' 'o' 'u' 'n' := by
  unfold hdlrPayload
  split <;> decide +kernel

theorem iso_hdlr_form (c : Codec) : (field (hdlrPayload c) 0 8 = 0 ∧ field (hdlrPayload c) 32 32 = 0 ∧ 25 ≤ (hdlrPayload c).length ∧
    (hdlrPayload c).getLast? = some 0) ∧ (hdlrPayload c).drop 24 = if c.isVideo then videoHandler ++ [0] else soundHandler ++ [0] := by
  unfold hdlrPayload
  split <;> decide +kernel

theorem iso_name (v : Bool) : (if v then videoHandler ++ [0] else soundHandler ++ [0]) = (if v then fourcc 'V' 'i' 'd' 'e' else fourcc 'S' 'o' 'u' 'n') ++
    (if v then fourcc 'o' 'H' 'a' 'n' else fourcc 'd' 'H' 'a' 'n') ++ fourcc 'd' 'l' 'e' 'r' ++ [0] := by
  cases v <;> decide +kernel

theorem iso_language : isoUndetermined.map (fun n => Char.ofNat (n + 0x60)) = ['u', 'n', 'd'] := by decide

theorem iso_vmhd (a b : Bytes) : readMediaHeader [(typVmhd, encodeVmhd), (typDinf, a), (typStbl, b)] = some (fourcc 'v' 'm' 'h' 'd') := by
  have h : mediaHeaderFits (typVmhd, encodeVmhd) := by decide +kernel
  show (if mediaHeaderFits (typVmhd, encodeVmhd) then some typVmhd else none) = _
  rw [if_pos h]
  rfl

theorem iso_smhd (a b : Bytes) : readMediaHeader [(typSmhd, encodeSmhd), (typDinf, a), (typStbl, b)] = some (fourcc 's' 'm' 'h' 'd') := by
  have h : mediaHeaderFits (typSmhd, encodeSmhd) := by decide +kernel
  show (if mediaHeaderFits (typSmhd, encodeSmhd) then some typSmhd else none) = _
  rw [if_pos h]
  rfl

/-- The fields of `tkhd`, which depend on the kind of track. -/
theorem iso_tkhd_payload (t : PMP4.Track) (p : FileParts) (offs : List Nat) (hi : t.id < 2 ^ 32) (hd : p.duration < 2 ^ 32) (b : Bytes)
    (hb : b = PMP4File.tkhdPayload t.id p.duration p.codec p.info) :
    b.length = 84 ∧ field b 0 8 = 0 ∧ field b 8 24 = 3 ∧ field b 96 32 = t.id ∧ field b 160 32 = p.duration ∧
      field b 288 16 = (isoTrack t p offs).volume ∧ field b 608 32 = (isoTrack t p offs).width ∧
      field b 640 32 = (isoTrack t p offs).height ∧ field b 272 16 = (isoTrack t p offs).group ∧
      matrix b 320 = (isoTrack t p offs).matrix := by
  unfold PMP4File.tkhdPayload at hb
  unfold isoTrack
  dsimp only
  split at hb
  · rename_i hv
    rw [if_pos hv, if_pos hv, if_pos hv, if_pos hv]
    exact iso_tkhd _ _ _ _ _ _ hi hd (by decide) (by decide) (iso_u32 _) (iso_u32 _) b hb
  · rename_i hv
    rw [if_neg hv, if_neg hv, if_neg hv, if_neg hv]
    exact iso_tkhd _ _ _ _ _ _ hi hd (by decide) (by decide) (by decide) (by decide) b hb

/-- What the tables and the headers of a track need. -/
structure IsoFits (t : PMP4.Track) (p : FileParts) (offs : List Nat) : Prop where
  id : t.id < 2 ^ 32
  timeScale : t.timeScale < 2 ^ 32
  duration : p.duration < 2 ^ 32
  elst : p.elst.length < 2 ^ 32 ∧ ∀ e ∈ p.elst, e.segmentDuration < 2 ^ 32 ∧ -(2 ^ 31) ≤ e.mediaTime ∧ e.mediaTime < 2 ^ 31
  stts : p.stts.length < 2 ^ 32 ∧ ∀ e ∈ p.stts, e.count < 2 ^ 32 ∧ e.value < 2 ^ 32
  ctts : p.ctts.length < 2 ^ 32 ∧ ∀ e ∈ p.ctts, e.count < 2 ^ 32 ∧ -(2 ^ 31) ≤ e.value ∧ e.value < 2 ^ 31
  stss : ∀ l, marshalSTSS t.samples = some l → l.length < 2 ^ 32 ∧ ∀ n ∈ l, n < 2 ^ 32
  stsc : p.stsc.length < 2 ^ 32 ∧ ∀ e ∈ p.stsc, e.firstChunk < 2 ^ 32 ∧ e.samplesPerChunk < 2 ^ 32
  stsz : (marshalSTSZ t.samples).length < 2 ^ 32 ∧ ∀ n ∈ marshalSTSZ t.samples, n < 2 ^ 32
  stco : offs.length < 2 ^ 32 ∧ ∀ n ∈ offs, n < 2 ^ 32

/-- The boxes of `stbl`. -/
def isoStbl (p : FileParts) (samples : List PMP4.Sample) (offs : List Nat) : List (Bytes × Bytes) :=
  (typStsd, encodeCount 1 ++ fileEntry p) :: (typStts, encodeStts p.stts) ::
    (((marshalSTSS samples).map fun l => (typStss, encodeStss l)).toList ++
      [(typCtts, encodeCtts p.ctts), (typStsc, encodeStsc p.stsc), (typStsz, PMP4File.encodeStsz (marshalSTSZ samples)),
        (typStco, encodeStco offs)])

theorem iso_stbl_bytes (p : FileParts) (samples : List PMP4.Sample) (offs : List Nat) :
    fileStsd p ++ fileTables p samples offs = (isoStbl p samples offs).flatMap fun x => box x.1 x.2 := by
  unfold fileStsd fileTables isoStbl fileStss
  cases marshalSTSS samples <;>
    simp only [Option.map_none, Option.map_some, Option.toList_none, Option.toList_some, List.nil_append, List.flatMap_append, List.flatMap_cons,
      List.flatMap_nil, List.append_nil, List.cons_append, List.append_assoc]

/-- Boxes inside of boxes are shorter. -/
theorem iso_fits_flat (l : List (Bytes × Bytes)) (h4 : ∀ x ∈ l, x.1.length = 4) (h : (l.flatMap fun x => box x.1 x.2).length < 2 ^ 32) :
    ∀ x ∈ l, Fits x := by
  intro x hx
  refine ⟨h4 x hx, ?_⟩
  rw [List.length_flatMap] at h
  have := mp4t_mem_le_sum _ _ (List.mem_map_of_mem (f := fun x : Bytes × Bytes => (box x.1 x.2).length) hx)
  rw [box_len _ _ (h4 x hx)] at this
  omega

/-- The boxes of a payload. -/
theorem iso_boxes (l : List (Bytes × Bytes)) (b : Bytes) (hb : b = l.flatMap fun x => box x.1 x.2) (h4 : ∀ x ∈ l, x.1.length = 4)
    (h : b.length < 2 ^ 32) : boxes b = some l ∧ ∀ x ∈ l, Fits x := by
  subst hb
  exact ⟨boxes_flat l _ rfl (iso_fits_flat l h4 h), iso_fits_flat l h4 h⟩

theorem iso_len {x : Bytes × Bytes} (h : Fits x) : x.2.length < 2 ^ 32 := by have := h.2; omega

theorem iso_stbl_named (p : FileParts) (samples : List PMP4.Sample) (offs : List Nat) :
    only (fourcc 's' 't' 's' 'd') (isoStbl p samples offs) = some (encodeCount 1 ++ fileEntry p) ∧
    only (fourcc 's' 't' 't' 's') (isoStbl p samples offs) = some (encodeStts p.stts) ∧
    maybe (fourcc 'c' 't' 't' 's') (isoStbl p samples offs) = some (some (encodeCtts p.ctts)) ∧
    maybe (fourcc 's' 't' 's' 's') (isoStbl p samples offs) = some ((marshalSTSS samples).map encodeStss) ∧
    only (fourcc 's' 't' 's' 'c') (isoStbl p samples offs) = some (encodeStsc p.stsc) ∧
    only (fourcc 's' 't' 's' 'z') (isoStbl p samples offs) = some (PMP4File.encodeStsz (marshalSTSZ samples)) ∧
    only (fourcc 's' 't' 'c' 'o') (isoStbl p samples offs) = some (encodeStco offs) := by
  unfold isoStbl
  generalize encodeCount 1 ++ fileEntry p = a
  generalize encodeStts p.stts = b
  generalize encodeCtts p.ctts = c
  generalize encodeStsc p.stsc = d
  generalize PMP4File.encodeStsz (marshalSTSZ samples) = e
  generalize encodeStco offs = f
  cases marshalSTSS samples with
  | none => exact ⟨rfl, rfl, rfl, rfl, rfl, rfl, rfl⟩
  | some l =>
    simp only [Option.map_some]
    generalize encodeStss l = g
    exact ⟨rfl, rfl, rfl, rfl, rfl, rfl, rfl⟩

theorem iso_maybe {α : Type} (f : Bytes → Option α) (b : Bytes) : readMaybe f (some b) = (f b).map some := rfl

theorem iso_table (t : PMP4.Track) (p : FileParts) (offs : List Nat) (hf : IsoFits t p offs)
    (hc : FileCodec t.id p.codec p.info p.typ p.entry p.ctyp p.config) (hl : (fileStsd p ++ fileTables p t.samples offs).length < 2 ^ 32) :
    readTable 1 (fileStsd p ++ fileTables p t.samples offs) = some (isoTrack t p offs).toSampleTable := by
  obtain ⟨b4, f4⟩ := iso_boxes (isoStbl p t.samples offs) _ (iso_stbl_bytes p t.samples offs) (by
    unfold isoStbl
    cases marshalSTSS t.samples <;> simp only [Option.map_none, Option.map_some, Option.toList_none, Option.toList_some, List.nil_append,
      List.cons_append, List.forall_mem_cons] <;> simp <;> decide) hl
  have l5 := iso_len (f4 _ List.mem_cons_self)
  dsimp only at l5
  have hentry : listed (encodeCount 1 ++ fileEntry p) = some [(p.typ, p.entry ++ box p.ctyp p.config)] := by
    refine iso_listed _ _ (fits_of _ _ ?_ hc.reads.typ4)
    rw [List.length_append] at l5
    unfold fileEntry at l5
    omega
  obtain ⟨n1, n2, n3, n4, n5, n6, n7⟩ := iso_stbl_named p t.samples offs
  have hstss : readMaybe readWords ((marshalSTSS t.samples).map encodeStss) = some (marshalSTSS t.samples) := by
    cases hs : marshalSTSS t.samples with
    | none => rfl
    | some l =>
      show (readWords (encodeStss l)).map some = _
      unfold encodeStss
      rw [iso_words l (hf.stss l hs).1 (hf.stss l hs).2]; rfl
  have hctts : readMaybe readOffsets (some (encodeCtts p.ctts)) = some (some (p.ctts.map fun e => (e.count, e.value))) := by
    show (readOffsets (encodeCtts p.ctts)).map some = _
    rw [iso_ctts _ hf.ctts.1 hf.ctts.2]; rfl
  have hstco : readWords (encodeStco offs) = some offs := by unfold encodeStco; exact iso_words _ hf.stco.1 hf.stco.2
  have hdesc := iso_description p.codec p.info p.typ p.entry (box p.ctyp p.config) hc.entries
  have hs1 := iso_stts p.stts hf.stts.1 hf.stts.2
  have hs2 := iso_stsc p.stsc hf.stsc.1 hf.stsc.2
  have hs3 := iso_stsz (marshalSTSZ t.samples) hf.stsz.1 hf.stsz.2
  have hrefs : ∀ x ∈ [(p.typ, p.entry ++ box p.ctyp p.config)], 1 ≤ field x.2 48 16 ∧ field x.2 48 16 ≤ 1 := by
    intro x hx
    rw [List.mem_singleton.1 hx]
    dsimp only
    rw [hdesc]
    exact ⟨Nat.le_refl _, Nat.le_refl _⟩
  have hidx : ∀ x ∈ p.stsc.map fun e => (⟨e.firstChunk, e.samplesPerChunk, 1⟩ : ChunkRun), 1 ≤ x.description ∧
      x.description ≤ [(p.typ, p.entry ++ box p.ctyp p.config)].length := by
    intro x hx
    obtain ⟨e, _, rfl⟩ := List.mem_map.1 hx
    exact ⟨Nat.le_refl _, Nat.le_refl _⟩
  unfold isoTrack
  dsimp only
  unfold readTable
  generalize fileStsd p ++ fileTables p t.samples offs = b at *
  generalize isoStbl p t.samples offs = l at *
  generalize [(p.typ, p.entry ++ box p.ctyp p.config)] = ds at *
  generalize (p.stsc.map fun e => (⟨e.firstChunk, e.samplesPerChunk, 1⟩ : ChunkRun)) = r1 at *
  generalize (p.stts.map fun e => (e.count, e.value)) = r2 at *
  generalize (p.ctts.map fun e => (e.count, e.value)) = r3 at *
  generalize encodeCount 1 ++ fileEntry p = a1 at *
  generalize encodeStts p.stts = a2 at *
  generalize encodeCtts p.ctts = a3 at *
  generalize encodeStsc p.stsc = a4 at *
  generalize PMP4File.encodeStsz (marshalSTSZ t.samples) = a5 at *
  generalize encodeStco offs = a6 at *
  generalize (marshalSTSS t.samples).map encodeStss = a7 at *
  rw [b4, some_bind, n1, some_bind, hentry, some_bind, ensure_bind _ hrefs, n2, some_bind, hs1, some_bind, n3, some_bind, hctts, some_bind, n4,
    some_bind, hstss, some_bind, n5, some_bind, hs2, some_bind, ensure_bind _ hidx, n6, some_bind, hs3, some_bind, n7, some_bind, hstco, some_bind]

theorem iso_minf (t : PMP4.Track) (p : FileParts) (offs : List Nat) (hf : IsoFits t p offs)
    (hc : FileCodec t.id p.codec p.info p.typ p.entry p.ctyp p.config)
    (hl : (initMediaHeader p.codec ++ (initDinf ++ fileStbl p t.samples offs)).length < 2 ^ 32) :
    readMinf (initMediaHeader p.codec ++ (initDinf ++ fileStbl p t.samples offs)) =
      some ((isoTrack t p offs).mediaHeader, (isoTrack t p offs).toSampleTable) := by
  obtain ⟨mt, mb, hm1, hm2, hm3, hm4⟩ : ∃ mt mb, initMediaHeader p.codec = box mt mb ∧ mt.length = 4 ∧
      (∀ a b, readMediaHeader [(mt, mb), (typDinf, a), (typStbl, b)] = some (isoTrack t p offs).mediaHeader) ∧
      ∀ a b, only (fourcc 'd' 'i' 'n' 'f') [(mt, mb), (typDinf, a), (typStbl, b)] = some a ∧
        only (fourcc 's' 't' 'b' 'l') [(mt, mb), (typDinf, a), (typStbl, b)] = some b := by
    unfold initMediaHeader isoTrack
    dsimp only
    split
    · exact ⟨typVmhd, encodeVmhd, rfl, rfl, iso_vmhd, fun _ _ => ⟨rfl, rfl⟩⟩
    · exact ⟨typSmhd, encodeSmhd, rfl, rfl, iso_smhd, fun _ _ => ⟨rfl, rfl⟩⟩
  obtain ⟨b3, f3⟩ := iso_boxes [(mt, mb), (typDinf, box typDref (encodeCount 1 ++ box typUrl encodeUrl)),
    (typStbl, fileStsd p ++ fileTables p t.samples offs)] _
      (by unfold initDinf fileStbl; rw [hm1]; simp only [List.flatMap_cons, List.flatMap_nil, List.append_nil])
      (by simp only [List.forall_mem_cons]; exact ⟨hm2, rfl, rfl, fun _ h => by cases h⟩) hl
  have l4 := iso_len (f3 _ (List.mem_cons_of_mem _ (List.mem_cons_of_mem _ List.mem_cons_self)))
  have ld := iso_len (f3 _ (List.mem_cons_of_mem _ List.mem_cons_self))
  dsimp only at l4 ld
  obtain ⟨bd, _⟩ := iso_boxes [(typDref, encodeCount 1 ++ box typUrl encodeUrl)] _
      (by simp only [List.flatMap_cons, List.flatMap_nil, List.append_nil])
      (by simp only [List.forall_mem_cons]; exact ⟨rfl, fun _ h => by cases h⟩) ld
  have ht := iso_table t p offs hf hc l4
  have o7 : ∀ a, only (fourcc 'd' 'r' 'e' 'f') [(typDref, a)] = some a := fun _ => rfl
  have hr := iso_dinf
  generalize isoTrack t p offs = tr at *
  generalize initMediaHeader p.codec ++ (initDinf ++ fileStbl p t.samples offs) = b at *
  generalize fileStsd p ++ fileTables p t.samples offs = c at *
  generalize box typDref (encodeCount 1 ++ box typUrl encodeUrl) = d at *
  generalize encodeCount 1 ++ box typUrl encodeUrl = e at *
  unfold readMinf
  rw [b3, some_bind, hm3, some_bind, (hm4 _ _).1, some_bind, bd, some_bind, o7, some_bind, hr, some_bind, (hm4 _ _).2, some_bind, ht, some_bind]

theorem iso_media (t : PMP4.Track) (p : FileParts) (offs : List Nat) (hf : IsoFits t p offs)
    (hc : FileCodec t.id p.codec p.info p.typ p.entry p.ctyp p.config) (b : Bytes)
    (hb : b = box typMdhd (PMP4File.encodeMdhd t.timeScale (PMP4.mediaDuration t)) ++ (box typHdlr (hdlrPayload p.codec) ++
      fileMinf p t.samples offs)) (hl : b.length < 2 ^ 32) :
    readMedia b = some (isoTrack t p offs).toMedia := by
  obtain ⟨b2, f2⟩ := iso_boxes [(typMdhd, PMP4File.encodeMdhd t.timeScale (PMP4.mediaDuration t)), (typHdlr, hdlrPayload p.codec),
    (typMinf, initMediaHeader p.codec ++ (initDinf ++ fileStbl p t.samples offs))] b
      (by rw [hb]; unfold fileMinf; simp only [List.flatMap_cons, List.flatMap_nil, List.append_nil])
      (by simp only [List.forall_mem_cons]; exact ⟨rfl, rfl, rfl, fun _ h => by cases h⟩) hl
  have l3 := iso_len (f2 _ (List.mem_cons_of_mem _ (List.mem_cons_of_mem _ List.mem_cons_self)))
  have hd : mediaDuration t < 2 ^ 32 := by unfold mediaDuration; omega
  have hm := iso_mdhd t.timeScale (mediaDuration t) hf.timeScale hd _ rfl
  have hh : ((hdlrPayload p.codec).drop 8).take 4 = (isoTrack t p offs).handler := iso_hdlr p.codec
  have hn : (hdlrPayload p.codec).drop 24 = (isoTrack t p offs).name := (iso_hdlr_form p.codec).2
  have hy := (iso_hdlr_form p.codec).1
  have e3 : isoUndetermined = (isoTrack t p offs).language := rfl
  have ht := iso_minf t p offs hf hc l3
  have o4 : ∀ a b c, only (fourcc 'm' 'd' 'h' 'd') [(typMdhd, a), (typHdlr, b), (typMinf, c)] = some a := fun _ _ _ => rfl
  have o5 : ∀ a b c, only (fourcc 'h' 'd' 'l' 'r') [(typMdhd, a), (typHdlr, b), (typMinf, c)] = some b := fun _ _ _ => rfl
  have o6 : ∀ a b c, only (fourcc 'm' 'i' 'n' 'f') [(typMdhd, a), (typHdlr, b), (typMinf, c)] = some c := fun _ _ _ => rfl
  have e1 : t.timeScale = (isoTrack t p offs).timeScale := rfl
  have e2 : mediaDuration t = (isoTrack t p offs).mediaDuration := rfl
  clear hb hl l3 f2
  generalize isoTrack t p offs = tr at *
  generalize PMP4File.encodeMdhd t.timeScale (PMP4.mediaDuration t) = x at *
  generalize hdlrPayload p.codec = y at *
  generalize initMediaHeader p.codec ++ (initDinf ++ fileStbl p t.samples offs) = z at *
  unfold readMedia
  rw [b2, some_bind, o4, some_bind, ensure_bind _ ⟨hm.2.1, hm.1⟩, o5, some_bind, ensure_bind _ hy, o6, some_bind, ht, some_bind]
  dsimp only
  rw [hh, hn, hm.2.2.1, hm.2.2.2.1, hm.2.2.2.2, e1, e2, e3]

/-- The payload of a track. -/
def isoBody (t : PMP4.Track) (p : FileParts) (offs : List Nat) : Bytes :=
  box typTkhd (PMP4File.tkhdPayload t.id p.duration p.codec p.info) ++ (fileEdts p ++ fileMdia t p offs)

/-- A track that is written means what is given. -/
theorem iso_track (t : PMP4.Track) (p : FileParts) (offs : List Nat) (hf : IsoFits t p offs)
    (hc : FileCodec t.id p.codec p.info p.typ p.entry p.ctyp p.config) (hl : (fileTrak t p offs).length < 2 ^ 32) :
    readTrack (isoBody t p offs) = some (isoTrack t p offs) := by
  unfold isoBody
  unfold fileTrak at hl
  have hl0 := iso_len (fits_of _ _ hl rfl)
  dsimp only at hl0
  obtain ⟨b1, f1⟩ := iso_boxes [(typTkhd, PMP4File.tkhdPayload t.id p.duration p.codec p.info), (typEdts, box typElst (encodeElst p.elst)),
    (typMdia, box typMdhd (PMP4File.encodeMdhd t.timeScale (PMP4.mediaDuration t)) ++ (box typHdlr (hdlrPayload p.codec) ++
      fileMinf p t.samples offs))] _ (by unfold fileEdts fileMdia; simp only [List.flatMap_cons, List.flatMap_nil, List.append_nil])
      (by simp only [List.forall_mem_cons]; exact ⟨rfl, rfl, rfl, fun _ h => by cases h⟩) hl0
  have l2 := iso_len (f1 _ (List.mem_cons_of_mem _ (List.mem_cons_of_mem _ List.mem_cons_self)))
  have le := iso_len (f1 _ (List.mem_cons_of_mem _ List.mem_cons_self))
  dsimp only at l2 le
  obtain ⟨be, _⟩ := iso_boxes [(typElst, encodeElst p.elst)] _ (by simp only [List.flatMap_cons, List.flatMap_nil, List.append_nil])
      (by simp only [List.forall_mem_cons]; exact ⟨rfl, fun _ h => by cases h⟩) le
  have ht := iso_tkhd_payload t p offs hf.id hf.duration _ rfl
  have hm := iso_media t p offs hf hc _ rfl l2
  have he := iso_elst _ hf.elst.1 hf.elst.2
  have hedits : readMaybe readEdts (some (box typElst (encodeElst p.elst))) = some (isoTrack t p offs).edits := by
    have : readEdts (box typElst (encodeElst p.elst)) = some (p.elst.map fun e => ⟨e.segmentDuration, e.mediaTime, 65536⟩) := by
      have o : ∀ a, only (fourcc 'e' 'l' 's' 't') [(typElst, a)] = some a := fun _ => rfl
      unfold readEdts
      rw [be, some_bind, o, some_bind, he]
    rw [iso_maybe, this]; rfl
  have o1 : ∀ a b c, only (fourcc 't' 'k' 'h' 'd') [(typTkhd, a), (typEdts, b), (typMdia, c)] = some a := fun _ _ _ => rfl
  have o2 : ∀ a b c, maybe (fourcc 'e' 'd' 't' 's') [(typTkhd, a), (typEdts, b), (typMdia, c)] = some (some b) := fun _ _ _ => rfl
  have o3 : ∀ a b c, only (fourcc 'm' 'd' 'i' 'a') [(typTkhd, a), (typEdts, b), (typMdia, c)] = some c := fun _ _ _ => rfl
  have e1 : 3 = (isoTrack t p offs).flags := rfl
  have e2 : t.id = (isoTrack t p offs).id := rfl
  have e3 : p.duration = (isoTrack t p offs).duration := rfl
  clear hl hl0 f1 l2 le be he
  generalize isoTrack t p offs = tr at *
  generalize box typTkhd (PMP4File.tkhdPayload t.id p.duration p.codec p.info) ++ (fileEdts p ++ fileMdia t p offs) = w at *
  generalize PMP4File.tkhdPayload t.id p.duration p.codec p.info = x at *
  generalize box typElst (encodeElst p.elst) = y at *
  generalize box typMdhd (PMP4File.encodeMdhd t.timeScale (PMP4.mediaDuration t)) ++ (box typHdlr (hdlrPayload p.codec) ++
      fileMinf p t.samples offs) = z at *
  unfold readTrack
  rw [b1, some_bind, o1, some_bind, ensure_bind _ ⟨ht.2.1, ht.1⟩, o2, some_bind, hedits, some_bind, o3, some_bind, hm, some_bind, ht.2.2.1,
    ht.2.2.2.1, ht.2.2.2.2.1, ht.2.2.2.2.2.1, ht.2.2.2.2.2.2.1, ht.2.2.2.2.2.2.2.1, ht.2.2.2.2.2.2.2.2.1,
    ht.2.2.2.2.2.2.2.2.2, e1, e2, e3]

/-! ## Movies -/

theorem iso_mvhd (d n : Nat) (hd : d < 2 ^ 32) (hn : n < 2 ^ 32) (b : Bytes) (hb : b = PMP4File.encodeMvhd d n) :
    b.length = 100 ∧ field b 0 8 = 0 ∧ field b 96 32 = 1000 ∧ field b 128 32 = d ∧ field b 160 32 = 65536 ∧ field b 192 16 = 256 ∧
      field b 768 32 = n ∧ matrix b 288 = isoUnity := by
  have : PMP4File.encodeMvhd d n = pack [(8, 0), (24, 0), (32, 0), (32, 0), (32, 1000), (32, d), (32, 65536), (16, 256), (16, 0), (64, 0),
      (32, 0x10000), (32, 0), (32, 0), (32, 0), (32, 0x10000), (32, 0), (32, 0), (32, 0), (32, 0x40000000), (192, 0), (32, n)] := by
    unfold PMP4File.encodeMvhd unity
    simp only [List.cons_append, List.nil_append]
  subst hb
  rw [this]
  exact ⟨by rw [pack_length]; simp [widths], field_pack' _ 0 8 0 (by simp [widths]) (by rfl) (by decide),
    field_pack' _ 96 32 1000 (by simp [widths]) (by rfl) (by decide), field_pack' _ 128 32 d (by simp [widths]) (by rfl) hd,
    field_pack' _ 160 32 65536 (by simp [widths]) (by rfl) (by decide), field_pack' _ 192 16 256 (by simp [widths]) (by rfl) (by decide),
    field_pack' _ 768 32 n (by simp [widths]) (by rfl) hn, by
    unfold matrix
    rw [field_pack' _ 288 32 65536 (by simp [widths]) (by rfl) (by decide), field_pack' _ (288 + 32) 32 0 (by simp [widths]) (by rfl) (by decide),
      field_pack' _ (288 + 64) 32 0 (by simp [widths]) (by rfl) (by decide), field_pack' _ (288 + 96) 32 0 (by simp [widths]) (by rfl) (by decide),
      field_pack' _ (288 + 128) 32 65536 (by simp [widths]) (by rfl) (by decide), field_pack' _ (288 + 160) 32 0 (by simp [widths]) (by rfl) (by decide),
      field_pack' _ (288 + 192) 32 0 (by simp [widths]) (by rfl) (by decide), field_pack' _ (288 + 224) 32 0 (by simp [widths]) (by rfl) (by decide),
      field_pack' _ (288 + 256) 32 1073741824 (by simp [widths]) (by rfl) (by decide)]
    rfl⟩

theorem iso_all {α β : Type} (f : α → Option β) (g : α → β) (l : List α) (h : ∀ a ∈ l, f a = some (g a)) : all f l = some (l.map g) := by
  induction l with
  | nil => rfl
  | cons a l ih =>
    unfold all
    rw [h a List.mem_cons_self, some_bind, ih fun b hb => h b (List.mem_cons_of_mem _ hb), some_bind]
    rfl

theorem iso_named_traks (l : List Bytes) (b : Bytes) :
    named (fourcc 't' 'r' 'a' 'k') ((typMvhd, b) :: l.map fun x => (typTrak, x)) = l ∧
    only (fourcc 'm' 'v' 'h' 'd') ((typMvhd, b) :: l.map fun x => (typTrak, x)) = some b := by
  have h1 : (typMvhd == fourcc 't' 'r' 'a' 'k') = false := by decide
  have h2 : (typTrak == fourcc 't' 'r' 'a' 'k') = true := by decide
  have h3 : (typMvhd == fourcc 'm' 'v' 'h' 'd') = true := by decide
  have h4 : (typTrak == fourcc 'm' 'v' 'h' 'd') = false := by decide
  constructor
  · unfold named
    rw [List.filter_cons_of_neg (by rw [h1]; exact Bool.false_ne_true)]
    induction l with
    | nil => rfl
    | cons x l ih => rw [List.map_cons, List.filter_cons_of_pos (by exact h2), List.map_cons, ih]
  · unfold only named
    rw [List.filter_cons_of_pos (by exact h3)]
    have : (l.map fun x => (typTrak, x)).filter (fun x => x.1 == fourcc 'm' 'v' 'h' 'd') = [] := by
      induction l with
      | nil => rfl
      | cons x l ih => rw [List.map_cons, List.filter_cons_of_neg (by rw [h4]; exact Bool.false_ne_true), ih]
    rw [this]
    rfl

theorem iso_presentation (t : PMP4.Track) (d : Nat) (h : PMP4.presentationDuration t = .ok d) : d < 2 ^ 32 := by
  unfold PMP4.presentationDuration at h
  obtain ⟨q, _, h⟩ := Res.bind_eq_ok.1 h
  cases h
  omega

theorem iso_edits (t : PMP4.Track) (l : List ElstEntry) (h : marshalELST t = .ok l) :
    l.length < 2 ^ 32 ∧ ∀ e ∈ l, e.segmentDuration < 2 ^ 32 ∧ -(2 ^ 31) ≤ e.mediaTime ∧ e.mediaTime < 2 ^ 31 := by
  unfold marshalELST at h
  dsimp only at h
  split at h
  · obtain ⟨a, _, h⟩ := Res.bind_eq_ok.1 h
    obtain ⟨b, _, h⟩ := Res.bind_eq_ok.1 h
    cases h
    refine ⟨by simp, fun e he => ?_⟩
    simp only [List.mem_cons, List.not_mem_nil, or_false] at he
    rcases he with rfl | rfl <;> dsimp only <;> omega
  · obtain ⟨a, _, h⟩ := Res.bind_eq_ok.1 h
    cases h
    refine ⟨by simp, fun e he => ?_⟩
    rw [List.mem_singleton.1 he]
    dsimp only
    unfold Bits.wrapInt32
    omega

/-- What is written fits the fields of the tables. -/
theorem iso_fits (t : PMP4File.Track) (p : FileParts) (d : Nat) (w : FileWritten t p) (hw : Writable t.toTrack) (hty : FileTyped t.toTrack)
    (hb : ∀ sa ∈ t.samples, sa.offset + sa.payloadSize + d < 2 ^ 32) : IsoFits t.toTrack p (shiftChunks d (marshalSTCO t.samples)) := by
  have hlen : t.samples.length + 1 < 2 ^ 32 := by
    have := hw.count
    have : maxSamples + 1 < 2 ^ 32 := by decide
    generalize maxSamples = m at *; omega
  refine ⟨hw.id, hty.timeScale, iso_presentation _ _ w.duration, iso_edits _ _ w.elst, ?_, ?_, ?_, ?_, ?_, ?_⟩
  · obtain ⟨r, e, h2, _, h3⟩ := C45_stts t.samples (by omega)
    rw [w.stts] at e
    cases e
    obtain ⟨g1, g2⟩ := mp4t_runs p.stts h3
    rw [h2, List.length_map] at g1 g2
    refine ⟨by omega, fun e he => ?_⟩
    obtain ⟨k1, k2⟩ := g2 e he
    obtain ⟨sa, hsa, hv⟩ := List.mem_map.1 k2
    have := hty.duration sa hsa
    exact ⟨by omega, by omega⟩
  · obtain ⟨r, e, h2, _, h3⟩ := C45_ctts t.samples (by omega)
    rw [w.ctts] at e
    cases e
    obtain ⟨g1, g2⟩ := mp4t_runs p.ctts h3
    rw [h2, List.length_map] at g1 g2
    refine ⟨by omega, fun e he => ?_⟩
    obtain ⟨k1, k2⟩ := g2 e he
    obtain ⟨sa, hsa, hv⟩ := List.mem_map.1 k2
    have := hw.pts sa hsa
    exact ⟨by omega, by omega, by omega⟩
  · intro l hl
    unfold marshalSTSS at hl
    split at hl
    · cases hl
    · cases hl
      obtain ⟨g1, g2⟩ := mp4t_stss_bound t.samples 0 (by omega)
      exact ⟨by omega, g2⟩
  · obtain ⟨g1, g2⟩ := mp4t_stsc_bound t.samples p.stsc hlen w.stsc
    exact ⟨by omega, g2⟩
  · unfold marshalSTSZ
    refine ⟨by rw [List.length_map]; omega, fun n hn => ?_⟩
    obtain ⟨sa, hsa, rfl⟩ := List.mem_map.1 hn
    have := hb sa hsa
    omega
  · have := mp4t_stco_length t.samples
    refine ⟨by unfold shiftChunks; rw [List.length_map]; omega, fun n hn => ?_⟩
    unfold shiftChunks at hn
    obtain ⟨o, _, rfl⟩ := List.mem_map.1 hn
    omega

/-- What is written for a track, and where its samples are. -/
structure IsoPlaced (file : Bytes) (d : Nat) (x : PMP4File.Track × FileParts) (t : PMP4File.Track) : Prop where
  same : ({ x.1.toTrack with samples := x.1.samples.map unplaced } : PMP4.Track) = { t.toTrack with samples := t.samples.map unplaced }
  codec : x.1.codec = t.codec
  written : FileWritten x.1 x.2
  writable : Writable x.1.toTrack
  typed : FileTyped x.1.toTrack
  placed : ∀ sa ∈ x.1.samples, sa.offset + sa.payloadSize + d ≤ file.length ∧ region file (sa.offset + d) sa.payloadSize = sa.payload

/-- The movie in terms of what is written. -/
def isoMovie (d : Nat) (xs : List (PMP4File.Track × FileParts)) : Movie :=
  { timeScale := 1000, duration := (xs.map (·.2.duration)).foldl max 0, rate := 65536, volume := 256, matrix := isoUnity, nextTrackID := xs.length + 1,
    tracks := xs.map fun x => isoTrack x.1.toTrack x.2 (shiftChunks d (marshalSTCO x.1.samples)) }

theorem iso_foldl_max (l : List Nat) (m : Nat) : ∀ d, d < m → (∀ x ∈ l, x < m) → l.foldl max d < m := by
  induction l with
  | nil => intro d hd _; exact hd
  | cons x l ih =>
    intro d hd h
    rw [List.foldl_cons]
    exact ih _ (by have := h x List.mem_cons_self; omega) fun y hy => h y (List.mem_cons_of_mem _ hy)

theorem iso_movie (ts : List PMP4File.Track) (file : Bytes) (hg : ∀ t ∈ ts, FileGood t) (h : PMP4File.marshal ts = .ok file)
    (hl : file.length < 2 ^ 32) :
    ∃ (xs : List (PMP4File.Track × FileParts)) (pre data : Bytes), file = pre ++ box (fourcc 'm' 'd' 'a' 't') data ∧
      readMovie file = some (isoMovie (pre.length + 8) xs) ∧ xs.length = ts.length ∧
      ∀ (i : Nat) x t, xs[i]? = some x → ts[i]? = some t → IsoPlaced file (pre.length + 8) x t := by
  unfold PMP4File.marshal at h
  obtain ⟨L, hL, h⟩ := Res.bind_eq_ok.1 h
  obtain ⟨header, hh, h⟩ := Res.bind_eq_ok.1 h
  cases h
  have hw : ∀ t ∈ ts.map (·.toTrack), Writable t := by
    intro t ht
    obtain ⟨u, hu, rfl⟩ := List.mem_map.1 ht
    exact (hg u hu).writable
  have hdata := file_data_length _ hw L hL
  have hl' := hl
  rw [List.length_append, hdata] at hl'
  obtain ⟨L', e1, hint, h3, h4, h5⟩ := C48_interleaving (ts.map (·.toTrack)) (fun t ht _ => (hw t ht).timeScale) (by omega)
  rw [hL] at e1
  cases e1
  have hwL := pmp4_writable_layout _ L hw h3
  have hpay := pmp4_payload_layout L hwL hint
  have hsum := pmp4_sorted_sum _ L hint h3
  have hlen : L.tracks.length = ts.length := by
    have := congrArg List.length h3
    simpa only [List.length_map] using this
  obtain ⟨z1, z2⟩ := file_zipWith ts L.tracks hlen
  have hty : ∀ t ∈ L.tracks, FileTyped t := by
    intro t ht
    have hm := List.mem_map_of_mem (f := fun t : PMP4.Track => { t with samples := t.samples.map unplaced }) ht
    rw [h3, List.map_map] at hm
    obtain ⟨u, hu, he⟩ := List.mem_map.mp hm
    have g := hg u hu
    have hs : u.samples.map unplaced = t.samples.map unplaced := congrArg PMP4.Track.samples he
    refine ⟨?_, fun sa hsa => ?_⟩
    · have : u.timeScale = t.timeScale := by have := congrArg PMP4.Track.timeScale he; exact this
      rw [← this]; exact g.timeScale
    · have := List.mem_map_of_mem (f := unplaced) hsa
      rw [← hs] at this
      obtain ⟨sb, hsb, he⟩ := List.mem_map.mp this
      have : sb.duration = sa.duration := by have := congrArg PMP4.Sample.duration he; exact this
      rw [← this]; exact g.duration sb hsb
  have hk : ∀ t ∈ placed ts L.tracks, ∀ c, t.codec = some c → Kept c := by
    intro t ht c hc
    have := List.mem_map_of_mem (f := (·.codec)) ht
    rw [z2] at this
    obtain ⟨u, hu, he⟩ := List.mem_map.1 this
    exact (hg u hu).codec c (he.trans hc)
  obtain ⟨xs, D, k1, k2, kD, k3, k4⟩ := file_header _ header hk hh
  have hxs : xs.map (·.1.toTrack) = L.tracks := by
    rw [← z1, ← k1, List.map_map, ]; rfl
  have hplen : (placed ts L.tracks).length = xs.length := by rw [← k1, List.length_map]
  have hxlen : xs.length = ts.length := by
    rw [← hlen, ← hxs, List.length_map]
  have hmem : ∀ x ∈ xs, x.1.toTrack ∈ L.tracks := fun x hx => by
    rw [← hxs]; exact List.mem_map_of_mem (f := fun x : PMP4File.Track × FileParts => x.1.toTrack) hx
  have hflat : L.dataSize = (L.sorted.flatMap (·.payload)).length := by
    rw [h5, hsum, List.length_flatMap]
    congr 1
    exact (List.map_congr_left hpay).symm
  have hmd : PMP4.marshalMdat L.dataSize L.sorted = box (fourcc 'm' 'd' 'a' 't') (L.sorted.flatMap (·.payload)) :=
    file_mdat_box _ _ hflat (by omega)
  have hat : ∀ x ∈ xs, ∀ sa ∈ x.1.samples, sa.offset + sa.payloadSize ≤ L.dataSize ∧
      region (header ++ PMP4.marshalMdat L.dataSize L.sorted) (sa.offset + (header.length + 8)) sa.payloadSize = sa.payload := by
    intro x hx sa hsa
    have hin := pmp4_interleaving_mem hint x.1.samples (List.mem_map.2 ⟨x.1.toTrack, hmem x hx, rfl⟩) sa hsa
    refine ⟨?_, ?_⟩
    · have := (pmp4_payload_at L.sorted 0 [0, 0, 0, 0, 0, 0, 0, 0] rfl hpay h4 sa hin).2
      omega
    · have := (pmp4_payload_at L.sorted 0 (beBytes 4 (8 + (L.sorted.flatMap (·.payload)).length) ++ fourcc 'm' 'd' 'a' 't')
        (by rw [List.length_append, beBytes_length]; rfl) hpay h4 sa hin).1
      unfold region
      rw [show sa.offset + (header.length + 8) = header.length + (sa.offset + 8) by omega, ← List.drop_drop, List.drop_left, hmd]
      unfold box
      exact this
  have hb : ∀ x ∈ xs, ∀ sa ∈ x.1.samples, sa.offset + sa.payloadSize + (header.length + 8) < 2 ^ 32 := by
    intro x hx sa hsa
    have := (hat x hx sa hsa).1
    omega
  refine ⟨xs, header, L.sorted.flatMap (·.payload), by rw [hmd], ?_, hxlen, ?_⟩
  · -- the boxes of the file
    have hmfit := fits_of _ _ k3 rfl
    have hfile := boxes_flat [(typFtyp, PMP4File.encodeFtyp), (typMoov, box typMvhd (PMP4File.encodeMvhd D ((placed ts L.tracks).length + 1)) ++
      fileTraks (fun l => shiftChunks (header.length + 8) (marshalSTCO l)) xs), (fourcc 'm' 'd' 'a' 't', L.sorted.flatMap (·.payload))]
      (header ++ PMP4.marshalMdat L.dataSize L.sorted) (by
        rw [hmd]
        conv => lhs; rw [k4]
        simp only [List.flatMap_cons, List.flatMap_nil, List.append_nil, List.append_assoc])
      (by
        simp only [List.forall_mem_cons]
        exact ⟨⟨rfl, by dsimp only; rw [file_ftyp_length]; decide⟩, hmfit, ⟨rfl, by dsimp only; rw [← hflat]; omega⟩, fun _ h => by cases h⟩)
    obtain ⟨hmoov, hfits⟩ := iso_boxes ((typMvhd, PMP4File.encodeMvhd D ((placed ts L.tracks).length + 1)) ::
      (xs.map fun x => isoBody x.1.toTrack x.2 (shiftChunks (header.length + 8) (marshalSTCO x.1.samples))).map fun x => (typTrak, x)) _ (by
        rw [List.flatMap_cons, List.map_map, List.flatMap_map]; rfl) (by
        simp only [List.forall_mem_cons]
        refine ⟨rfl, fun x hx => ?_⟩
        obtain ⟨y, _, rfl⟩ := List.mem_map.1 hx
        rfl) (iso_len hmfit)
    have hcount : xs.length + 1 < 2 ^ 32 := by
      have hx := iso_len hmfit
      dsimp only at hx
      rw [List.length_append] at hx
      have : ∀ l : List (PMP4File.Track × FileParts), l.length ≤ (fileTraks (fun l => shiftChunks (header.length + 8) (marshalSTCO l)) l).length := by
        intro l
        unfold fileTraks
        induction l with
        | nil => exact Nat.le_refl _
        | cons y l ih =>
          rw [List.flatMap_cons, List.length_append, List.length_cons]
          unfold fileTrak at ih ⊢
          rw [box_len _ _ rfl]
          omega
      have := this xs
      rw [box_len _ _ rfl, file_mvhd_length] at hx
      omega
    have hD : D < 2 ^ 32 := by
      rw [kD]
      refine iso_foldl_max _ _ 0 (by decide) fun d hd => ?_
      obtain ⟨x, hx, rfl⟩ := List.mem_map.1 hd
      exact iso_presentation _ _ (k2 x hx).duration
    have hmv := iso_mvhd D ((placed ts L.tracks).length + 1) hD (by rw [hplen]; exact hcount) _ rfl
    obtain ⟨hn1, hn2⟩ := iso_named_traks (xs.map fun x => isoBody x.1.toTrack x.2 (shiftChunks (header.length + 8) (marshalSTCO x.1.samples)))
      (PMP4File.encodeMvhd D ((placed ts L.tracks).length + 1))
    have hall : all readTrack (xs.map fun x => isoBody x.1.toTrack x.2 (shiftChunks (header.length + 8) (marshalSTCO x.1.samples))) =
        some (xs.map fun x => isoTrack x.1.toTrack x.2 (shiftChunks (header.length + 8) (marshalSTCO x.1.samples))) := by
      have : ∀ l : List (PMP4File.Track × FileParts), (∀ x ∈ l, readTrack (isoBody x.1.toTrack x.2 (shiftChunks (header.length + 8)
          (marshalSTCO x.1.samples))) = some (isoTrack x.1.toTrack x.2 (shiftChunks (header.length + 8) (marshalSTCO x.1.samples)))) →
          all readTrack (l.map fun x => isoBody x.1.toTrack x.2 (shiftChunks (header.length + 8) (marshalSTCO x.1.samples))) =
            some (l.map fun x => isoTrack x.1.toTrack x.2 (shiftChunks (header.length + 8) (marshalSTCO x.1.samples))) := by
        intro l
        induction l with
        | nil => intro _; rfl
        | cons y l ih =>
          intro hy
          rw [List.map_cons, List.map_cons]
          unfold all
          rw [hy y List.mem_cons_self, some_bind, ih fun b hb => hy b (List.mem_cons_of_mem _ hb), some_bind]
      refine this xs fun x hx => iso_track _ _ _ (iso_fits x.1 x.2 _ (k2 x hx) (hwL _ (hmem x hx)) (hty _ (hmem x hx)) (hb x hx)) (k2 x hx).written ?_
      have := hfits (typTrak, isoBody x.1.toTrack x.2 (shiftChunks (header.length + 8) (marshalSTCO x.1.samples)))
        (List.mem_cons_of_mem _ (List.mem_map.2 ⟨_, List.mem_map.2 ⟨x, hx, rfl⟩, rfl⟩))
      have := this.2
      show (box typTrak (isoBody _ _ _)).length < _
      rw [box_len _ _ rfl]
      exact this
    have o1 : ∀ a b c, only (fourcc 'm' 'o' 'o' 'v') [(typFtyp, a), (typMoov, b), (fourcc 'm' 'd' 'a' 't', c)] = some b := fun _ _ _ => rfl
    have hd1 : ∀ a b c, ([(typFtyp, a), (typMoov, b), (fourcc 'm' 'd' 'a' 't', c)] : List (Bytes × Bytes)).head?.map (·.1) =
      some (fourcc 'f' 't' 'y' 'p') := fun _ _ _ => rfl
    unfold isoMovie
    rw [← kD]
    rw [hplen] at *
    generalize header ++ PMP4.marshalMdat L.dataSize L.sorted = F at *
    generalize box typMvhd (PMP4File.encodeMvhd D (xs.length + 1)) ++
      fileTraks (fun l => shiftChunks (header.length + 8) (marshalSTCO l)) xs = M at *
    generalize PMP4File.encodeMvhd D (xs.length + 1) = V at *
    unfold readMovie
    rw [hfile, some_bind, ensure_bind _ (hd1 _ _ _), o1, some_bind, hmoov, some_bind, hn2, some_bind, ensure_bind _ ⟨hmv.2.1, hmv.1⟩, hn1, hall,
      some_bind, hmv.2.2.1, hmv.2.2.2.1, hmv.2.2.2.2.1, hmv.2.2.2.2.2.1, hmv.2.2.2.2.2.2.1, hmv.2.2.2.2.2.2.2]
  · intro i x t hx ht
    have hx' := List.mem_of_getElem? hx
    refine ⟨?_, ?_, k2 x hx', hwL _ (hmem x hx'), hty _ (hmem x hx'), fun sa hsa => ⟨?_, (hat x hx' sa hsa).2⟩⟩
    · have e := congrArg (·[i]?) h3
      rw [← hxs] at e
      simp only [List.map_map, List.getElem?_map, hx, ht, Option.map_some, Option.some.injEq, Function.comp_apply] at e
      exact e
    · have e := congrArg (·[i]?) z2
      rw [← k1] at e
      simp only [List.map_map, List.getElem?_map, hx, ht, Option.map_some, Option.some.injEq, Function.comp_apply] at e
      exact e
    · have := (hat x hx' sa hsa).1
      rw [List.length_append, hmd, box_len _ _ rfl, ← hflat]
      omega

end Verif.Props
