import Verif.Props.PMP4FileWrite
import Verif.Props.PMP4FileSamples

/-!
# C81: MP4 files survive a round trip
-/

namespace Verif.Props
open PMP4File MP4Codec MP4Box MP4Writer
open FMP4Init (typFtyp typMoov typMvhd typTrak typTkhd typEdts typMdia typMdhd typHdlr typMinf typStbl typStsd typStts typStsc typStsz typStco
  typVmhd typSmhd typDinf hdlrPayload isoFields Handler Fields)
open FMP4 (full rewriteBox_full box_length)
open PMP4 (Run StscEntry ElstEntry Event RTrack PReader State readEvent readEvents marshalSTTS marshalCTTS marshalSTSS marshalSTSC marshalSTSZ
  marshalSTCO marshalELST trackEvents tracksEvents mediaDuration shiftChunks maxSamples)
open Spec (beBytes)
open Spec.FMP4 (box)
open ByteR (beBytes_length)
open Readers (SBuf)

/-- Numbers that fit their types in Go. -/
structure FileTyped (t : PMP4.Track) : Prop where
  timeScale : t.timeScale < 2 ^ 32
  duration : ∀ sa ∈ t.samples, sa.duration < 2 ^ 32

/-! ## Boxes -/

/-- A box that is not expanded, outside of the codec boxes. -/
theorem file_leaf (typ body : Bytes) (depth : Nat) (r r' : PMP4File.Reader) (e : Event) (ht : typ.length = 4)
    (hl : (box typ body).length < 2 ^ 32) (hs : r.base.state ≠ .readingCodec) (hd : decodeEvent typ body = .ok e) (hx : expands e = false)
    (hr : r.step e = .ok r') : Reads isoFields PMP4File.handle (box typ body) depth r r' := by
  refine tree_leaf ht (by rwa [box_length _ _ ht] at hl) fun bi expand e => ?_
  unfold PMP4File.handle
  rw [if_neg hs, e]
  unfold PMP4File.Reader.readBox
  rw [hd, Res.bind_ok, hr, Res.bind_ok, hx]
  rfl

/-- A box of boxes. -/
theorem file_node (typ body : Bytes) (depth : Nat) (r r1 r' : PMP4File.Reader) (e : Event) (ht : typ.length = 4)
    (hl : (box typ body).length < 2 ^ 32) (hf : ∀ b, isoFields typ b = some 0) (hs : r.base.state ≠ .readingCodec)
    (hd : ∀ b, decodeEvent typ b = .ok e) (hx : expands e = true) (hr : r.step e = .ok r1)
    (hb : Reads isoFields PMP4File.handle body (depth + 1) r1 r') : Reads isoFields PMP4File.handle (box typ body) depth r r' := by
  refine tree_node0 ht (by rwa [box_length _ _ ht] at hl) hf (fun bi b expand e => ?_) hb
  unfold PMP4File.handle
  rw [if_neg hs, e]
  unfold PMP4File.Reader.readBox
  rw [hd, Res.bind_ok, hr, Res.bind_ok, hx]
  rfl

/-- A table with its bytes. -/
structure FileTable where
  typ : Bytes
  body : Bytes
  table : PMP4.Box

/-- The bytes of a table are those of its box. -/
structure FileTable.Good (x : FileTable) : Prop where
  typ4 : x.typ.length = 4
  event : decodeEvent x.typ x.body = .ok (.table x.table)

theorem file_table_step (p : PReader) (b : PMP4.Box) (p' : PReader) (h : readEvent p (.table b) = .ok p') : p.state ≠ .readingCodec := by
  intro e
  unfold readEvent at h
  dsimp only at h
  rw [if_pos (by rw [e]; simp)] at h
  cases h

theorem file_read_tables (l : List FileTable) : ∀ (depth : Nat) (r : PMP4File.Reader) (p' : PReader) (_ : ∀ x ∈ l, x.Good)
    (_ : (l.flatMap fun x => box x.typ x.body).length < 2 ^ 32) (_ : readEvents (l.map fun x => Event.table x.table) r.base = .ok p'),
    Reads isoFields PMP4File.handle (l.flatMap fun x => box x.typ x.body) depth r { r with base := p' } := by
  induction l with
  | nil =>
    intro depth r p' _ _ h
    cases h
    exact tree_nil _ _ _ _
  | cons x l ih =>
    intro depth r p' hg hl h
    rw [List.flatMap_cons, List.length_append] at hl
    rw [List.flatMap_cons]
    obtain ⟨p1, h1, h⟩ := Res.bind_eq_ok.1 h
    have gx := hg x List.mem_cons_self
    refine tree_append (r' := { r with base := p1 }) ?_ (ih depth { r with base := p1 } p' (fun y hy => hg y (List.mem_cons_of_mem _ hy)) (by omega) h)
    refine file_leaf x.typ x.body depth r _ _ gx.typ4 (by omega) (file_table_step _ _ _ h1) gx.event rfl ?_
    unfold PMP4File.Reader.step
    rw [h1, Res.bind_ok]

/-- The first table ends the codec boxes. -/
theorem file_first_table (x : FileTable) (r : PMP4File.Reader) (cr : CodecReader) (c : Codec) (p1 p' : PReader) (hg : x.Good)
    (hl : (box x.typ x.body).length < 2 ^ 32) (hs : r.base.state = .readingCodec) (hc : r.codecReader = some cr) (h1 : cr.codec = some c)
    (h2 : cr.state = .waitingAdditional) (e1 : readEvent r.base (.codec true) = .ok p1) (e2 : readEvent p1 (.table x.table) = .ok p') :
    Reads isoFields PMP4File.handle (box x.typ x.body) 6 r ⟨p', some cr, some c, r.codecs⟩ := by
  refine tree_leaf hg.typ4 (by rwa [box_length _ _ hg.typ4] at hl) fun bi expand e => ?_
  unfold PMP4File.handle
  rw [if_pos hs, hc]
  unfold deref
  rw [Res.bind_ok]
  unfold CodecReader.read
  rw [if_pos (by decide), h2, if_neg (by simp), Res.bind_ok]
  unfold PMP4File.Reader.afterCodec PMP4File.Reader.codecEnded
  dsimp only
  rw [h1]
  show ((readEvent r.base (.codec true) >>= _) >>= _) = _
  rw [e1, Res.bind_ok, Res.bind_ok]
  unfold PMP4File.Reader.readBox
  rw [e, hg.event, Res.bind_ok]
  unfold PMP4File.Reader.step
  dsimp only
  rw [e2, Res.bind_ok, Res.bind_ok, hc]
  rfl

/-! ## Codec boxes -/

theorem file_entry (p : FileParts) (c : Codec) (r : PMP4File.Reader) (hs : r.base.state = .readingCodec) (hc : r.codecReader = some {})
    (hr : CodecReads p.typ p.entry p.ctyp p.config c) (hl : (fileEntry p).length < 2 ^ 32) :
    ∃ cr : CodecReader, cr.codec = some c ∧ cr.state = .waitingAdditional ∧
      Reads isoFields PMP4File.handle (fileEntry p) 7 r { r with codecReader := some cr } := by
  obtain ⟨h1, h2, h3, cr, h4, h5⟩ := hr
  unfold fileEntry at hl ⊢
  have hl' := hl
  rw [box_length _ _ h1, List.length_append] at hl'
  refine ⟨{ cr with codec := some c, state := .waitingAdditional }, rfl, rfl, ?_⟩
  refine tree_node h1 (by rwa [box_length _ _ h1] at hl) (h3 _) (fun bi expand e => ?_) ?_ (r1 := { r with codecReader := some cr })
  · unfold PMP4File.handle
    rw [if_pos hs, hc]
    unfold deref
    rw [Res.bind_ok]
    unfold CodecReader.read
    rw [if_neg (by decide), e, h4, Res.bind_ok]
    rfl
  · refine tree_leaf h2 ?_ fun bi expand e => ?_
    · rw [box_length _ _ h2] at hl'; omega
    unfold PMP4File.handle
    rw [if_pos (show ({ r with codecReader := some cr } : PMP4File.Reader).base.state = .readingCodec from hs)]
    show (deref (some cr) >>= _) = _
    unfold deref
    rw [Res.bind_ok]
    unfold CodecReader.read
    rw [if_neg (by decide), e, h5]
    rfl

/-! ## Tables -/

/-- The tables that are written for samples, with their bytes. -/
def fileTableList (d : Nat) (p : FileParts) (samples : List PMP4.Sample) : List FileTable :=
  ((marshalSTSS samples).map fun l => (⟨typStss, encodeStss l, .stss l⟩ : FileTable)).toList ++
    [⟨typCtts, encodeCtts p.ctts, .ctts p.ctts⟩, ⟨typStsc, encodeStsc p.stsc, .stsc p.stsc⟩,
      ⟨typStsz, PMP4File.encodeStsz (marshalSTSZ samples), .stsz (marshalSTSZ samples)⟩,
      ⟨typStco, encodeStco (shiftChunks d (marshalSTCO samples)), .stco (shiftChunks d (marshalSTCO samples))⟩]

theorem file_table_bytes (d : Nat) (p : FileParts) (samples : List PMP4.Sample) :
    fileTables p samples (shiftChunks d (marshalSTCO samples)) =
      box typStts (encodeStts p.stts) ++ (fileTableList d p samples).flatMap fun x => box x.typ x.body := by
  unfold fileTables fileTableList fileStss
  cases marshalSTSS samples <;>
    simp only [Option.map_none, Option.map_some, Option.toList_none, Option.toList_some, List.nil_append, List.flatMap_append, List.flatMap_cons,
      List.flatMap_nil, List.append_nil]

theorem file_table_events (d : Nat) (p : FileParts) (samples : List PMP4.Sample) (h1 : marshalSTTS samples = .ok p.stts)
    (h2 : marshalCTTS samples = .ok p.ctts) (h3 : marshalSTSC samples = .ok p.stsc) :
    PMP4.writeBoxes d samples = .ok (.stts p.stts :: (fileTableList d p samples).map (·.table)) := by
  unfold PMP4.writeBoxes
  rw [h1, Res.bind_ok, h2, Res.bind_ok, h3, Res.bind_ok]
  unfold fileTableList
  cases marshalSTSS samples <;> rfl

theorem file_stts_good (p : FileParts) (samples : List PMP4.Sample) (hlen : samples.length + 1 < 2 ^ 32)
    (hdur : ∀ sa ∈ samples, sa.duration < 2 ^ 32) (h1 : marshalSTTS samples = .ok p.stts) :
    (⟨typStts, encodeStts p.stts, .stts p.stts⟩ : FileTable).Good := by
  refine ⟨rfl, ?_⟩
  obtain ⟨r, e, h2, _, h3⟩ := C45_stts samples (by omega)
  rw [h1] at e
  cases e
  obtain ⟨g1, g2⟩ := mp4t_runs p.stts h3
  rw [h2, List.length_map] at g1 g2
  show (decodeStts (encodeStts p.stts) >>= _) = _
  rw [mp4t_stts _ (by omega) fun e he => ?_, Res.bind_ok]
  obtain ⟨k1, k2⟩ := g2 e he
  obtain ⟨sa, hsa, hv⟩ := List.mem_map.1 k2
  have := hdur sa hsa
  exact ⟨by omega, by omega⟩

theorem file_tables_good (d : Nat) (p : FileParts) (samples : List PMP4.Sample) (hlen : samples.length + 1 < 2 ^ 32)
    (hsize : ∀ sa ∈ samples, sa.payloadSize < 2 ^ 32) (hpts : ∀ sa ∈ samples, -(2 ^ 31) ≤ sa.ptsOffset ∧ sa.ptsOffset < 2 ^ 31)
    (hc : marshalCTTS samples = .ok p.ctts) (hs : marshalSTSC samples = .ok p.stsc) : ∀ x ∈ fileTableList d p samples, x.Good := by
  intro x hx
  unfold fileTableList at hx
  rcases List.mem_append.1 hx with hx | hx
  · unfold marshalSTSS at hx
    split at hx
    · cases hx
    · simp only [Option.map_some, Option.toList_some, List.mem_singleton] at hx
      subst hx
      refine ⟨rfl, ?_⟩
      obtain ⟨g1, g2⟩ := mp4t_stss_bound samples 0 (by omega)
      show (decodeWords (encodeStss _) >>= _) = _
      unfold encodeStss
      rw [mp4t_words _ (by omega) g2, Res.bind_ok]
  · simp only [List.mem_cons, List.not_mem_nil, or_false] at hx
    rcases hx with rfl | rfl | rfl | rfl
    · refine ⟨rfl, ?_⟩
      obtain ⟨r, e, h2, _, h3⟩ := C45_ctts samples (by omega)
      rw [hc] at e
      cases e
      obtain ⟨g1, g2⟩ := mp4t_runs p.ctts h3
      rw [h2, List.length_map] at g1 g2
      show (decodeCtts (encodeCtts p.ctts) >>= _) = _
      rw [mp4t_ctts _ (by omega) fun e he => ?_, Res.bind_ok]
      obtain ⟨k1, k2⟩ := g2 e he
      obtain ⟨sa, hsa, hv⟩ := List.mem_map.1 k2
      have := hpts sa hsa
      exact ⟨by omega, by omega, by omega⟩
    · refine ⟨rfl, ?_⟩
      obtain ⟨g1, g2⟩ := mp4t_stsc_bound samples p.stsc hlen hs
      show (decodeStsc (encodeStsc p.stsc) >>= _) = _
      rw [mp4t_stsc _ (by omega) g2, Res.bind_ok]
    · refine ⟨rfl, ?_⟩
      show (decodeStsz (PMP4File.encodeStsz (marshalSTSZ samples)) >>= _) = _
      unfold marshalSTSZ
      rw [mp4t_stsz _ (by rw [List.length_map]; omega) fun n hn => ?_, Res.bind_ok]
      obtain ⟨sa, hsa, rfl⟩ := List.mem_map.1 hn
      exact hsize sa hsa
    · refine ⟨rfl, ?_⟩
      show (decodeWords (encodeStco (shiftChunks d (marshalSTCO samples))) >>= _) = _
      unfold encodeStco
      have := mp4t_stco_length samples
      rw [mp4t_words _ (by unfold shiftChunks; rw [List.length_map]; omega) fun n hn => ?_, Res.bind_ok]
      unfold shiftChunks at hn
      obtain ⟨o, _, rfl⟩ := List.mem_map.1 hn
      omega

/-! ## Tracks -/

theorem file_stbl_reads (d : Nat) (p : FileParts) (samples : List PMP4.Sample) (r : PMP4File.Reader) (p' : PReader) (c : Codec)
    (hcr : CodecReads p.typ p.entry p.ctyp p.config c) (hs : r.base.state = .waitingStsd)
    (h0 : (⟨typStts, encodeStts p.stts, .stts p.stts⟩ : FileTable).Good) (h1 : ∀ x ∈ fileTableList d p samples, x.Good)
    (hl : (fileStbl p samples (shiftChunks d (marshalSTCO samples))).length < 2 ^ 32)
    (he : readEvents (.codec true :: .table (.stts p.stts) :: (fileTableList d p samples).map fun x => .table x.table)
      { r.base with state := .readingCodec } = .ok p') :
    ∃ cr, Reads isoFields PMP4File.handle (fileStbl p samples (shiftChunks d (marshalSTCO samples))) 5 r ⟨p', cr, some c, r.codecs⟩ := by
  unfold fileStbl at hl ⊢
  have hl' := hl
  rw [box_length _ _ (by rfl), List.length_append, file_table_bytes, List.length_append] at hl'
  have hsd : (fileStsd p).length < 2 ^ 32 := by omega
  unfold fileStsd at hsd
  have hsd' := hsd
  rw [box_length _ _ (by rfl), List.length_append] at hsd'
  obtain ⟨cr, g1, g2, g3⟩ := file_entry p c ⟨{ r.base with state := .readingCodec }, some {}, r.codec, r.codecs⟩ rfl rfl hcr (by omega)
  refine ⟨some cr, ?_⟩
  obtain ⟨p1, e1, he⟩ := Res.bind_eq_ok.1 he
  obtain ⟨p2, e2, he⟩ := Res.bind_eq_ok.1 he
  have hst : r.step .stbl = .ok r := by
    unfold PMP4File.Reader.step readEvent
    dsimp only
    rw [if_neg (by rw [hs]; simp), Res.bind_ok]
  refine file_node _ _ _ r r _ .stbl (by rfl) hl (fun _ => rfl) (by rw [hs]; simp) (fun _ => rfl) rfl hst ?_
  rw [file_table_bytes]
  refine tree_append (r' := ⟨{ r.base with state := .readingCodec }, some cr, r.codec, r.codecs⟩) ?_
    (tree_append (r' := ⟨p2, some cr, some c, r.codecs⟩) ?_ ?_)
  · unfold fileStsd
    refine tree_node (by rfl) (by rwa [box_length _ _ (by rfl)] at hsd) (by rw [init_count_length]; rfl) (fun bi expand e => ?_) g3
    unfold PMP4File.handle
    rw [if_neg (by rw [hs]; simp), e]
    unfold PMP4File.Reader.readBox
    show (PMP4File.Reader.step r .stsd >>= _) = _
    unfold PMP4File.Reader.step readEvent
    dsimp only
    rw [if_neg (by rw [hs]; simp), Res.bind_ok, Res.bind_ok]
    rfl
  · exact file_first_table ⟨typStts, encodeStts p.stts, .stts p.stts⟩ _ cr c p1 p2 h0 (by dsimp only; omega) rfl rfl g1 g2 e1 e2
  · exact file_read_tables _ 6 ⟨p2, some cr, some c, r.codecs⟩ p' h1 (by omega) he

theorem file_skip (typ body : Bytes) (depth : Nat) (r : PMP4File.Reader) (ht : typ.length = 4) (hl : (box typ body).length < 2 ^ 32)
    (hs : r.base.state ≠ .readingCodec) (hd : decodeEvent typ body = .ok .other) :
    Reads isoFields PMP4File.handle (box typ body) depth r r :=
  file_leaf typ body depth r r .other ht hl hs hd rfl rfl

theorem file_minf_reads (p : FileParts) (samples : List PMP4.Sample) (offs : List Nat) (r r' : PMP4File.Reader)
    (hs : r.base.state = .waitingStsd) (hl : (fileMinf p samples offs).length < 2 ^ 32)
    (h : Reads isoFields PMP4File.handle (fileStbl p samples offs) 5 r r') : Reads isoFields PMP4File.handle (fileMinf p samples offs) 4 r r' := by
  unfold fileMinf at hl ⊢
  have hl' := hl
  rw [box_length _ _ (by rfl), List.length_append, List.length_append] at hl'
  have hst : r.step .minf = .ok r := by
    unfold PMP4File.Reader.step readEvent
    dsimp only
    rw [if_neg (by rw [hs]; simp), Res.bind_ok]
  refine file_node _ _ _ r r _ .minf (by rfl) hl (fun _ => rfl) (by rw [hs]; simp) (fun _ => rfl) rfl hst ?_
  refine tree_append (r' := r) ?_ (tree_append (r' := r) ?_ h)
  · have hm : (initMediaHeader p.codec).length < 2 ^ 32 := by omega
    unfold initMediaHeader at hm ⊢
    split at hm
    · rw [if_pos ‹_›]; exact file_skip _ _ _ _ (by rfl) hm (by rw [hs]; simp) rfl
    · rw [if_neg ‹_›]; exact file_skip _ _ _ _ (by rfl) hm (by rw [hs]; simp) rfl
  · exact file_skip _ _ _ _ (by rfl) (by unfold initDinf at hl'; omega) (by rw [hs]; simp) rfl

/-- The boxes of a track do what the events of the track do, and add its codec. -/
theorem file_trak_reads (d : Nat) (t : PMP4.Track) (p : FileParts) (hw : Writable t) (hty : FileTyped t)
    (hb : ∀ sa ∈ t.samples, sa.offset + sa.payloadSize + d < 2 ^ 32) (hcr : CodecReads p.typ p.entry p.ctyp p.config (restoredCodec p.codec))
    (h1 : marshalSTTS t.samples = .ok p.stts) (h2 : marshalCTTS t.samples = .ok p.ctts) (h3 : marshalSTSC t.samples = .ok p.stsc)
    (hl : (fileTrak t p (shiftChunks d (marshalSTCO t.samples))).length < 2 ^ 32) (r : PMP4File.Reader)
    (hs : r.base.state = .waitingTrak ∨ r.base.state = .waitingSampleProps) :
    ∃ evs r', trackEvents d t = .ok evs ∧ readEvents evs r.base = .ok r'.base ∧ r'.base.state = .waitingSampleProps ∧
      Reads isoFields PMP4File.handle (fileTrak t p (shiftChunks d (marshalSTCO t.samples))) 2 r r' ∧
      r'.allCodecs = r.allCodecs ++ [some (restoredCodec p.codec)] := by
  have hlen1 : t.samples.length + 1 < 2 ^ 32 := by
    have := hw.count
    have : maxSamples + 1 < 2 ^ 32 := by decide
    generalize maxSamples = m at *; omega
  have hmd : mediaDuration t < 2 ^ 32 := by unfold mediaDuration; omega
  obtain ⟨boxes, rd, b1, b2, b3, b4, b5, b6⟩ := pmp4_tables d t.samples (mediaDuration t) hw.count hw.pts hb
  rw [file_table_events d p t.samples h1 h2 h3] at b1
  cases b1
  obtain ⟨⟨_, e1⟩, ⟨_, e2⟩⟩ := pmp4_elst_ok t hw.timeScale
  have hid := Nat.mod_eq_of_lt hw.id
  have ht := pmp4_readEvents_tables _ ⟨.waitingSamples, r.base.all, some ⟨t.id, t.timeScale, {}⟩, true, mediaDuration t⟩
    ⟨t.id, t.timeScale, {}⟩ { trackDuration := mediaDuration t } rd rfl rfl rfl b2 b3
  rw [List.map_cons, List.map_map] at ht
  have g0 := file_stts_good p t.samples hlen1 hty.duration h1
  have g1 := file_tables_good d p t.samples hlen1 (fun sa hsa => by have := hb sa hsa; omega) hw.pts h2 h3
  generalize hL : shiftChunks d (marshalSTCO t.samples) = L at *
  unfold fileTrak at hl ⊢
  have hl' := hl
  rw [box_length _ _ (by rfl), List.length_append, List.length_append] at hl'
  have hlm : (fileMdia t p L).length < 2 ^ 32 := by omega
  unfold fileMdia at hlm
  have hlm' := hlm
  rw [box_length _ _ (by rfl), List.length_append, List.length_append] at hlm'
  have hln : (fileMinf p t.samples L).length < 2 ^ 32 := by omega
  have hls : (fileStbl p t.samples L).length < 2 ^ 32 := by
    have hln' := hln
    unfold fileMinf at hln'
    rw [box_length _ _ (by rfl), List.length_append, List.length_append] at hln'
    omega
  obtain ⟨cr, gs⟩ := file_stbl_reads d p t.samples ⟨⟨.waitingStsd, r.base.all, some ⟨t.id, t.timeScale, {}⟩, true, mediaDuration t⟩,
    r.codecReader, none, r.allCodecs⟩ ⟨tableState rd.props, r.base.all, some ⟨t.id, t.timeScale, rd⟩, true, mediaDuration t⟩
    (restoredCodec p.codec) hcr rfl g0 g1 (by rw [hL]; exact hls) ht
  rw [hL] at gs
  have g2 := file_minf_reads p t.samples L _ _ rfl hln gs
  have hst : r.step .trak = .ok ⟨⟨.waitingTkhd, r.base.all, some {}, true, r.base.trackDuration⟩, r.codecReader, none, r.allCodecs⟩ := by
    unfold PMP4File.Reader.step readEvent
    dsimp only
    rw [if_neg (by rcases hs with h | h <;> rw [h] <;> simp), Res.bind_ok]
  refine ⟨[.trak, .tkhd (t.id % 2 ^ 32), .edts, .elst, .mdia, .mdhd t.timeScale (mediaDuration t), .other, .minf, .other, .other, .stbl, .stsd,
      .codec true] ++ (PMP4.Box.stts p.stts :: (fileTableList d p t.samples).map (·.table)).map .table,
    ⟨⟨tableState rd.props, r.base.all, some ⟨t.id, t.timeScale, rd⟩, true, mediaDuration t⟩, cr, some (restoredCodec p.codec), r.allCodecs⟩,
    ?_, ?_, by rw [b5]; rfl, ?_, rfl⟩
  · unfold trackEvents
    rw [e1, Res.bind_ok, e2, Res.bind_ok, file_table_events d p t.samples h1 h2 h3, Res.bind_ok]
  · rw [pmp4_readEvents_append]
    have h1 : readEvents [.trak, .tkhd (t.id % 2 ^ 32), .edts, .elst, .mdia, .mdhd t.timeScale (mediaDuration t), .other, .minf, .other, .other,
        .stbl, .stsd, .codec true] r.base = .ok ⟨.waitingSamples, r.base.all, some ⟨t.id, t.timeScale, {}⟩, true, mediaDuration t⟩ := by
      have h0 : readEvent r.base .trak = .ok ⟨.waitingTkhd, r.base.all, some {}, true, r.base.trackDuration⟩ := by
        unfold readEvent
        simp only
        rw [if_neg (by rcases hs with hp | hp <;> rw [hp] <;> simp)]
      unfold readEvents
      rw [h0, Res.bind_ok, hid]
      simp [readEvents, readEvent, PReader.withCur, hw.timeScale]
    rw [h1, Res.bind_ok, List.map_cons, List.map_map, ht]
  · refine file_node _ _ _ r _ _ .trak (by rfl) hl (fun _ => rfl) (by rcases hs with h | h <;> rw [h] <;> simp) (fun _ => rfl) rfl hst ?_
    refine tree_append (r' := ⟨⟨.waitingElst, r.base.all, some { id := t.id }, true, r.base.trackDuration⟩, r.codecReader, none, r.allCodecs⟩) ?_
      (tree_append (r' := ⟨⟨.waitingMdhd, r.base.all, some { id := t.id }, true, r.base.trackDuration⟩, r.codecReader, none, r.allCodecs⟩) ?_ ?_)
    · refine file_leaf _ _ _ _ _ (.tkhd t.id) (by rfl) (by omega) (by simp) ?_ rfl rfl
      show (decodeTkhd (PMP4File.tkhdPayload t.id p.duration p.codec p.info) >>= _) = _
      have : decodeTkhd (PMP4File.tkhdPayload t.id p.duration p.codec p.info) = .ok t.id := by
        unfold PMP4File.tkhdPayload
        split <;> rw [mp4t_tkhd, hid]
      rw [this, Res.bind_ok]
    · unfold fileEdts at hl' ⊢
      refine file_node _ _ _ _ ⟨⟨.waitingElst, r.base.all, some { id := t.id }, true, r.base.trackDuration⟩, r.codecReader, none, r.allCodecs⟩ _
        .edts (by rfl) (by omega) (fun _ => rfl) (by simp) (fun _ => rfl) rfl rfl ?_
      refine file_leaf _ _ _ _ _ .elst (by rfl) ?_ (by simp) rfl rfl rfl
      rw [box_length typEdts _ (by rfl)] at hl'
      omega
    · unfold fileMdia
      refine file_node _ _ _ _ ⟨⟨.waitingMdhd, r.base.all, some { id := t.id }, true, r.base.trackDuration⟩, r.codecReader, none, r.allCodecs⟩ _
        .mdia (by rfl) hlm (fun _ => rfl) (by simp) (fun _ => rfl) rfl rfl ?_
      refine tree_append (r' := ⟨⟨.waitingStsd, r.base.all, some ⟨t.id, t.timeScale, {}⟩, true, mediaDuration t⟩, r.codecReader, none, r.allCodecs⟩) ?_
        (tree_append (file_skip _ _ _ _ (by rfl) (by omega) (by simp) rfl) g2)
      refine file_leaf _ _ _ _ _ (.mdhd t.timeScale (mediaDuration t)) (by rfl) (by omega) (by simp) ?_ rfl ?_
      · show (PMP4File.decodeMdhd (PMP4File.encodeMdhd t.timeScale (mediaDuration t)) >>= _) = _
        rw [mp4t_mdhd _ _ hty.timeScale hmd, Res.bind_ok]
      · unfold PMP4File.Reader.step readEvent
        dsimp only
        rw [if_neg (by simp), if_neg hw.timeScale]
        rfl

/-! ## The whole file -/

/-- What is known of a track that was written. -/
structure FileWritten (t : PMP4File.Track) (p : FileParts) : Prop where
  codec : t.codec = some p.codec
  written : FileCodec t.id p.codec p.info p.typ p.entry p.ctyp p.config
  stts : marshalSTTS t.samples = .ok p.stts
  ctts : marshalCTTS t.samples = .ok p.ctts
  stsc : marshalSTSC t.samples = .ok p.stsc
  duration : PMP4.presentationDuration t.toTrack = .ok p.duration
  elst : marshalELST t.toTrack = .ok p.elst
  length : (fileTrak t.toTrack p (marshalSTCO t.samples)).length < 2 ^ 32

/-- The bytes of tracks, whose chunk offsets are `o`. -/
def fileTraks (o : List PMP4.Sample → List Nat) (xs : List (PMP4File.Track × FileParts)) : Bytes :=
  xs.flatMap fun x => fileTrak x.1.toTrack x.2 (o x.1.samples)

theorem file_shift_length (d : Nat) (l : List Nat) : (shiftChunks d l).length = l.length := by
  unfold shiftChunks; rw [List.length_map]

theorem file_trak_length (t : PMP4.Track) (p : FileParts) (x y : List Nat) (hl : x.length = y.length) :
    (fileTrak t p x).length = (fileTrak t p y).length := by
  obtain ⟨pre, h1, h2⟩ := file_trak_differ t p x y hl
  rw [h1, h2, List.length_append, List.length_append, file_stco_box, file_stco_box, hl]

theorem file_traks_length (d : Nat) (xs : List (PMP4File.Track × FileParts)) :
    (fileTraks (fun l => shiftChunks d (marshalSTCO l)) xs).length = (fileTraks marshalSTCO xs).length := by
  unfold fileTraks
  induction xs with
  | nil => rw [List.flatMap_nil, List.flatMap_nil]
  | cons x xs ih =>
    rw [List.flatMap_cons, List.flatMap_cons, List.length_append, List.length_append, ih,
      file_trak_length _ _ _ _ (file_shift_length d (marshalSTCO x.1.samples))]

theorem file_tracks (l : List PMP4File.Track) : ∀ (a : Bytes) (r : List Marshaled × SBuf) (_ : ∀ t ∈ l, ∀ c, t.codec = some c → Kept c)
    (_ : PMP4File.marshalTracks l (full a) = .ok r),
    ∃ xs : List (PMP4File.Track × FileParts), xs.map (·.1) = l ∧ (∀ x ∈ xs, FileWritten x.1 x.2) ∧ r.2 = full (a ++ fileTraks marshalSTCO xs) ∧
      r.1.map (·.presentationDuration) = xs.map (·.2.duration) ∧ ∀ (d : Nat) (a' post : Bytes), a'.length = a.length →
        rewriteStcos d r.1 (full (a' ++ (fileTraks marshalSTCO xs ++ post))) =
          .ok (full (a' ++ (fileTraks (fun l => shiftChunks d (marshalSTCO l)) xs ++ post))) := by
  induction l with
  | nil =>
    intro a r _ h
    cases h
    refine ⟨[], rfl, fun x hx => (List.not_mem_nil hx).elim, by unfold fileTraks; rw [List.flatMap_nil, List.append_nil], rfl, fun d a' post _ => ?_⟩
    unfold rewriteStcos fileTraks
    rw [List.flatMap_nil, List.flatMap_nil]
  | cons t l ih =>
    intro a r hk h
    unfold PMP4File.marshalTracks at h
    obtain ⟨⟨m, f⟩, h1, h⟩ := Res.bind_eq_ok.1 h
    obtain ⟨⟨ms, f2⟩, h2, h⟩ := Res.bind_eq_ok.1 h
    cases h
    obtain ⟨p, g1, g2, g3, g4, g5, gd, ge, g6, g7, gm, g8, g9⟩ := file_track a t _ (hk t List.mem_cons_self) h1
    dsimp only at g6 g7 g8
    subst g6
    obtain ⟨xs, k1, k2, k3, km, k4⟩ := ih _ _ (fun u hu => hk u (List.mem_cons_of_mem _ hu)) h2
    dsimp only at k3 km k4
    refine ⟨(t, p) :: xs, by rw [List.map_cons, k1], fun x hx => ?_, ?_, by dsimp only at gm ⊢; rw [List.map_cons, List.map_cons, km, gm], fun d a' post ha => ?_⟩
    · rcases List.mem_cons.1 hx with rfl | hx
      · exact ⟨g1, g2, g3, g4, g5, gd, ge, g9⟩
      · exact k2 x hx
    · dsimp only
      rw [k3]
      unfold fileTraks
      rw [List.flatMap_cons, List.append_assoc]
    · unfold rewriteStcos
      have hlen := file_shift_length d (marshalSTCO t.samples)
      obtain ⟨pre, e1, e2⟩ := file_trak_differ t.toTrack p (marshalSTCO t.samples) (shiftChunks d (marshalSTCO t.samples)) hlen.symm
      have hoff : m.stcoOffset = ((a' ++ pre).length : Int) := by
        unfold full at g8
        dsimp only at g8
        rw [e1, List.length_append, List.length_append] at g8
        rw [List.length_append]
        omega
      have hsum : fileTraks marshalSTCO ((t, p) :: xs) = fileTrak t.toTrack p (marshalSTCO t.samples) ++ fileTraks marshalSTCO xs := by
        unfold fileTraks; rw [List.flatMap_cons]
      have hsum2 : fileTraks (fun l => shiftChunks d (marshalSTCO l)) ((t, p) :: xs) =
          fileTrak t.toTrack p (shiftChunks d (marshalSTCO t.samples)) ++ fileTraks (fun l => shiftChunks d (marshalSTCO l)) xs := by
        unfold fileTraks; rw [List.flatMap_cons]
      rw [hsum, hsum2, g7, hoff, e1, e2]
      have e3 : a' ++ (pre ++ box typStco (encodeStco (marshalSTCO t.samples)) ++ fileTraks marshalSTCO xs ++ post) =
          (a' ++ pre) ++ (box typStco (encodeStco (marshalSTCO t.samples)) ++ (fileTraks marshalSTCO xs ++ post)) := by
        simp only [List.append_assoc]
      rw [e3, show (d : Int).toNat = d from rfl]
      have hl : 8 + (encodeStco (shiftChunks d (marshalSTCO t.samples))).length < 2 ^ 32 := by
        rw [e1, List.length_append, box_length _ _ (by rfl)] at g9
        rw [file_stco_length, hlen]
        rw [file_stco_length] at g9
        omega
      rw [rewriteBox_full (a' ++ pre) typStco _ _ _ (by rfl) (by rw [file_stco_length, file_stco_length, hlen]) hl, Res.bind_ok]
      have := k4 d ((a' ++ pre) ++ box typStco (encodeStco (shiftChunks d (marshalSTCO t.samples)))) post (by
        rw [List.length_append, List.length_append, file_stco_box, hlen, List.length_append, e1, List.length_append, file_stco_box]
        omega)
      rw [List.append_assoc (a' ++ pre)] at this
      rw [this]
      simp only [List.append_assoc]

theorem file_traks_read (d : Nat) (xs : List (PMP4File.Track × FileParts)) : ∀ (r : PMP4File.Reader) (_ : ∀ x ∈ xs, FileWritten x.1 x.2)
    (_ : ∀ x ∈ xs, Writable x.1.toTrack) (_ : ∀ x ∈ xs, FileTyped x.1.toTrack)
    (_ : ∀ x ∈ xs, ∀ sa ∈ x.1.samples, sa.offset + sa.payloadSize + d < 2 ^ 32)
    (_ : r.base.state = .waitingTrak ∨ r.base.state = .waitingSampleProps),
    ∃ evs r', tracksEvents d (xs.map (·.1.toTrack)) = .ok evs ∧ readEvents evs r.base = .ok r'.base ∧
      (r'.base.state = .waitingTrak ∨ r'.base.state = .waitingSampleProps) ∧
      Reads isoFields PMP4File.handle (fileTraks (fun l => shiftChunks d (marshalSTCO l)) xs) 2 r r' ∧
      r'.allCodecs = r.allCodecs ++ xs.map fun x => some (restoredCodec x.2.codec) := by
  induction xs with
  | nil =>
    intro r _ _ _ _ hs
    exact ⟨[], r, rfl, rfl, hs, tree_nil _ _ _ _, by rw [List.map_nil, List.append_nil]⟩
  | cons x xs ih =>
    intro r h1 h2 h3 h4 hs
    have hx : x ∈ x :: xs := List.mem_cons_self
    have w := h1 x hx
    obtain ⟨e1, r1, a1, a2, a3, a4, a5⟩ := file_trak_reads d x.1.toTrack x.2 (h2 x hx) (h3 x hx) (h4 x hx) w.written.reads w.stts w.ctts w.stsc
      (by rw [file_trak_length _ _ _ _ (file_shift_length d _)]; exact w.length) r hs
    obtain ⟨e2, r2, b1, b2, b3, b4, b5⟩ := ih r1 (fun y hy => h1 y (List.mem_cons_of_mem _ hy)) (fun y hy => h2 y (List.mem_cons_of_mem _ hy))
      (fun y hy => h3 y (List.mem_cons_of_mem _ hy)) (fun y hy => h4 y (List.mem_cons_of_mem _ hy)) (.inr a3)
    refine ⟨e1 ++ e2, r2, ?_, ?_, b3, ?_, ?_⟩
    · rw [List.map_cons]
      unfold tracksEvents
      rw [a1, Res.bind_ok, b1, Res.bind_ok]
    · rw [pmp4_readEvents_append, a2, Res.bind_ok, b2]
    · unfold fileTraks
      rw [List.flatMap_cons]
      exact tree_append a4 b4
    · rw [b5, a5, List.map_cons, List.append_assoc]
      rfl

theorem file_mvhd_length (d n : Nat) : (PMP4File.encodeMvhd d n).length = 100 := by
  unfold PMP4File.encodeMvhd; rw [pack_length]; simp [widths, unity]

theorem file_mvhd_fields (d n : Nat) (b : Bytes) (h : b = PMP4File.encodeMvhd d n) : isoFields typMvhd b = some 100 := by
  have : b.head? = some 0 := by
    rw [h]
    unfold PMP4File.encodeMvhd
    exact pack_head 0 _ (by simp [widths, unity]) (by decide)
  show (if b.head? = some 0 then some 100 else some 112) = _
  rw [if_pos this]

theorem file_ftyp_length : PMP4File.encodeFtyp.length = 24 := by unfold PMP4File.encodeFtyp; rw [pack_length]; simp [widths]

theorem file_maxDuration (ms : List Marshaled) : ∀ d, maxDuration ms d = (ms.map (·.presentationDuration)).foldl max d := by
  induction ms with
  | nil => intro d; rfl
  | cons m l ih =>
    intro d
    unfold maxDuration
    rw [ih, List.map_cons, List.foldl_cons]
    congr 1
    split <;> omega

/-- The bytes that precede `mdat`. -/
theorem file_header (ts : List PMP4File.Track) (header : Bytes) (hk : ∀ t ∈ ts, ∀ c, t.codec = some c → Kept c)
    (h : marshalFtypAndMoov ts = .ok header) :
    ∃ (xs : List (PMP4File.Track × FileParts)) (duration : Nat), xs.map (·.1) = ts ∧ (∀ x ∈ xs, FileWritten x.1 x.2) ∧
      duration = (xs.map (·.2.duration)).foldl max 0 ∧ (box typMoov (box typMvhd (PMP4File.encodeMvhd duration (ts.length + 1)) ++
        fileTraks (fun l => shiftChunks (header.length + 8) (marshalSTCO l)) xs)).length < 2 ^ 32 ∧
      header = box typFtyp PMP4File.encodeFtyp ++ box typMoov (box typMvhd (PMP4File.encodeMvhd duration (ts.length + 1)) ++
        fileTraks (fun l => shiftChunks (header.length + 8) (marshalSTCO l)) xs) := by
  unfold marshalFtypAndMoov at h
  have h0 : (⟨[], 0⟩ : SBuf) = full [] := rfl
  rw [h0] at h
  have W := file_writers
  have T := file_tracks ts
  have R := rewriteBox_full
  generalize writeBoxStart = start at W h
  generalize writeBox = one at W h
  generalize writeBoxEnd = stop at W h
  generalize PMP4File.marshalTracks = tracks at T h
  obtain ⟨⟨_, _⟩, e, h⟩ := Res.bind_eq_ok.1 h
  cases (W.one _ _ _ _ (by rfl) e).1
  clear e
  dsimp only at h
  obtain ⟨⟨_, _⟩, e, h⟩ := Res.bind_eq_ok.1 h
  cases W.start _ _ _ _ e
  clear e
  dsimp only at h
  obtain ⟨⟨_, _⟩, e, h⟩ := Res.bind_eq_ok.1 h
  cases (W.one _ _ _ _ (by rfl) e).1
  clear e
  dsimp only at h
  obtain ⟨⟨ms, f1⟩, h1, h⟩ := Res.bind_eq_ok.1 h
  obtain ⟨xs, k1, k2, k3, km, k4⟩ := T _ _ hk h1
  dsimp only at h k3 km k4
  subst k3
  obtain ⟨f2, h2, h⟩ := Res.bind_eq_ok.1 h
  have hm := R ([] ++ box typFtyp PMP4File.encodeFtyp ++ (beBytes 4 0 ++ typMoov ++ [])) typMvhd (PMP4File.encodeMvhd 0 (ts.length + 1))
    (PMP4File.encodeMvhd (maxDuration ms 0) (ts.length + 1)) (fileTraks marshalSTCO xs) (by rfl) (by rw [file_mvhd_length, file_mvhd_length])
    (by rw [file_mvhd_length]; decide)
  rw [List.append_assoc _ (box typMvhd _), hm] at h2
  cases h2
  obtain ⟨f3, h3, h⟩ := Res.bind_eq_ok.1 h
  obtain ⟨rfl, hl⟩ := W.stop _ typMoov (box typMvhd (PMP4File.encodeMvhd (maxDuration ms 0) (ts.length + 1)) ++ fileTraks marshalSTCO xs) _ _
    (by rfl) (by simp only [List.append_nil, List.append_assoc]) h3
  clear h1 h3 W T R hm
  obtain ⟨f4, h4, h⟩ := Res.bind_eq_ok.1 h
  cases h
  generalize hD : maxDuration ms 0 = D at *
  -- the end of the file is the offset of the data
  have hpos : ∀ b : Bytes, (((full b).pos : Int) + 8) = ((b.length + 8 : Nat) : Int) := by
    intro b; unfold full; dsimp only; omega
  rw [hpos] at h4
  generalize hd : ([] ++ box typFtyp PMP4File.encodeFtyp ++ box typMoov (box typMvhd (PMP4File.encodeMvhd D (ts.length + 1)) ++
    fileTraks marshalSTCO xs)).length + 8 = d at *
  have hshape : [] ++ box typFtyp PMP4File.encodeFtyp ++ box typMoov (box typMvhd (PMP4File.encodeMvhd D (ts.length + 1)) ++
      fileTraks marshalSTCO xs) =
      (box typFtyp PMP4File.encodeFtyp ++ (beBytes 4 (8 + (box typMvhd (PMP4File.encodeMvhd D (ts.length + 1)) ++
        fileTraks marshalSTCO xs).length) ++ typMoov ++ box typMvhd (PMP4File.encodeMvhd D (ts.length + 1)))) ++
        (fileTraks marshalSTCO xs ++ []) := by
    rw [List.nil_append]
    unfold box
    simp only [List.append_assoc, List.append_nil]
  rw [hshape, k4 d _ [] (by
    rw [List.length_append, List.length_append, List.length_append, List.length_append, List.length_append, List.length_append,
      beBytes_length, box_length typMvhd _ (by rfl), box_length typMvhd _ (by rfl), file_mvhd_length, file_mvhd_length]
    simp only [List.nil_append, List.length_append, List.append_nil, beBytes_length]
    omega)] at h4
  cases h4
  have hfin : (full ((box typFtyp PMP4File.encodeFtyp ++ (beBytes 4 (8 + (box typMvhd (PMP4File.encodeMvhd D (ts.length + 1)) ++
        fileTraks marshalSTCO xs).length) ++ typMoov ++ box typMvhd (PMP4File.encodeMvhd D (ts.length + 1)))) ++
        (fileTraks (fun l => shiftChunks d (marshalSTCO l)) xs ++ []))).buf =
      box typFtyp PMP4File.encodeFtyp ++ box typMoov (box typMvhd (PMP4File.encodeMvhd D (ts.length + 1)) ++
        fileTraks (fun l => shiftChunks d (marshalSTCO l)) xs) := by
    have : (box typMvhd (PMP4File.encodeMvhd D (ts.length + 1)) ++ fileTraks marshalSTCO xs).length =
        (box typMvhd (PMP4File.encodeMvhd D (ts.length + 1)) ++ fileTraks (fun l => shiftChunks d (marshalSTCO l)) xs).length := by
      rw [List.length_append, List.length_append, file_traks_length]
    rw [this]
    unfold full
    dsimp only
    unfold box
    simp only [List.append_assoc, List.append_nil]
  have hdlen : (box typFtyp PMP4File.encodeFtyp ++ box typMoov (box typMvhd (PMP4File.encodeMvhd D (ts.length + 1)) ++
        fileTraks (fun l => shiftChunks d (marshalSTCO l)) xs)).length + 8 = d := by
    rw [← hd, List.nil_append, List.length_append, List.length_append, box_length typMoov _ (by rfl), box_length typMoov _ (by rfl),
      List.length_append, List.length_append, file_traks_length]
  rw [hfin]
  refine ⟨xs, D, k1, k2, by rw [← hD, ← km]; exact file_maxDuration ms 0, ?_, ?_⟩
  · rw [hdlen, box_length _ _ (by rfl), List.length_append, file_traks_length]
    rwa [box_length _ _ (by rfl), List.length_append] at hl
  · rw [hdlen]

/-- A track that can be written. -/
structure FileGood (t : PMP4File.Track) : Prop where
  writable : Writable t.toTrack
  timeScale : t.timeScale < 2 ^ 32
  duration : ∀ sa ∈ t.samples, sa.duration < 2 ^ 32
  codec : ∀ c, t.codec = some c → Kept c

theorem file_zipWith (ts : List PMP4File.Track) : ∀ (us : List PMP4.Track) (_ : us.length = ts.length),
    (placed ts us).map (·.toTrack) = us ∧ (placed ts us).map (·.codec) = ts.map (·.codec) := by
  induction ts with
  | nil =>
    intro us h
    rw [List.eq_nil_of_length_eq_zero h]
    exact ⟨rfl, rfl⟩
  | cons t ts ih =>
    intro us h
    cases us with
    | nil => cases h
    | cons u us =>
      obtain ⟨h1, h2⟩ := ih us (by simpa using h)
      unfold placed at h1 h2 ⊢
      rw [List.zipWith_cons_cons, List.map_cons, List.map_cons, List.map_cons, h1, h2]
      exact ⟨rfl, rfl⟩

/-- The size of the media data is bounded by that of the file. -/
theorem file_data_length (tracks : List PMP4.Track) (hw : ∀ t ∈ tracks, Writable t) (L : PMP4.Layout) (h : PMP4.sortSamples tracks = .ok L) :
    (PMP4.marshalMdat L.dataSize L.sorted).length = 8 + ((tracks.flatMap (·.samples)).map (·.payloadSize)).sum := by
  obtain ⟨L', out, h1, h2, h3, h4, _, _⟩ := pmp4_sortSamples tracks (fun t ht _ => (hw t ht).timeScale)
  rw [h] at h1
  cases h1
  have hint : SampleTables.Interleaving (L.tracks.map (·.samples)) L.sorted := by
    have := pmp4_merge_interleaving (·.2) h3
    rw [← h2, List.map_map] at this
    have he : (List.map (fun x : Int × PMP4.Sample => x.2)) ∘ keyedTrack = (·.samples) := by
      funext t; exact pmp4_keyed_snd _ _ _
    rw [he] at this
    exact this
  have hpay := pmp4_payload_layout L (pmp4_writable_layout tracks L hw h4) hint
  rw [pmp4_sorted_sum tracks L hint h4]
  have hlen : (L.sorted.flatMap (·.payload)).length = (L.sorted.map (·.payloadSize)).sum := by
    rw [List.length_flatMap]
    congr 1
    exact List.map_congr_left hpay
  unfold PMP4.marshalMdat
  simp only [List.length_append, hlen, List.length_cons, List.length_nil]

theorem file_mdat_box (n : Nat) (sorted : List PMP4.Sample) (h : n = (sorted.flatMap (·.payload)).length) (hn : 8 + n < 2 ^ 32) :
    PMP4.marshalMdat n sorted = box [0x6D, 0x64, 0x61, 0x74] (sorted.flatMap (·.payload)) := by
  unfold PMP4.marshalMdat box
  rw [← h, Nat.mod_eq_of_lt hn]
  simp [Spec.beBytes]

theorem file_zip_map {α β γ : Type} (l : List α) (f : α → β) (g : α → γ) : (l.map f).zip (l.map g) = l.map fun x => (f x, g x) := by
  induction l with
  | nil => rfl
  | cons x l ih => rw [List.map_cons, List.map_cons, List.zip_cons_cons, ih, List.map_cons]

/-- **C81.** A presentation that is written, on bytes, is read back: identifiers, time scales, time offsets, all samples with their payloads, and
codecs. -/
theorem C81_round_trip (ts : List PMP4File.Track) (file : Bytes) (hne : ts ≠ []) (hg : ∀ t ∈ ts, FileGood t)
    (h : PMP4File.marshal ts = .ok file) (hl : file.length < 2 ^ 32) :
    ∃ rts, PMP4File.unmarshal isoFields file = .ok rts ∧
      rts.map (fun x => (seen file x.1, x.2)) = ts.map fun t => (given t.toTrack, t.codec.map restoredCodec) := by
  unfold PMP4File.marshal at h
  obtain ⟨L, hL, h⟩ := Res.bind_eq_ok.1 h
  obtain ⟨header, hh, h⟩ := Res.bind_eq_ok.1 h
  cases h
  have hw : ∀ t ∈ ts.map (·.toTrack), Writable t := by
    intro t ht
    obtain ⟨u, hu, rfl⟩ := List.mem_map.1 ht
    exact (hg u hu).writable
  have hdata := file_data_length _ hw L hL
  have hl' := hl
  rw [List.length_append, hdata] at hl'
  obtain ⟨L', e1, hint, h3, h4, h5⟩ := C48_interleaving (ts.map (·.toTrack)) (fun t ht _ => (hw t ht).timeScale) (by omega)
  rw [hL] at e1
  cases e1
  have hwL := pmp4_writable_layout _ L hw h3
  have hpay := pmp4_payload_layout L hwL hint
  have hsum := pmp4_sorted_sum _ L hint h3
  have hlen : L.tracks.length = ts.length := by
    have := congrArg List.length h3
    simpa only [List.length_map] using this
  obtain ⟨z1, z2⟩ := file_zipWith ts L.tracks hlen
  have hty : ∀ t ∈ L.tracks, FileTyped t := by
    intro t ht
    have hm := List.mem_map_of_mem (f := fun t : PMP4.Track => { t with samples := t.samples.map unplaced }) ht
    rw [h3, List.map_map] at hm
    obtain ⟨u, hu, he⟩ := List.mem_map.mp hm
    have g := hg u hu
    have hs : u.samples.map unplaced = t.samples.map unplaced := congrArg PMP4.Track.samples he
    refine ⟨?_, fun sa hsa => ?_⟩
    · have : u.timeScale = t.timeScale := by have := congrArg PMP4.Track.timeScale he; exact this
      rw [← this]; exact g.timeScale
    · have := List.mem_map_of_mem (f := unplaced) hsa
      rw [← hs] at this
      obtain ⟨sb, hsb, he⟩ := List.mem_map.mp this
      have : sb.duration = sa.duration := by have := congrArg PMP4.Sample.duration he; exact this
      rw [← this]; exact g.duration sb hsb
  have hk : ∀ t ∈ placed ts L.tracks, ∀ c, t.codec = some c → Kept c := by
    intro t ht c hc
    have := List.mem_map_of_mem (f := (·.codec)) ht
    rw [z2] at this
    obtain ⟨u, hu, he⟩ := List.mem_map.1 this
    exact (hg u hu).codec c (he.trans hc)
  obtain ⟨xs, D, k1, k2, _, k3, k4⟩ := file_header _ header hk hh
  have hxs : xs.map (·.1.toTrack) = L.tracks := by
    rw [← z1, ← k1, List.map_map, ]; rfl
  have hmem : ∀ x ∈ xs, x.1.toTrack ∈ L.tracks := fun x hx => by
    rw [← hxs]; exact List.mem_map_of_mem (f := fun x : PMP4File.Track × FileParts => x.1.toTrack) hx
  have hb : ∀ x ∈ xs, ∀ sa ∈ x.1.samples, sa.offset + sa.payloadSize + (header.length + 8) < 2 ^ 32 := by
    intro x hx sa hsa
    have hin := pmp4_interleaving_mem hint x.1.samples (List.mem_map.2 ⟨x.1.toTrack, hmem x hx, rfl⟩) sa hsa
    have := (pmp4_payload_at L.sorted 0 [0, 0, 0, 0, 0, 0, 0, 0] rfl hpay h4 sa hin).2
    omega
  obtain ⟨evs, r', a1, a2, a3, a4, a5⟩ := file_traks_read (header.length + 8) xs ⟨⟨.waitingTrak, [], none, false, 0⟩, none, none, []⟩ k2
    (fun x hx => hwL _ (hmem x hx)) (fun x hx => hty _ (hmem x hx)) hb (.inl rfl)
  rw [hxs] at a1
  -- the events of the file
  obtain ⟨events, file', rts, c1, c2, c3⟩ := C66_roundtrip header (ts.map (·.toTrack)) (by simpa using hne) hw (by omega)
  unfold PMP4.marshal at c1
  rw [hL, Res.bind_ok, a1, Res.bind_ok] at c1
  cases c1
  have hev : readEvents ([.ftyp, .moov, .mvhd] ++ evs ++ [.other]) {} = .ok r'.base := by
    rw [List.append_assoc, pmp4_readEvents_append]
    have h0 : readEvents [.ftyp, .moov, .mvhd] {} = .ok ⟨.waitingTrak, [], none, false, 0⟩ := rfl
    rw [h0, Res.bind_ok, pmp4_readEvents_append, a2, Res.bind_ok]
    rfl
  unfold PMP4.unmarshal at c2
  rw [hev, Res.bind_ok] at c2
  have hst : ¬(r'.base.state ≠ .waitingTrak ∧ r'.base.state ≠ .waitingSampleProps) := by
    rintro ⟨n1, n2⟩
    rcases a3 with h | h
    · exact n1 h
    · exact n2 h
  rw [if_neg hst] at c2
  by_cases hall : r'.base.all = []
  · rw [if_pos hall] at c2; cases c2
  rw [if_neg hall] at c2
  cases c2
  -- the boxes of the file
  have hflat : L.dataSize = (L.sorted.flatMap (·.payload)).length := by
    rw [h5, hsum, List.length_flatMap]
    congr 1
    exact (List.map_congr_left hpay).symm
  have hbytes : Reads isoFields PMP4File.handle (header ++ PMP4.marshalMdat L.dataSize L.sorted) 1 {} r' := by
    rw [file_mdat_box _ _ hflat (by omega)]
    have hmd : (box [0x6D, 0x64, 0x61, 0x74] (L.sorted.flatMap (·.payload))).length < 2 ^ 32 := by
      rw [box_length _ _ (by rfl), ← hflat]; omega
    refine tree_append (r' := r') ?_ (file_skip _ _ _ _ (by rfl) hmd (by rcases a3 with h | h <;> rw [h] <;> simp) rfl)
    rw [k4]
    generalize fileTraks (fun l => shiftChunks (header.length + 8) (marshalSTCO l)) xs = B at a4 k3 ⊢
    refine tree_append (r' := ⟨⟨.waitingMoov, [], none, false, 0⟩, none, none, []⟩) ?_ ?_
    · refine file_leaf _ _ _ _ _ .ftyp (by rfl) ?_ (by simp) rfl rfl rfl
      rw [box_length _ _ (by rfl), file_ftyp_length]; decide
    · refine file_node _ _ _ _ ⟨⟨.waitingMvhd, [], none, false, 0⟩, none, none, []⟩ _ .moov (by rfl) k3 (fun _ => rfl) (by simp) (fun _ => rfl) rfl rfl ?_
      refine tree_append ?_ a4
      have := tree_node (fields := isoFields) (h := PMP4File.handle) (typ := typMvhd) (fs := PMP4File.encodeMvhd D ((placed ts L.tracks).length + 1))
        (body := []) (depth := 2) (r := (⟨⟨.waitingMvhd, [], none, false, 0⟩, none, none, []⟩ : PMP4File.Reader))
        (r1 := (⟨⟨.waitingTrak, [], none, false, 0⟩, none, none, []⟩ : PMP4File.Reader))
        (r' := (⟨⟨.waitingTrak, [], none, false, 0⟩, none, none, []⟩ : PMP4File.Reader)) (by rfl)
        (by rw [List.append_nil, file_mvhd_length]; decide)
        (by rw [file_mvhd_length]; exact file_mvhd_fields D _ _ (List.append_nil _))
        (fun bi expand e => by
          unfold PMP4File.handle
          rw [if_neg (by simp), e]
          rfl) (tree_nil _ _ _ _)
      rwa [List.append_nil] at this
  refine ⟨r'.base.all.zip r'.allCodecs, ?_, ?_⟩
  · unfold PMP4File.unmarshal
    rw [tree_file hbytes, Res.bind_ok, if_neg hst, if_neg hall]
  · have hcod : r'.allCodecs = ts.map fun t => t.codec.map restoredCodec := by
      rw [a5]
      show [] ++ _ = _
      rw [List.nil_append]
      have e1 : ts.map (fun t => t.codec.map restoredCodec) = (ts.map (·.codec)).map (Option.map restoredCodec) := by
        rw [List.map_map]; rfl
      rw [e1, ← z2, ← k1, List.map_map, List.map_map]
      refine List.map_congr_left fun x hx => ?_
      show _ = x.1.codec.map restoredCodec
      rw [(k2 x hx).codec]; rfl
    have e2 : ∀ (l : List RTrack) (k : List (Option Codec)) (f : RTrack → Nat × Nat × Int × List (Nat × Int × Bool × Nat × Res Bytes)),
        (l.zip k).map (fun x => (f x.1, x.2)) = (l.map f).zip k := by
      intro l
      induction l with
      | nil => intro k f; rfl
      | cons x l ih =>
        intro k f
        cases k with
        | nil => rfl
        | cons y k => rw [List.zip_cons_cons, List.map_cons, List.map_cons, List.zip_cons_cons, ih]
    rw [e2, c3, hcod, List.map_map]
    exact file_zip_map ts _ _

/-- A video and an audio track. -/
def fileExample : List PMP4File.Track :=
  [⟨⟨1, 90000, -90000, [⟨90000, 45000, false, 2, [1, 2], 0⟩, ⟨90000, -45000, true, 3, [3, 4, 5], 0⟩]⟩, some (.mjpeg 640 480)⟩,
    ⟨⟨4294967295, 48000, 960, [⟨960, 0, false, 1, [6], 0⟩, ⟨960, 0, false, 0, [], 0⟩, ⟨960, 0, false, 1, [7], 0⟩]⟩, some (.opus 2)⟩]

example : ∀ t ∈ fileExample, FileGood t := by
  have hm : 2 ≤ maxSamples ∧ 3 ≤ maxSamples := by decide
  intro t ht
  simp only [fileExample, List.mem_cons, List.not_mem_nil, or_false] at ht
  rcases ht with rfl | rfl
  · exact ⟨⟨by decide, by decide, by decide, hm.1, by decide, by decide⟩, by decide, by decide, fun c hc => by cases hc; exact ⟨by decide, by decide⟩⟩
  · exact ⟨⟨by decide, by decide, by decide, hm.2, by decide, by decide⟩, by decide, by decide, fun c hc => by cases hc; exact ⟨by decide, by decide⟩⟩

example : ∃ file, PMP4File.marshal fileExample = .ok file ∧ file.length < 2 ^ 32 := by
  have h : (PMP4File.marshal fileExample).bind (fun f => if f.length < 2 ^ 32 then .ok () else .err "") = .ok () := by decide +kernel
  obtain ⟨f, hf, h⟩ := Res.bind_eq_ok.1 h
  refine ⟨f, hf, ?_⟩
  by_cases hl : f.length < 2 ^ 32
  · exact hl
  · rw [if_neg hl] at h; cases h

end Verif.Props
