import Verif.Props.PMP4FileTables
import Verif.Props.FMP4InitRoundTrip

/-!
# Bytes of presentations
-/

namespace Verif.Props
open PMP4File MP4Codec MP4Box MP4Writer
open FMP4Init (typFtyp typMoov typMvhd typTrak typTkhd typEdts typMdia typMdhd typHdlr typMinf typStbl typStsd typStts typStsc typStsz typStco
  hdlrPayload writeMediaHeader writeDinf isoFields Handler Fields)
open FMP4 (full writeBoxStart_full writeBoxEnd_full writeBox_full rewriteBox_full box_length)
open PMP4 (Run StscEntry ElstEntry marshalSTTS marshalCTTS marshalSTSS marshalSTSC marshalSTSZ marshalSTCO marshalELST)
open Spec (beBytes)
open Spec.FMP4 (box)
open ByteR (beBytes_length)
open Readers (SBuf)

/-- What is written for a track, besides the track. -/
structure FileParts where
  codec : Codec
  info : CodecInfo
  duration : Nat
  elst : List ElstEntry
  typ : Bytes
  entry : Bytes
  ctyp : Bytes
  config : Bytes
  stts : List (Run Nat)
  ctts : List (Run Int)
  stsc : List StscEntry

def fileStss (samples : List PMP4.Sample) : Bytes :=
  match marshalSTSS samples with
  | none => []
  | some l => box typStss (encodeStss l)

/-- The tables, with chunk offsets `offs`. -/
def fileTables (p : FileParts) (samples : List PMP4.Sample) (offs : List Nat) : Bytes :=
  box typStts (encodeStts p.stts) ++ (fileStss samples ++ (box typCtts (encodeCtts p.ctts) ++ (box typStsc (encodeStsc p.stsc) ++
    (box typStsz (PMP4File.encodeStsz (marshalSTSZ samples)) ++ box typStco (encodeStco offs)))))

def fileEntry (p : FileParts) : Bytes := box p.typ (p.entry ++ box p.ctyp p.config)

def fileStsd (p : FileParts) : Bytes := box typStsd (encodeCount 1 ++ fileEntry p)

def fileStbl (p : FileParts) (samples : List PMP4.Sample) (offs : List Nat) : Bytes := box typStbl (fileStsd p ++ fileTables p samples offs)

def fileMinf (p : FileParts) (samples : List PMP4.Sample) (offs : List Nat) : Bytes :=
  box typMinf (initMediaHeader p.codec ++ (initDinf ++ fileStbl p samples offs))

def fileMdia (t : PMP4.Track) (p : FileParts) (offs : List Nat) : Bytes :=
  box typMdia (box typMdhd (PMP4File.encodeMdhd t.timeScale (PMP4.mediaDuration t)) ++ (box typHdlr (hdlrPayload p.codec) ++
    fileMinf p t.samples offs))

def fileEdts (p : FileParts) : Bytes := box typEdts (box typElst (encodeElst p.elst))

def fileTrak (t : PMP4.Track) (p : FileParts) (offs : List Nat) : Bytes :=
  box typTrak (box typTkhd (PMP4File.tkhdPayload t.id p.duration p.codec p.info) ++ (fileEdts p ++ fileMdia t p offs))

/-! ## The chunk offsets are at the end -/

/-- `x` and `y` differ in their ends only, `u` and `v`. -/
def Differ (pre u v x y : Bytes) : Prop := x = pre ++ u ∧ y = pre ++ v

theorem file_differ_append {pre u v x y : Bytes} (a : Bytes) (h : Differ pre u v x y) : Differ (a ++ pre) u v (a ++ x) (a ++ y) := by
  obtain ⟨rfl, rfl⟩ := h
  exact ⟨by rw [List.append_assoc], by rw [List.append_assoc]⟩

theorem file_differ_box {pre u v x y : Bytes} (typ : Bytes) (hl : u.length = v.length) (h : Differ pre u v x y) :
    Differ (beBytes 4 (8 + x.length) ++ typ ++ pre) u v (box typ x) (box typ y) := by
  obtain ⟨rfl, rfl⟩ := h
  unfold box
  refine ⟨by rw [List.append_assoc (beBytes _ _ ++ typ)], ?_⟩
  rw [List.append_assoc (beBytes _ _ ++ typ), List.length_append, List.length_append, hl]

theorem file_entries_length (l : List Nat) : (encodeEntries (l.map fun n => [(32, n)])).length = 4 * l.length := by
  induction l with
  | nil => rfl
  | cons n l ih =>
    have : encodeEntries ((n :: l).map fun n => [(32, n)]) = pack [(32, n)] ++ encodeEntries (l.map fun n => [(32, n)]) := by
      unfold encodeEntries; rw [List.map_cons, List.flatMap_cons]
    rw [this, List.length_append, ih, pack_length, List.length_cons]
    simp [widths]
    omega

theorem file_stco_length (l : List Nat) : (encodeStco l).length = 8 + 4 * l.length := by
  unfold encodeStco encodeTable
  rw [List.length_append, file_entries_length, pack_length]
  simp [widths]

theorem file_stco_box (l : List Nat) : (box typStco (encodeStco l)).length = 16 + 4 * l.length := by
  rw [box_length _ _ (by rfl), file_stco_length]; omega

/-- The position of the chunk offsets in a track does not depend on them. -/
theorem file_trak_differ (t : PMP4.Track) (p : FileParts) (x y : List Nat) (hl : x.length = y.length) :
    ∃ pre, Differ pre (box typStco (encodeStco x)) (box typStco (encodeStco y)) (fileTrak t p x) (fileTrak t p y) := by
  have hb : (box typStco (encodeStco x)).length = (box typStco (encodeStco y)).length := by rw [file_stco_box, file_stco_box, hl]
  have h0 : Differ [] (box typStco (encodeStco x)) (box typStco (encodeStco y)) (box typStco (encodeStco x)) (box typStco (encodeStco y)) :=
    ⟨rfl, rfl⟩
  generalize hu : box typStco (encodeStco x) = u at *
  generalize hv : box typStco (encodeStco y) = v at *
  unfold fileTrak fileMdia fileMinf fileStbl fileTables
  rw [hu, hv]
  exact ⟨_, file_differ_box _ hb (file_differ_append _ (file_differ_append _ (file_differ_box _ hb (file_differ_append _ (file_differ_append _
    (file_differ_box _ hb (file_differ_append _ (file_differ_append _ (file_differ_box _ hb (file_differ_append _ (file_differ_append _
      (file_differ_append _ (file_differ_append _ (file_differ_append _ (file_differ_append _ h0)))))))))))))))⟩

/-! ## What is written -/

theorem file_one (a typ body : Bytes) (r : Int × SBuf) (ht : typ.length = 4) (h : writeBox (full a) typ body = .ok r) :
    r = ((a.length : Int), full (a ++ box typ body)) ∧ 8 + body.length < 2 ^ 32 := by
  obtain ⟨h1, h2⟩ := put_box a typ body r ht h
  rw [writeBox_full a typ body ht h2] at h
  cases h
  exact ⟨rfl, h2⟩

/-- What the functions that write boxes do when they succeed, positions included. -/
structure FileWriters (start : SBuf → Bytes → Bytes → Res (Int × SBuf)) (one : SBuf → Bytes → Bytes → Res (Int × SBuf))
    (stop : SBuf → Int → Bytes → Res SBuf) : Prop where
  start : ∀ a typ payload r, start (full a) typ payload = .ok r → r = ((a.length : Int), full (a ++ (beBytes 4 0 ++ typ ++ payload)))
  one : ∀ a typ body r, typ.length = 4 → one (full a) typ body = .ok r → r = ((a.length : Int), full (a ++ box typ body)) ∧ 8 + body.length < 2 ^ 32
  stop : ∀ a typ body b f, typ.length = 4 → b = a ++ (beBytes 4 0 ++ typ ++ body) → stop (full b) a.length typ = .ok f →
    f = full (a ++ box typ body) ∧ (box typ body).length < 2 ^ 32

theorem file_writers : FileWriters writeBoxStart writeBox writeBoxEnd where
  start := put_writers.start
  one a typ body r ht h := file_one a typ body r ht h
  stop := put_end_at

theorem file_edts (a : Bytes) (t : PMP4.Track) (f : SBuf) (h : writeEdts (full a) t = .ok f) :
    ∃ elst, marshalELST t = .ok elst ∧ f = full (a ++ box typEdts (box typElst (encodeElst elst))) := by
  unfold writeEdts at h
  have W := file_writers
  generalize writeBoxStart = start at W h
  generalize writeBox = one at W h
  generalize writeBoxEnd = stop at W h
  obtain ⟨⟨_, _⟩, e, h⟩ := Res.bind_eq_ok.1 h
  cases W.start _ _ _ _ e
  clear e
  dsimp only at h
  obtain ⟨elst, he, h⟩ := Res.bind_eq_ok.1 h
  obtain ⟨⟨_, _⟩, e, h⟩ := Res.bind_eq_ok.1 h
  cases (W.one _ _ _ _ (by rfl) e).1
  clear e
  dsimp only at h
  obtain ⟨rfl, _⟩ := W.stop _ typEdts (box typElst (encodeElst elst)) _ _ (by rfl) (by simp only [List.append_nil, List.append_assoc]) h
  exact ⟨elst, he, rfl⟩

/-- What is written for a codec, and that it is read back. -/
structure FileCodec (id : Nat) (c : Codec) (info : CodecInfo) (typ entry ctyp config : Bytes) : Prop where
  filled : fill (some c) = .ok info
  entries : sampleEntry info c = .ok (typ, entry)
  configs : configBox id info (FMP4Init.defaultBitrate c) (FMP4Init.defaultBitrate c) c = .ok (ctyp, config)
  reads : CodecReads typ entry ctyp config (restoredCodec c)

theorem file_stsd (a : Bytes) (id : Nat) (c : Codec) (info : CodecInfo) (f : SBuf) (hk : Kept c) (hf : fill (some c) = .ok info)
    (h : PMP4File.writeStsd (full a) id c info = .ok f) :
    ∃ typ entry ctyp config, FileCodec id c info typ entry ctyp config ∧
      f = full (a ++ box typStsd (encodeCount 1 ++ box typ (entry ++ box ctyp config))) := by
  unfold PMP4File.writeStsd writeCodecBoxes at h
  have W := file_writers
  generalize writeBoxStart = start at W h
  generalize writeBox = one at W h
  generalize writeBoxEnd = stop at W h
  obtain ⟨⟨_, _⟩, e, h⟩ := Res.bind_eq_ok.1 h
  cases W.start _ _ _ _ e
  clear e
  dsimp only at h
  obtain ⟨⟨off, etyp, f2⟩, h2, h⟩ := Res.bind_eq_ok.1 h
  obtain ⟨⟨typ, entry⟩, g1, h2⟩ := Res.bind_eq_ok.1 h2
  obtain ⟨⟨_, _⟩, e, h2⟩ := Res.bind_eq_ok.1 h2
  cases W.start _ _ _ _ e
  clear e
  dsimp only at h2
  obtain ⟨⟨ctyp, config⟩, g3, h2⟩ := Res.bind_eq_ok.1 h2
  have hr := init_codec c info id _ _ typ entry ctyp config hk hf g1 g3
  obtain ⟨⟨_, _⟩, e, h2⟩ := Res.bind_eq_ok.1 h2
  cases (W.one _ _ _ _ hr.ctyp4 e).1
  clear e
  dsimp only at h2
  cases h2
  obtain ⟨f6, h6, h⟩ := Res.bind_eq_ok.1 h
  obtain ⟨rfl, _⟩ := W.stop _ etyp (entry ++ box ctyp config) _ _ hr.typ4 (by simp only [List.append_assoc]) h6
  obtain ⟨rfl, _⟩ := W.stop _ typStsd (encodeCount 1 ++ box etyp (entry ++ box ctyp config)) _ _ (by rfl)
    (by simp only [List.append_assoc]) h
  exact ⟨etyp, entry, ctyp, config, ⟨hf, g1, g3, hr⟩, rfl⟩

theorem file_stss (a : Bytes) (samples : List PMP4.Sample) (f : SBuf) (h : writeStss (full a) samples = .ok f) :
    f = full (a ++ fileStss samples) := by
  unfold writeStss at h
  unfold fileStss
  split at h
  · cases h; rw [‹marshalSTSS samples = none›, List.append_nil]
  · rename_i l hl
    rw [hl]
    obtain ⟨⟨_, _⟩, e, h⟩ := Res.bind_eq_ok.1 h
    cases (file_one _ _ _ _ (by rfl) e).1
    cases h
    rfl

theorem file_tables (a : Bytes) (samples : List PMP4.Sample) (r : Int × SBuf) (h : writeTables (full a) samples = .ok r) :
    ∃ stts ctts stsc pre, marshalSTTS samples = .ok stts ∧ marshalCTTS samples = .ok ctts ∧ marshalSTSC samples = .ok stsc ∧
      pre = box typStts (encodeStts stts) ++ (fileStss samples ++ (box typCtts (encodeCtts ctts) ++ (box typStsc (encodeStsc stsc) ++
        box typStsz (PMP4File.encodeStsz (marshalSTSZ samples))))) ∧
      r = (((a ++ pre).length : Int), full (a ++ (pre ++ box typStco (encodeStco (marshalSTCO samples))))) ∧
      8 + (encodeStco (marshalSTCO samples)).length < 2 ^ 32 := by
  unfold writeTables at h
  have S := file_stss
  generalize writeStss = stss at S h
  have W := file_writers
  generalize writeBoxStart = start at W
  generalize writeBox = one at W h
  generalize writeBoxEnd = stop at W
  obtain ⟨stts, h1, h⟩ := Res.bind_eq_ok.1 h
  obtain ⟨⟨_, _⟩, e, h⟩ := Res.bind_eq_ok.1 h
  cases (W.one _ _ _ _ (by rfl) e).1
  clear e
  dsimp only at h
  obtain ⟨f2, h2, h⟩ := Res.bind_eq_ok.1 h
  obtain rfl := S _ _ _ h2
  obtain ⟨ctts, h3, h⟩ := Res.bind_eq_ok.1 h
  obtain ⟨⟨_, _⟩, e, h⟩ := Res.bind_eq_ok.1 h
  cases (W.one _ _ _ _ (by rfl) e).1
  clear e
  dsimp only at h
  obtain ⟨stsc, h4, h⟩ := Res.bind_eq_ok.1 h
  obtain ⟨⟨_, _⟩, e, h⟩ := Res.bind_eq_ok.1 h
  cases (W.one _ _ _ _ (by rfl) e).1
  clear e
  dsimp only at h
  obtain ⟨⟨_, _⟩, e, h⟩ := Res.bind_eq_ok.1 h
  cases (W.one _ _ _ _ (by rfl) e).1
  clear e
  dsimp only at h
  obtain ⟨e, hl⟩ := W.one _ _ _ _ (by rfl) h
  refine ⟨stts, ctts, stsc, _, h1, h3, h4, rfl, ?_, hl⟩
  rw [e]
  simp only [List.append_assoc]

theorem file_stbl (a : Bytes) (t : Track) (c : Codec) (info : CodecInfo) (r : Int × SBuf) (hk : Kept c) (hf : fill (some c) = .ok info)
    (h : PMP4File.writeStbl (full a) t c info = .ok r) :
    ∃ typ entry ctyp config stts ctts stsc, FileCodec t.id c info typ entry ctyp config ∧ marshalSTTS t.samples = .ok stts ∧
      marshalCTTS t.samples = .ok ctts ∧ marshalSTSC t.samples = .ok stsc ∧
      ∀ duration elst, r.2 = full (a ++ fileStbl ⟨c, info, duration, elst, typ, entry, ctyp, config, stts, ctts, stsc⟩ t.samples (marshalSTCO t.samples)) ∧
        r.1 + (box typStco (encodeStco (marshalSTCO t.samples))).length = r.2.buf.length := by
  unfold PMP4File.writeStbl at h
  have T := fun a f h => file_stsd a t.id c info f hk hf h
  generalize PMP4File.writeStsd = stsd at T h
  have S := file_tables
  generalize writeTables = tables at S h
  have W := file_writers
  generalize writeBoxStart = start at W h
  generalize writeBox = one at W
  generalize writeBoxEnd = stop at W h
  obtain ⟨⟨_, _⟩, e, h⟩ := Res.bind_eq_ok.1 h
  cases W.start _ _ _ _ e
  clear e
  dsimp only at h
  obtain ⟨f2, h2, h⟩ := Res.bind_eq_ok.1 h
  obtain ⟨typ, entry, ctyp, config, hr, rfl⟩ := T _ _ h2
  obtain ⟨⟨_, _⟩, h3, h⟩ := Res.bind_eq_ok.1 h
  obtain ⟨stts, ctts, stsc, pre, g1, g2, g3, g4, g5, _⟩ := S _ _ _ h3
  cases g5
  dsimp only at h
  obtain ⟨f4, h4, h⟩ := Res.bind_eq_ok.1 h
  cases h
  obtain ⟨rfl, _⟩ := W.stop _ typStbl (box typStsd (encodeCount 1 ++ box typ (entry ++ box ctyp config)) ++
    (pre ++ box typStco (encodeStco (marshalSTCO t.samples)))) _ _ (by rfl) (by simp only [List.append_nil, List.append_assoc]) h4
  refine ⟨typ, entry, ctyp, config, stts, ctts, stsc, hr, g1, g2, g3, fun duration elst => ⟨?_, ?_⟩⟩
  · unfold fileStbl fileStsd fileTables fileEntry
    rw [g4]
    simp only [List.append_assoc]
  · show ((_ : Nat) : Int) + _ = ((_ : Nat) : Int)
    unfold full
    unfold box
    simp only [List.length_append, beBytes_length, List.length_nil]
    omega

/-- What is written for a track. -/
theorem file_track (a : Bytes) (t : Track) (r : Marshaled × SBuf) (hk : ∀ c, t.codec = some c → Kept c)
    (h : PMP4File.marshalTrack (full a) t = .ok r) :
    ∃ p : FileParts, t.codec = some p.codec ∧ FileCodec t.id p.codec p.info p.typ p.entry p.ctyp p.config ∧
      marshalSTTS t.samples = .ok p.stts ∧ marshalCTTS t.samples = .ok p.ctts ∧ marshalSTSC t.samples = .ok p.stsc ∧
      PMP4.presentationDuration t.toTrack = .ok p.duration ∧ marshalELST t.toTrack = .ok p.elst ∧
      r.2 = full (a ++ fileTrak t.toTrack p (marshalSTCO t.samples)) ∧ r.1.stco = marshalSTCO t.samples ∧ r.1.presentationDuration = p.duration ∧
      r.1.stcoOffset + (box typStco (encodeStco (marshalSTCO t.samples))).length = r.2.buf.length ∧
      (fileTrak t.toTrack p (marshalSTCO t.samples)).length < 2 ^ 32 := by
  unfold PMP4File.marshalTrack at h
  have D := put_dinf
  generalize writeDinf = dinf at D h
  have M : ∀ a c o f, writeMediaHeader (full a) c = .ok (o, f) → f = full (a ++ initMediaHeader c) := fun a c o f h => put_media a c _ h
  generalize writeMediaHeader = header at M h
  have E := file_edts
  generalize writeEdts = edts at E h
  have T := fun a c info r hk hf h => file_stbl a t c info r hk hf h
  generalize PMP4File.writeStbl = stbl at T h
  have W := file_writers
  generalize writeBoxStart = start at W h
  generalize writeBox = one at W h
  generalize writeBoxEnd = stop at W h
  obtain ⟨⟨_, _⟩, e, h⟩ := Res.bind_eq_ok.1 h
  cases W.start _ _ _ _ e
  clear e
  dsimp only at h
  obtain ⟨info, hf, h⟩ := Res.bind_eq_ok.1 h
  obtain ⟨c, hc, h⟩ := Res.bind_eq_ok.1 h
  cases hcd : t.codec with
  | none => rw [hcd] at hc; cases hc
  | some c' =>
    rw [hcd] at hc hf
    cases hc
    obtain ⟨duration, hd, h⟩ := Res.bind_eq_ok.1 h
    obtain ⟨⟨_, _⟩, e, h⟩ := Res.bind_eq_ok.1 h
    cases (W.one _ _ _ _ (by rfl) e).1
    clear e
    dsimp only at h
    obtain ⟨f3, h3, h⟩ := Res.bind_eq_ok.1 h
    obtain ⟨elst, he, rfl⟩ := E _ _ _ h3
    obtain ⟨⟨_, _⟩, e, h⟩ := Res.bind_eq_ok.1 h
    cases W.start _ _ _ _ e
    clear e
    dsimp only at h
    obtain ⟨⟨_, _⟩, e, h⟩ := Res.bind_eq_ok.1 h
    cases (W.one _ _ _ _ (by rfl) e).1
    clear e
    dsimp only at h
    obtain ⟨⟨_, _⟩, e, h⟩ := Res.bind_eq_ok.1 h
    cases (W.one _ _ _ _ (by rfl) e).1
    clear e
    dsimp only at h
    obtain ⟨⟨_, _⟩, e, h⟩ := Res.bind_eq_ok.1 h
    cases W.start _ _ _ _ e
    clear e
    dsimp only at h
    obtain ⟨⟨_, _⟩, e, h⟩ := Res.bind_eq_ok.1 h
    obtain rfl := M _ _ _ _ e
    clear e
    dsimp only at h
    obtain ⟨f8, h8, h⟩ := Res.bind_eq_ok.1 h
    obtain rfl := D _ _ h8
    obtain ⟨⟨off, f9⟩, h9, h⟩ := Res.bind_eq_ok.1 h
    obtain ⟨typ, entry, ctyp, config, stts, ctts, stsc, hr, g1, g2, g3, g4⟩ := T _ _ _ _ (hk c hcd) hf h9
    obtain ⟨g4, g5⟩ := g4 duration elst
    dsimp only at g4 g5 h
    subst g4
    generalize hp : (⟨c, info, duration, elst, typ, entry, ctyp, config, stts, ctts, stsc⟩ : FileParts) = p at *
    have p1 : p.codec = c := by rw [← hp]
    have p2 : p.info = info := by rw [← hp]
    have p3 : p.duration = duration := by rw [← hp]
    have p4 : p.elst = elst := by rw [← hp]
    obtain ⟨f10, h10, h⟩ := Res.bind_eq_ok.1 h
    obtain ⟨rfl, _⟩ := W.stop _ typMinf (initMediaHeader c ++ (initDinf ++ fileStbl p t.samples (marshalSTCO t.samples))) _ _ (by rfl)
      (by simp only [List.append_nil, List.append_assoc]) h10
    obtain ⟨f11, h11, h⟩ := Res.bind_eq_ok.1 h
    obtain ⟨rfl, _⟩ := W.stop _ typMdia (box typMdhd (PMP4File.encodeMdhd t.timeScale (PMP4.mediaDuration t.toTrack)) ++ (box typHdlr (hdlrPayload c) ++
      fileMinf p t.samples (marshalSTCO t.samples))) _ _ (by rfl)
      (by unfold fileMinf; rw [p1]; simp only [List.append_nil, List.append_assoc]) h11
    obtain ⟨f12, h12, h⟩ := Res.bind_eq_ok.1 h
    obtain ⟨rfl, hl⟩ := W.stop _ typTrak (box typTkhd (PMP4File.tkhdPayload t.id duration c info) ++ (fileEdts p ++
      fileMdia t.toTrack p (marshalSTCO t.samples))) _ _ (by rfl)
      (by unfold fileMdia fileEdts; rw [p1, p4]; simp only [List.append_nil, List.append_assoc]) h12
    have ht : box typTrak (box typTkhd (PMP4File.tkhdPayload t.id duration c info) ++ (fileEdts p ++
      fileMdia t.toTrack p (marshalSTCO t.samples))) = fileTrak t.toTrack p (marshalSTCO t.samples) := by
      unfold fileTrak; rw [p1, p2, p3]
    rw [ht] at hl h
    cases h
    refine ⟨p, by rw [p1], by rw [← hp]; exact hr, by rw [← hp]; exact g1, by rw [← hp]; exact g2, by rw [← hp]; exact g3, by rw [p3]; exact hd,
      by rw [p4]; exact he, rfl, rfl, p3.symm, ?_, hl⟩
    dsimp only
    rw [g5]
    unfold fileTrak fileMdia fileEdts fileMinf
    unfold full
    rw [p1, p2, p3, p4]
    unfold box
    simp only [List.length_append, beBytes_length, List.length_nil]
    omega

end Verif.Props
