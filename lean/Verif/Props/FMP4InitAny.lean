import Verif.Spec.InitSegment
import Verif.Props.CodecRecordsReadCases

/-!
# C92: initialization segments of any writer
-/

namespace Verif.Props
open MP4Box MP4Codec
open FMP4Init (isoFields handle Reader InitTrack unmarshal readTree Handler)
open FMP4 (box_length)
open Spec (beBytes)
open ByteR (beBytes_length)
open Records
open Spec.FMP4 (box)
open Spec.Records (Carries fourcc)
open Spec.InitSegment

/-! ## Other boxes -/

theorem alien_readBox (r : Reader) (typ p : Bytes) (expand : Reader → Res Reader) (h : typ ∉ pathBoxes) : r.readBox typ p expand = .ok r := by
  rw [show pathBoxes = [FMP4Init.typFtyp, FMP4Init.typMoov, FMP4Init.typMvhd, FMP4Init.typUdta, FMP4Init.typTrak, FMP4Init.typTkhd, FMP4Init.typMdia,
    FMP4Init.typMdhd, FMP4Init.typMinf, FMP4Init.typStbl, FMP4Init.typStsd] by decide] at h
  simp only [List.mem_cons, List.not_mem_nil, or_false, not_or] at h
  obtain ⟨h1, h2, h3, h4, h5, h6, h7, h8, h9, h10, h11⟩ := h
  unfold Reader.readBox
  rw [if_neg h1, if_neg h2, if_neg h4, if_neg h3, if_neg h5, if_neg h6, if_neg h7, if_neg h8, if_neg (by rintro (h | h); exact h9 h; exact h10 h),
    if_neg h11]

theorem alien_codecBox (r : CodecReader) (typ p : Bytes) (h : typ ∉ codecBoxes) : r.readBox typ p = .ok (.done r) := by
  rw [show codecBoxes = [typAvc1, typAvcC, typHvc1, typHev1, typHvcC, typVp09, typVpcC, typAv01, typAv1C, typMp4v, typMp4a, typEsds, typOpus, typDOps,
    typFlac, typDfLa, typAc3, typDac3, typEc3, typDec3, typIpcm, typPcmC, typC608] by decide] at h
  simp only [List.mem_cons, List.not_mem_nil, or_false, not_or] at h
  obtain ⟨h1, h2, h3, h4, h5, h6, h7, h8, h9, h10, h11, h12, h13, h14, h15, h16, h17, h18, h19, h20, h21, h22, h23⟩ := h
  unfold CodecReader.readBox
  rw [if_neg h23, if_neg h1, if_neg h2, if_neg h6, if_neg h7, if_neg (by rintro (h | h); exact h3 h; exact h4 h), if_neg h5, if_neg h11, if_neg h8,
    if_neg h9, if_neg h13, if_neg h14, if_neg h15, if_neg h16, if_neg h10, if_neg h12, if_neg h17, if_neg h18, if_neg h19, if_neg h20, if_neg h21,
    if_neg h22]

theorem alien_length {l : List Other} {o : Other} (h : o ∈ l) : o.bytes.length ≤ (others l).length := by
  induction l with
  | nil => cases h
  | cons a l ih =>
    unfold others at ih ⊢
    rw [List.flatMap_cons, List.length_append]
    rcases List.mem_cons.1 h with rfl | h
    · omega
    · have := ih h; omega

/-! ## Headers of other boxes -/

theorem alien_box_length (typ body : Bytes) (ht : typ.length = 4) : (largeBox typ body).length = 16 + body.length := by
  unfold largeBox; simp only [List.length_append, beBytes_length, ht]

theorem alien_readBoxInfo (a c typ body : Bytes) (ht : typ.length = 4) (hl : 16 + body.length < 2 ^ 64) :
    FMP4.readBoxInfo (a ++ (largeBox typ body ++ c)) a.length = .ok (some ⟨a.length, 16 + body.length, 16, typ⟩) := by
  have hd : (a ++ (largeBox typ body ++ c)).drop a.length = beBytes 4 1 ++ (typ ++ (beBytes 8 (16 + body.length) ++ (body ++ c))) := by
    rw [List.drop_left]; unfold largeBox; simp only [List.append_assoc]
  unfold FMP4.readBoxInfo
  rw [hd, if_neg (by simp only [List.length_append, beBytes_length, ht]; omega), fmp4_takeBE 4 _ _ (by omega), Res.bind_ok]
  simp only
  rw [if_neg (by omega), if_pos trivial, if_neg (by simp only [List.length_append, beBytes_length, ht]; omega), List.drop_left' ht,
    fmp4_takeBE 8 _ _ (by omega), Res.bind_ok]
  simp only
  rw [if_neg (by omega), List.take_left' ht]

theorem alien_payload (a c typ body : Bytes) (ht : typ.length = 4) :
    FMP4.BoxInfo.payload ⟨a.length, 16 + body.length, 16, typ⟩ (a ++ (largeBox typ body ++ c)) = body := by
  unfold FMP4.BoxInfo.payload largeBox
  simp only
  have : a ++ (beBytes 4 1 ++ typ ++ beBytes 8 (16 + body.length) ++ body ++ c) =
      (a ++ (beBytes 4 1 ++ typ ++ beBytes 8 (16 + body.length))) ++ (body ++ c) := by
    simp only [List.append_assoc]
  rw [this, List.drop_left' (by simp only [List.length_append, beBytes_length, ht]),
    show 16 + body.length - 16 = body.length by omega, List.take_left]

/-- A box that is not expanded, with a header of either size. -/
theorem alien_leaf {σ : Type} {fields : FMP4Init.Fields} {h : Handler σ} (o : Other) {depth : Nat} {r r' : σ} (ht : o.typ.length = 4) (hl : o.Fits)
    (hh : ∀ bi expand, bi.typ = o.typ → h bi depth o.payload expand r = .ok r') : Reads fields h o.bytes depth r r' := by
  obtain ⟨typ, body, large⟩ := o
  dsimp only at ht hh
  unfold Other.Fits Other.bytes at hl
  unfold Other.bytes
  cases large with
  | false =>
    dsimp only at hl ⊢
    rw [if_neg (by simp), if_neg (by simp), box_length _ _ ht] at hl
    rw [if_neg (by simp)]
    exact tree_leaf ht hl hh
  | true =>
    dsimp only at hl ⊢
    rw [if_pos rfl, if_pos rfl, alien_box_length _ _ ht] at hl
    rw [if_pos rfl]
    refine ⟨1, by rw [alien_box_length _ _ ht]; omega, fun n a c left left' hr hn => ?_⟩
    rw [alien_box_length _ _ ht] at hr
    conv => lhs; unfold readTree
    have h1 : left.any (· < 8) = false := by
      rcases hr with ⟨h, _⟩ | ⟨k, h, _⟩ <;> subst h <;> simp; omega
    have h2 : left.any (· < 16 + body.length) = false := by
      rcases hr with ⟨h, _⟩ | ⟨k, h, _⟩ <;> subst h <;> simp
    have h3 : left.map (· - (16 + body.length)) = left' := by
      rcases hr with ⟨h, h'⟩ | ⟨k, h, h'⟩ <;> subst h h' <;> simp
    rw [h1, if_neg (by simp), alien_readBoxInfo a c typ body ht hl, Res.bind_ok]
    simp only
    rw [h2, if_neg (by simp), alien_payload a c typ body ht, h3, hh _ _ rfl, Res.bind_ok]
    rw [List.length_append, alien_box_length _ _ ht]

theorem alien_fits {o : Other} (h : o.bytes.length < 2 ^ 32) : o.Fits := by
  unfold Other.Fits; split <;> omega

theorem alien_all {l : List Other} {depth : Nat} {r : Reader} (h : ∀ o ∈ l, Reads isoFields (handle isoFields) o.bytes depth r r) :
    Reads isoFields (handle isoFields) (others l) depth r r := by
  induction l with
  | nil => exact tree_nil _ _ _ _
  | cons a l ih =>
    unfold others at ih ⊢
    rw [List.flatMap_cons]
    exact tree_append (h a (by simp)) (ih fun o ho => h o (List.mem_cons_of_mem _ ho))

/-- Other boxes outside of codec boxes and user data. -/
theorem alien_plain {l : List Other} (depth : Nat) (r : Reader) (hl : (others l).length < 2 ^ 32) (h : NoneOf pathBoxes l)
    (h1 : r.state ≠ .readingUserData) (h2 : r.state ≠ .readingCodec) : Reads isoFields (handle isoFields) (others l) depth r r := by
  refine alien_all fun o ho => ?_
  have := alien_length ho
  refine alien_leaf o (h o ho).1 (alien_fits (by omega)) fun bi expand e => ?_
  unfold handle
  split
  · exact absurd ‹_› h1
  · exact absurd ‹_› h2
  · rw [e, alien_readBox _ _ _ _ (h o ho).2]

/-- Other boxes among codec boxes. -/
theorem alien_codec {l : List Other} (depth : Nat) (ts : List InitTrack) (ud : List (Bytes × Bytes)) (c : CodecReader)
    (hl : (others l).length < 2 ^ 32) (h : NoneOf codecBoxes l) (hd : ¬ depth < 7) :
    Reads isoFields (handle isoFields) (others l) depth ⟨.readingCodec, ts, ud, some c⟩ ⟨.readingCodec, ts, ud, some c⟩ := by
  refine alien_all fun o ho => ?_
  have := alien_length ho
  refine alien_leaf o (h o ho).1 (alien_fits (by omega)) fun bi expand e => ?_
  show (deref (some c) >>= _) = _
  unfold deref
  rw [Res.bind_ok]
  unfold CodecReader.read
  rw [if_neg hd, e, alien_codecBox _ _ _ (h o ho).2, Res.bind_ok]
  rfl

/-! ## States in which a track is complete -/

/-- The next box is read as in the state that waits for a track, with the given tracks and user data. -/
def Acts (depth : Nat) (ts : List InitTrack) (ud : List (Bytes × Bytes)) (r : Reader) : Prop :=
  ∀ bi p expand, handle isoFields bi depth p expand r = Reader.readBox ⟨.waitingTrak, ts, ud, r.codecReader⟩ bi.typ p expand

theorem acts_waiting (depth : Nat) (ts : List InitTrack) (ud : List (Bytes × Bytes)) (cr : Option CodecReader) :
    Acts depth ts ud ⟨.waitingTrak, ts, ud, cr⟩ := fun _ _ _ => rfl

theorem acts_userData (depth : Nat) (ts : List InitTrack) (ud : List (Bytes × Bytes)) (cr : Option CodecReader) (hd : depth < 3) :
    Acts depth ts ud ⟨.readingUserData, ts, ud, cr⟩ := by
  intro bi p expand
  show (if depth < 3 then _ else _) = _
  rw [if_pos hd]

theorem acts_codec (depth : Nat) (ts : List InitTrack) (t : InitTrack) (ud : List (Bytes × Bytes)) (cr : CodecReader) (c : Codec) (hd : depth < 7)
    (h1 : cr.codec = some c) (h2 : cr.state = .waitingAdditional) :
    Acts depth (ts ++ [{ t with codec := some c }]) ud ⟨.readingCodec, ts ++ [t], ud, some cr⟩ := by
  intro bi p expand
  show (deref (some cr) >>= _) = _
  unfold deref
  rw [Res.bind_ok]
  unfold CodecReader.read
  rw [if_pos hd, h2, if_neg (by simp), Res.bind_ok]
  show (Reader.codecEnded _ cr >>= _) = _
  unfold Reader.codecEnded
  rw [h1, if_pos (by simp)]
  unfold Reader.onTrack
  simp only [List.reverse_append, List.reverse_cons, List.reverse_nil, List.nil_append, List.singleton_append, List.reverse_reverse]
  rw [Res.bind_ok]

/-- Other boxes after a track: the first of them ends the codec boxes or the user data. -/
theorem acts_others {l : List Other} {depth : Nat} {ts : List InitTrack} {ud : List (Bytes × Bytes)} {r : Reader} (hl : (others l).length < 2 ^ 32)
    (h : NoneOf pathBoxes l) (hr : Acts depth ts ud r) :
    Reads isoFields (handle isoFields) (others l) depth r (if l.isEmpty then r else ⟨.waitingTrak, ts, ud, r.codecReader⟩) := by
  cases l with
  | nil => exact tree_nil _ _ _ _
  | cons o l =>
    show Reads _ _ (others (o :: l)) _ _ (⟨.waitingTrak, ts, ud, r.codecReader⟩ : Reader)
    unfold others at hl ⊢
    rw [List.flatMap_cons] at hl ⊢
    rw [List.length_append] at hl
    refine tree_append ?_ (alien_plain depth _ (by unfold others; omega) (fun o ho => h o (List.mem_cons_of_mem _ ho)) (by simp) (by simp))
    have := h o (by simp)
    refine alien_leaf o this.1 (alien_fits (by omega)) fun bi expand e => ?_
    rw [hr, e, alien_readBox _ _ _ _ this.2]

/-! ## Headers -/

theorem alien_head {b : Bytes} {v : Nat} {fs : Spec.Records.Fields} (h : Carries b ((8, v) :: fs)) (h8 : (widths fs).sum % 8 = 0) :
    b.head? = some 0 ↔ v = 0 := by
  have hv : v < 2 ^ 8 := h.1 (8, v) (by simp)
  obtain ⟨x, y, rfl, hx, _⟩ := taken_split (fs := [(8, v)]) (gs := fs) h (by simp [widths]) h8
  have hx' := taken_bytes (x := [UInt8.ofNat v]) (b := x) (by
    refine ⟨fun f hf => ?_, ?_⟩
    · simp only [Spec.Records.bytes, List.map_cons, List.map_nil, List.mem_singleton] at hf
      subst hf
      exact (UInt8.ofNat v).toNat_lt
    · rw [hx.2]
      simp [Spec.Records.bytes, Nat.mod_eq_of_lt hv])
  subst hx'
  simp only [List.singleton_append, List.head?_cons, Option.some.injEq]
  constructor
  · intro e
    have := congrArg UInt8.toNat e
    simp at this
    omega
  · rintro rfl; rfl

theorem alien_timeWidth {b : Bytes} {v : Nat} {fs : Spec.Records.Fields} (h : Carries b ((8, v) :: fs)) (h8 : (widths fs).sum % 8 = 0) :
    timeWidth b = times v := by
  unfold timeWidth times
  by_cases hv : v = 0
  · rw [if_pos hv, if_pos ((alien_head h h8).2 hv)]
  · rw [if_neg hv, if_neg fun e => hv ((alien_head h h8).1 e)]

theorem alien_times (v : Nat) : times v % 8 = 0 := by unfold times; split <;> rfl

theorem alien_tkhd {b : Bytes} {t : Tkhd} (h : Carries b t.fields) : decodeTkhd b = .ok t.id := by
  have ht := alien_times t.version
  have hw := alien_timeWidth h (by simp only [widths, List.map_cons, List.map_nil, List.sum_cons, List.sum_nil]; omega)
  unfold decodeTkhd
  rw [hw]
  dsimp only
  rw [taken_read_all _ h (by rfl) (by
    unfold Tkhd.fields; simp only [widths, List.map_cons, List.map_nil, List.sum_cons, List.sum_nil]; omega), Res.bind_ok]
  rfl

theorem alien_mdhd {b : Bytes} {m : Mdhd} (h : Carries b m.fields) : decodeMdhd b = .ok m.timeScale := by
  have ht := alien_times m.version
  have hw := alien_timeWidth h (by simp only [widths, List.map_cons, List.map_nil, List.sum_cons, List.sum_nil]; omega)
  unfold decodeMdhd
  rw [hw]
  dsimp only
  rw [taken_read_all _ h (by rfl) (by
    unfold Mdhd.fields; simp only [widths, List.map_cons, List.map_nil, List.sum_cons, List.sum_nil]; omega), Res.bind_ok]
  rfl

/-! ## Tracks -/

/-- A sample description of a codec. -/
structure DescriptionMeans (d : Description) (c : Codec) : Prop where
  head : d.head.length = 8
  codec : CodecReads d.typ d.entry d.ctyp d.config c
  before : NoneOf codecBoxes d.before
  after : NoneOf codecBoxes d.after
  rest : NoneOf codecBoxes d.rest

/-- A track: its headers follow the standard and its codec can be read. -/
structure TrackMeans (t : Track) (it : InitTrack) : Prop where
  tkhd : ∃ h : Tkhd, Carries t.tkhd h.fields ∧ it.id = h.id
  mdhd : ∃ h : Mdhd, Carries t.mdhd h.fields ∧ 0 < h.timeScale ∧ it.timeScale = h.timeScale
  codec : ∃ c, DescriptionMeans t.description c ∧ it.codec = some c
  avgBitrate : it.avgBitrate = 0
  maxBitrate : it.maxBitrate = 0
  trak : NoneOf pathBoxes t.trak1 ∧ NoneOf pathBoxes t.trak2 ∧ NoneOf pathBoxes t.trak3
  mdia : NoneOf pathBoxes t.mdia1 ∧ NoneOf pathBoxes t.mdia2 ∧ NoneOf pathBoxes t.mdia3
  minf : NoneOf pathBoxes t.minf1 ∧ NoneOf pathBoxes t.minf2
  stbl : NoneOf pathBoxes t.stbl1 ∧ NoneOf pathBoxes t.stbl2

theorem alien_description (d : Description) (c : Codec) (ts : List InitTrack) (ud : List (Bytes × Bytes)) (cr0 : Option CodecReader)
    (h : DescriptionMeans d c) (hl : d.bytes.length < 2 ^ 32) :
    ∃ cr : CodecReader, cr.codec = some c ∧ cr.state = .waitingAdditional ∧
      Reads isoFields (handle isoFields) d.bytes 6 ⟨.waitingStsd, ts, ud, cr0⟩ ⟨.readingCodec, ts, ud, some cr⟩ := by
  obtain ⟨h1, h2, h3, r, h4, h5⟩ := h.codec
  unfold Description.bytes at hl ⊢
  have hl' := hl
  rw [box_length _ _ (by rfl), List.length_append, List.length_append, box_length _ _ h1, List.length_append, List.length_append,
    List.length_append, box_length _ _ h2] at hl'
  have hs := h.head
  refine ⟨{ r with codec := some c, state := .waitingAdditional }, rfl, rfl, ?_⟩
  refine tree_node (by rfl) (by rwa [box_length _ _ (by rfl)] at hl) (by rw [hs]; rfl) (fun bi expand e => ?_)
    (r1 := (⟨.readingCodec, ts, ud, some {}⟩ : Reader)) (tree_append (r' :=
      ⟨.readingCodec, ts, ud, some { r with codec := some c, state := .waitingAdditional }⟩) ?_ ?_)
  · show Reader.readBox _ bi.typ _ expand = _
    rw [e]; rfl
  · refine tree_node h1 (by rw [List.length_append, List.length_append, List.length_append, box_length _ _ h2]; omega) (h3 _)
      (fun bi expand e => ?_) (r1 := (⟨.readingCodec, ts, ud, some r⟩ : Reader)) (tree_append (r' := ⟨.readingCodec, ts, ud, some r⟩) ?_
        (tree_append (r' := ⟨.readingCodec, ts, ud, some { r with codec := some c, state := .waitingAdditional }⟩) ?_ ?_))
    · show (deref (some ({} : CodecReader)) >>= _) = _
      unfold deref
      rw [Res.bind_ok]
      unfold CodecReader.read
      rw [if_neg (by decide), e, h4, Res.bind_ok]
      rfl
    · exact alien_codec _ _ _ _ (by omega) h.before (by decide)
    · refine tree_leaf h2 (by omega) fun bi expand e => ?_
      show (deref (some r) >>= _) = _
      unfold deref
      rw [Res.bind_ok]
      unfold CodecReader.read
      rw [if_neg (by decide), e, h5]
      rfl
    · exact alien_codec _ _ _ _ (by omega) h.after (by decide)
  · exact alien_codec _ _ _ _ (by omega) h.rest (by decide)

/-- The reader after a track: the codec boxes end with the next box. -/
def afterTrack (ts : List InitTrack) (t : InitTrack) (c : Codec) (ud : List (Bytes × Bytes)) (cr : CodecReader) (ended : Bool) : Reader :=
  if ended then ⟨.waitingTrak, ts ++ [{ t with codec := some c }], ud, some cr⟩ else ⟨.readingCodec, ts ++ [t], ud, some cr⟩

theorem acts_after (depth : Nat) (ts : List InitTrack) (t : InitTrack) (c : Codec) (ud : List (Bytes × Bytes)) (cr : CodecReader) (ended : Bool)
    (hd : depth < 7) (h1 : cr.codec = some c) (h2 : cr.state = .waitingAdditional) :
    Acts depth (ts ++ [{ t with codec := some c }]) ud (afterTrack ts t c ud cr ended) := by
  unfold afterTrack
  cases ended
  · exact acts_codec depth ts t ud cr c hd h1 h2
  · exact acts_waiting _ _ _ _

theorem alien_after {l : List Other} {depth : Nat} {ts : List InitTrack} {t : InitTrack} {c : Codec} {ud : List (Bytes × Bytes)} {cr : CodecReader}
    (ended : Bool) (hl : (others l).length < 2 ^ 32) (h : NoneOf pathBoxes l) (hd : depth < 7) (h1 : cr.codec = some c)
    (h2 : cr.state = .waitingAdditional) :
    Reads isoFields (handle isoFields) (others l) depth (afterTrack ts t c ud cr ended) (afterTrack ts t c ud cr (ended || !l.isEmpty)) := by
  have := acts_others hl h (acts_after depth ts t c ud cr ended hd h1 h2)
  cases hl : l.isEmpty
  · rw [hl] at this
    have e : afterTrack ts t c ud cr (ended || !false) = ⟨.waitingTrak, ts ++ [{ t with codec := some c }], ud, some cr⟩ := by
      unfold afterTrack; rw [if_pos (by simp)]
    rw [e]
    have e2 : (afterTrack ts t c ud cr ended).codecReader = some cr := by unfold afterTrack; cases ended <;> rfl
    rw [e2] at this
    exact this
  · rw [hl] at this
    have e : (ended || !true) = ended := by cases ended <;> rfl
    rw [e]
    exact this

theorem alien_track (t : Track) (it : InitTrack) (ts : List InitTrack) (ud : List (Bytes × Bytes)) (r : Reader) (h : TrackMeans t it)
    (hr : Acts 2 ts ud r) (hl : t.bytes.length < 2 ^ 32) :
    ∃ (cr : CodecReader) (t0 : InitTrack) (c : Codec), cr.codec = some c ∧ cr.state = .waitingAdditional ∧ { t0 with codec := some c } = it ∧
      Reads isoFields (handle isoFields) t.bytes 2 r (afterTrack ts t0 c ud cr (!t.tail.isEmpty)) := by
  obtain ⟨k, hk, hid⟩ := h.tkhd
  obtain ⟨m, hm, hm0, htime⟩ := h.mdhd
  obtain ⟨c, hd, hc⟩ := h.codec
  unfold Track.bytes at hl ⊢
  have hl' := hl
  rw [box_length _ _ (by rfl), List.length_append, List.length_append, List.length_append, List.length_append, box_length _ _ (by rfl)] at hl'
  have hl2 : t.mdia.length < 2 ^ 32 := by omega
  unfold Track.mdia at hl2
  have hl2' := hl2
  rw [box_length _ _ (by rfl), List.length_append, List.length_append, List.length_append, List.length_append, box_length _ _ (by rfl)] at hl2'
  have hl3 : t.minf.length < 2 ^ 32 := by omega
  unfold Track.minf at hl3
  have hl3' := hl3
  rw [box_length _ _ (by rfl), List.length_append, List.length_append] at hl3'
  have hl4 : t.stbl.length < 2 ^ 32 := by omega
  unfold Track.stbl at hl4
  have hl4' := hl4
  rw [box_length _ _ (by rfl), List.length_append, List.length_append] at hl4'
  rw [box_length _ _ (by rfl)] at hl hl2 hl3 hl4
  obtain ⟨cr, g1, g2, g3⟩ := alien_description t.description c (ts ++ [{ id := k.id, timeScale := m.timeScale }]) ud r.codecReader hd (by omega)
  refine ⟨cr, { id := k.id, timeScale := m.timeScale }, c, g1, g2, ?_, ?_⟩
  · have := h.avgBitrate
    have := h.maxBitrate
    cases it
    simp_all
  have e : afterTrack ts { id := k.id, timeScale := m.timeScale } c ud cr (!t.tail.isEmpty) =
      afterTrack ts { id := k.id, timeScale := m.timeScale } c ud cr ((((false || !t.stbl2.isEmpty) || !t.minf2.isEmpty) || !t.mdia3.isEmpty) ||
        !t.trak3.isEmpty) := by
    congr 1
    unfold Track.tail
    cases t.stbl2 <;> cases t.minf2 <;> cases t.mdia3 <;> cases t.trak3 <;> rfl
  rw [e]
  refine tree_node0 (by rfl) hl (fun _ => rfl) (fun bi b expand e => ?_) (r1 := (⟨.waitingTkhd, ts ++ [({} : InitTrack)], ud, r.codecReader⟩ : Reader))
    (tree_append (alien_plain _ _ (by omega) h.trak.1 (by simp) (by simp))
      (tree_append (r' := (⟨.waitingMdhd, ts ++ [{ id := k.id }], ud, r.codecReader⟩ : Reader)) ?_
        (tree_append (alien_plain _ _ (by omega) h.trak.2.1 (by simp) (by simp))
          (tree_append (tree_node0 (by rfl) hl2 (fun _ => rfl) (fun bi b expand e => ?_)
            (r1 := (⟨.waitingMdhd, ts ++ [{ id := k.id }], ud, r.codecReader⟩ : Reader))
            (tree_append (alien_plain _ _ (by omega) h.mdia.1 (by simp) (by simp))
              (tree_append (r' := (⟨.waitingStsd, ts ++ [{ id := k.id, timeScale := m.timeScale }], ud, r.codecReader⟩ : Reader)) ?_
                (tree_append (alien_plain _ _ (by omega) h.mdia.2.1 (by simp) (by simp))
                  (tree_append (tree_node0 (by rfl) hl3 (fun _ => rfl) (fun bi b expand e => ?_)
                    (r1 := (⟨.waitingStsd, ts ++ [{ id := k.id, timeScale := m.timeScale }], ud, r.codecReader⟩ : Reader))
                    (tree_append (alien_plain _ _ (by omega) h.minf.1 (by simp) (by simp))
                      (tree_append (tree_node0 (by rfl) hl4 (fun _ => rfl) (fun bi b expand e => ?_)
                        (r1 := (⟨.waitingStsd, ts ++ [{ id := k.id, timeScale := m.timeScale }], ud, r.codecReader⟩ : Reader))
                        (tree_append (alien_plain _ _ (by omega) h.stbl.1 (by simp) (by simp))
                          (tree_append g3 (alien_after false (by omega) h.stbl.2 (by decide) g1 g2))))
                        (alien_after _ (by omega) h.minf.2 (by decide) g1 g2))))
                    (alien_after _ (by omega) h.mdia.2.2 (by decide) g1 g2))))))
            (alien_after _ (by omega) h.trak.2.2 (by decide) g1 g2)))))
  · rw [hr, e]; rfl
  · refine tree_leaf (by rfl) (by omega) fun bi expand e => ?_
    show Reader.readBox _ bi.typ _ expand = _
    rw [e, show fourcc 't' 'k' 'h' 'd' = FMP4Init.typTkhd by decide, init_is_tkhd]
    unfold Reader.readTkhd
    rw [if_neg (by simp), alien_tkhd hk, Res.bind_ok]
    unfold Reader.onTrack
    simp only [List.reverse_append, List.reverse_cons, List.reverse_nil, List.nil_append, List.singleton_append, List.reverse_reverse]
    rfl
  · show Reader.readBox _ bi.typ _ expand = _
    rw [e]; rfl
  · refine tree_leaf (by rfl) (by omega) fun bi expand e => ?_
    show Reader.readBox _ bi.typ _ expand = _
    rw [e, show fourcc 'm' 'd' 'h' 'd' = FMP4Init.typMdhd by decide, init_is_mdhd]
    unfold Reader.readMdhd
    rw [if_neg (by simp), alien_mdhd hm, Res.bind_ok, if_neg (by omega)]
    unfold Reader.onTrack
    simp only [List.reverse_append, List.reverse_cons, List.reverse_nil, List.nil_append, List.singleton_append, List.reverse_reverse]
    rfl
  · show Reader.readBox _ bi.typ _ expand = _
    rw [e]; rfl
  · show Reader.readBox _ bi.typ _ expand = _
    rw [e]; rfl

/-! ## The movie -/

/-- The boxes after the header of the movie, and the tracks among them. -/
inductive ItemsMean : List Item → List InitTrack → Prop
  | nil : ItemsMean [] []
  | track {t it l its} : TrackMeans t it → ItemsMean l its → ItemsMean (.track t :: l) (it :: its)
  | userData {u l its} : (∀ o ∈ u, o.typ.length = 4) → ItemsMean l its → ItemsMean (.userData u :: l) its
  | other {o l its} : o.typ.length = 4 → o.typ ∉ pathBoxes → ItemsMean l its → ItemsMean (.other o :: l) its

/-- The reader between the boxes of the movie. -/
structure Ready (ts : List InitTrack) (ud : List (Bytes × Bytes)) (isOpen : Bool) (r : Reader) : Prop where
  top : Acts 1 ts ud r
  movie : Acts 2 ts ud r
  closed : isOpen = false → (r.state = .waitingTrak ∨ r.state = .readingUserData) ∧ r.tracks = ts ∧ r.userData = ud
  isOpen : isOpen = true → r.state = .readingCodec

theorem ready_waiting (ts : List InitTrack) (ud : List (Bytes × Bytes)) (cr : Option CodecReader) : Ready ts ud false ⟨.waitingTrak, ts, ud, cr⟩ :=
  ⟨acts_waiting _ _ _ _, acts_waiting _ _ _ _, fun _ => ⟨.inl rfl, rfl, rfl⟩, fun h => by cases h⟩

theorem ready_userData (ts : List InitTrack) (ud : List (Bytes × Bytes)) (cr : Option CodecReader) :
    Ready ts ud false ⟨.readingUserData, ts, ud, cr⟩ :=
  ⟨acts_userData _ _ _ _ (by decide), acts_userData _ _ _ _ (by decide), fun _ => ⟨.inr rfl, rfl, rfl⟩, fun h => by cases h⟩

theorem ready_after (ts : List InitTrack) (t : InitTrack) (c : Codec) (ud : List (Bytes × Bytes)) (cr : CodecReader) (ended : Bool)
    (h1 : cr.codec = some c) (h2 : cr.state = .waitingAdditional) :
    Ready (ts ++ [{ t with codec := some c }]) ud (!ended) (afterTrack ts t c ud cr ended) := by
  refine ⟨acts_after _ _ _ _ _ _ _ (by decide) h1 h2, acts_after _ _ _ _ _ _ _ (by decide) h1 h2, fun h => ?_, fun h => ?_⟩
  · cases ended
    · cases h
    · exact ⟨.inl rfl, rfl, rfl⟩
  · cases ended
    · rfl
    · cases h

theorem alien_userData (u : List Other) (hu : ∀ o ∈ u, o.typ.length = 4) : ∀ (ts : List InitTrack) (ud : List (Bytes × Bytes))
    (cr : Option CodecReader), (others u).length < 2 ^ 32 → Reads isoFields (handle isoFields) (others u) 3 ⟨.readingUserData, ts, ud, cr⟩
      ⟨.readingUserData, ts, ud ++ u.map fun o => (o.typ, o.payload), cr⟩ := by
  induction u with
  | nil =>
    intro ts ud cr _
    rw [List.map_nil, List.append_nil]
    exact tree_nil _ _ _ _
  | cons o u ih =>
    intro ts ud cr hl
    unfold others at hl ih ⊢
    rw [List.flatMap_cons] at hl ⊢
    rw [List.length_append] at hl
    have ho := hu o (by simp)
    have := ih (fun o ho => hu o (List.mem_cons_of_mem _ ho)) ts (ud ++ [(o.typ, o.payload)]) cr (by omega)
    rw [List.append_assoc] at this
    refine tree_append ?_ this
    refine alien_leaf o ho (alien_fits (by omega)) fun bi expand e => ?_
    show Reader.readUserData _ _ bi.typ _ = _
    rw [e]
    unfold Reader.readUserData
    have : ∃ n, isoFields o.typ o.payload = some n := by
      unfold isoFields
      repeat' split
      all_goals exact ⟨_, rfl⟩
    obtain ⟨n, hn⟩ := this
    rw [hn]

theorem alien_endsOpen (x : Item) (l : List Item) : endsOpen (x :: l) = if l.isEmpty then endsOpen [x] else endsOpen l := by
  cases l with
  | nil => rfl
  | cons y l => unfold endsOpen; rw [List.getLast?_cons_cons]; rfl

theorem alien_items {l : List Item} {its : List InitTrack} (h : ItemsMean l its) : ∀ (ts : List InitTrack) (ud : List (Bytes × Bytes)) (op : Bool)
    (r : Reader), Ready ts ud op r → (items l).length < 2 ^ 32 → ∃ r', Reads isoFields (handle isoFields) (items l) 2 r r' ∧
      Ready (ts ++ its) (ud ++ userData l) (if l.isEmpty then op else endsOpen l) r' := by
  induction h with
  | nil =>
    intro ts ud op r hr _
    refine ⟨r, tree_nil _ _ _ _, ?_⟩
    rw [List.append_nil]
    show Ready _ (ud ++ []) _ _
    rw [List.append_nil]
    exact hr
  | @track t it l its ht _ ih =>
    intro ts ud op r hr hl
    unfold items at hl ih ⊢
    rw [List.flatMap_cons] at hl ⊢
    rw [List.length_append] at hl
    obtain ⟨cr, t0, c, g1, g2, g3, g4⟩ := alien_track t it ts ud r ht hr.movie (by show t.bytes.length < _; simp only [Item.bytes] at hl; omega)
    have hq := ready_after ts t0 c ud cr (!t.tail.isEmpty) g1 g2
    rw [g3, Bool.not_not] at hq
    obtain ⟨r', k1, k2⟩ := ih _ _ _ _ hq (by omega)
    refine ⟨r', tree_append g4 k1, ?_⟩
    rw [List.append_assoc] at k2
    have e : (if (Item.track t :: l).isEmpty = true then op else endsOpen (.track t :: l)) = if l.isEmpty then t.tail.isEmpty else endsOpen l := by
      rw [if_neg (by simp), alien_endsOpen]; rfl
    rw [e]
    exact k2
  | @userData u l its hu _ ih =>
    intro ts ud op r hr hl
    unfold items at hl ih ⊢
    rw [List.flatMap_cons] at hl ⊢
    rw [List.length_append] at hl
    have hl' : (Item.userData u).bytes.length < 2 ^ 32 := by omega
    simp only [Item.bytes] at hl'
    rw [box_length _ _ (by rfl)] at hl'
    obtain ⟨r', k1, k2⟩ := ih _ _ _ _ (ready_userData ts (ud ++ u.map fun o => (o.typ, o.payload)) r.codecReader) (by omega)
    refine ⟨r', tree_append (tree_node0 (by rfl) hl' (fun _ => rfl) (fun bi b expand e => ?_)
      (r1 := (⟨.readingUserData, ts, ud, r.codecReader⟩ : Reader)) (alien_userData u hu _ _ _ (by omega))) k1, ?_⟩
    · rw [hr.movie, e]; rfl
    · rw [List.append_assoc] at k2
      have e : (if (Item.userData u :: l).isEmpty = true then op else endsOpen (.userData u :: l)) = if l.isEmpty then false else endsOpen l := by
        rw [if_neg (by simp), alien_endsOpen]; rfl
      rw [e]
      exact k2
  | @other o l its h1 h2 _ ih =>
    intro ts ud op r hr hl
    unfold items at hl ih ⊢
    rw [List.flatMap_cons] at hl ⊢
    rw [List.length_append] at hl
    have hl' : (Item.other o).bytes.length < 2 ^ 32 := by omega
    obtain ⟨r', k1, k2⟩ := ih _ _ _ _ (ready_waiting ts ud r.codecReader) (by omega)
    refine ⟨r', tree_append (alien_leaf o h1 (alien_fits hl') fun bi expand e => ?_) k1, ?_⟩
    · rw [hr.movie, e, alien_readBox _ _ _ _ h2]
    · have e : (if (Item.other o :: l).isEmpty = true then op else endsOpen (.other o :: l)) = if l.isEmpty then false else endsOpen l := by
        rw [if_neg (by simp), alien_endsOpen]; rfl
      rw [e]
      exact k2

/-! ## Segments -/

/-- A segment and its tracks. -/
structure SegmentMeans (s : Segment) (its : List InitTrack) : Prop where
  top : NoneOf pathBoxes s.top1 ∧ NoneOf pathBoxes s.top2
  moov : NoneOf pathBoxes s.moov1
  mvhd : IsMvhd s.mvhd
  items : ItemsMean s.items its

theorem alien_closed (r : Reader) (its : List InitTrack) (ud : List (Bytes × Bytes)) (h1 : r.state = .waitingTrak ∨ r.state = .readingUserData)
    (h2 : r.tracks = its) (h3 : r.userData = ud) :
    (if r.state ≠ .waitingTrak ∧ r.state ≠ .readingUserData then (.err "parse error" : Res FMP4Init.Init)
      else if r.tracks.length = 0 then .err "no tracks found" else .ok ⟨r.tracks, r.userData⟩) =
      if its = [] then .err "no tracks found" else .ok ⟨its, ud⟩ := by
  rw [if_neg (fun h => h1.elim h.1 h.2), h2, h3]
  by_cases hi : its = []
  · rw [if_pos hi, if_pos (by simp [hi])]
  · rw [if_neg hi, if_neg (by simpa using hi)]

theorem alien_open (r : Reader) (h : r.state = .readingCodec) :
    (if r.state ≠ .waitingTrak ∧ r.state ≠ .readingUserData then (.err "parse error" : Res FMP4Init.Init)
      else if r.tracks.length = 0 then .err "no tracks found" else .ok ⟨r.tracks, r.userData⟩) = .err "parse error" :=
  if_pos (by rw [h]; exact ⟨by simp, by simp⟩)

/-- C92: what is read of a segment of any writer. -/
theorem C92_segment (s : Segment) (its : List InitTrack) (h : SegmentMeans s its) (hl : s.bytes.length < 2 ^ 32) :
    unmarshal isoFields s.bytes =
      if endsOpen s.items = true ∧ s.top2 = [] then .err "parse error"
      else if its = [] then .err "no tracks found"
      else .ok ⟨its, userData s.items⟩ := by
  unfold Segment.bytes at hl ⊢
  have hl' := hl
  rw [List.length_append, List.length_append, List.length_append, box_length _ _ (by rfl), box_length _ _ (by rfl), List.length_append,
    List.length_append, box_length _ _ (by rfl)] at hl'
  obtain ⟨r, k1, k2⟩ := alien_items h.items [] [] false _ (ready_waiting [] [] none) (by omega)
  rw [List.nil_append, List.nil_append] at k2
  have hm : isoFields (fourcc 'm' 'v' 'h' 'd') s.mvhd = some s.mvhd.length := by
    rcases h.mvhd with ⟨g1, g2⟩ | ⟨g1, g2⟩
    · show (if s.mvhd.head? = some 0 then some 100 else some 112) = _
      rw [if_pos g1, g2]
    · show (if s.mvhd.head? = some 0 then some 100 else some 112) = _
      rw [g1, if_neg (by decide), g2]
  have key := tree_file (tree_append (tree_leaf (fields := isoFields) (h := handle isoFields) (typ := fourcc 'f' 't' 'y' 'p') (body := s.ftyp)
      (depth := 1) (r := ({} : Reader)) (r' := ⟨.waitingMoov, [], [], none⟩) (by rfl) (by omega) (fun bi expand e => by
        show Reader.readBox _ bi.typ _ expand = _
        rw [e]; rfl))
    (tree_append (alien_plain (l := s.top1) 1 ⟨.waitingMoov, [], [], none⟩ (by omega) h.top.1 (by simp) (by simp))
      (tree_append (tree_node0 (typ := fourcc 'm' 'o' 'o' 'v') (by rfl) (by
          rw [List.length_append, List.length_append, box_length _ _ (by rfl)]; omega) (fun _ => rfl) (fun bi b expand e => by
          show Reader.readBox _ bi.typ _ expand = _
          rw [e]; rfl) (r1 := (⟨.waitingMvhd, [], [], none⟩ : Reader))
        (tree_append (alien_plain (l := s.moov1) 2 ⟨.waitingMvhd, [], [], none⟩ (by omega) h.moov (by simp) (by simp))
          (tree_append (x := box (fourcc 'm' 'v' 'h' 'd') s.mvhd) (r' := (⟨.waitingTrak, [], [], none⟩ : Reader)) (by
            have := tree_node (fields := isoFields) (h := handle isoFields) (typ := fourcc 'm' 'v' 'h' 'd') (fs := s.mvhd) (body := []) (depth := 2)
              (r := (⟨.waitingMvhd, [], [], none⟩ : Reader)) (r1 := (⟨.waitingTrak, [], [], none⟩ : Reader))
              (r' := (⟨.waitingTrak, [], [], none⟩ : Reader)) (by rfl) (by rw [List.append_nil]; omega) (by rw [List.append_nil]; exact hm)
              (fun bi expand e => by
                show Reader.readBox _ bi.typ _ expand = _
                rw [e]; rfl) (tree_nil _ _ _ _)
            rwa [List.append_nil] at this) k1)))
        (acts_others (l := s.top2) (by omega) h.top.2 k2.top))))
  unfold unmarshal
  rw [key, Res.bind_ok]
  have e0 : (if s.items.isEmpty = true then false else endsOpen s.items) = endsOpen s.items := by
    cases s.items <;> rfl
  rw [e0] at k2
  by_cases h2 : s.top2 = []
  · have he : s.top2.isEmpty = true := by rw [h2]; rfl
    rw [he, if_pos rfl]
    cases ho : endsOpen s.items
    · rw [ho] at k2
      obtain ⟨g1, g2, g3⟩ := k2.closed rfl
      rw [alien_closed r its _ g1 g2 g3]
      exact (if_neg (fun h => by cases h.1)).symm
    · rw [ho] at k2
      rw [alien_open r (k2.isOpen rfl)]
      exact (if_pos ⟨rfl, h2⟩).symm
  · have he : s.top2.isEmpty = false := by
      cases hs : s.top2 with
      | nil => exact absurd hs h2
      | cons => rfl
    rw [he]
    refine (alien_closed ⟨.waitingTrak, its, userData s.items, r.codecReader⟩ its (userData s.items) (.inl rfl) rfl rfl).trans ?_
    exact (if_neg (fun h => h2 h.2)).symm

/-- C92: segments with tracks are read, whatever other boxes are in them, if a box comes after the last sample description. -/
theorem C92_read (s : Segment) (its : List InitTrack) (h : SegmentMeans s its) (hl : s.bytes.length < 2 ^ 32) (h1 : its ≠ [])
    (h2 : endsOpen s.items = true → s.top2 ≠ []) : unmarshal isoFields s.bytes = .ok ⟨its, userData s.items⟩ := by
  rw [C92_segment s its h hl, if_neg fun h => h2 h.1 h.2, if_neg h1]

end Verif.Props
