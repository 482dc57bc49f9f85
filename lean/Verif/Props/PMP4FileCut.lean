import Verif.Props.PMP4FileRoundTrip
import Verif.Props.FMP4InitCut

/-!
# C121: MP4 files that are cut

The movie box is in front of the media data. A file of `Presentation.Marshal` that ends before the end of the movie box is not accepted; one that
ends after it, in the media data, is read with the same tracks and samples.
-/

namespace Verif.Props
open PMP4File MP4Codec MP4Box MP4Writer
open FMP4Init (typFtyp typMoov typMvhd typTrak typTkhd typEdts typMdia typMdhd typHdlr typMinf typStbl typStsd typStts typStsc typStsz typStco
  typVmhd typSmhd typDinf typDref typUrl hdlrPayload isoFields Handler Fields readTree expandBox)
open FMP4 (readBoxInfo BoxInfo full rewriteBox_full box_length takeBE)
open PMP4 (Run StscEntry ElstEntry Event RTrack PReader State readEvent readEvents marshalSTTS marshalCTTS marshalSTSS marshalSTSC marshalSTSZ
  marshalSTCO marshalELST trackEvents tracksEvents mediaDuration shiftChunks maxSamples)
open Spec (beBytes)
open Spec.FMP4 (box)
open ByteR (beBytes_length)
open Readers (SBuf)

/-! ## Boxes that are cut -/

/-- Boxes are found where they are, whatever the handler does: if boxes that are cut are accepted, the header of the last one is there. -/
theorem mp4cut_level {σ : Type} (fields : Fields) (hd : Handler σ) (l : List (Bytes × Bytes)) (t body : Bytes) (ht : t.length = 4)
    (hb : 8 + body.length < 2 ^ 32) (hl : ∀ x ∈ l, x.1.length = 4 ∧ 8 + x.2.length < 2 ^ 32) (c : Bytes) (k : Nat) :
    ∀ (n : Nat) (p a : Bytes) (depth : Nat) (r r2 : σ), (p ++ ((l.flatMap fun x => box x.1 x.2) ++ (box t body ++ c))).take k = a →
      readTree fields hd n a p.length (some ((l.flatMap fun x => box x.1 x.2).length + (box t body).length)) depth r = .ok r2 →
      ∃ m r1, hd ⟨p.length + (l.flatMap fun x => box x.1 x.2).length, 8 + body.length, 8, t⟩ depth
        (body.take (k - (p.length + (l.flatMap fun x => box x.1 x.2).length) - 8))
        (expandBox fields (readTree fields hd m a) a ⟨p.length + (l.flatMap fun x => box x.1 x.2).length, 8 + body.length, 8, t⟩ depth) r1 = .ok r2 := by
  induction l with
  | nil =>
    intro n p a depth r r2 ha h
    rw [List.flatMap_nil, List.nil_append] at ha
    rw [List.flatMap_nil, List.length_nil, Nat.zero_add, box_length _ _ ht] at h
    cases n with
    | zero => cases h
    | succ n =>
      unfold readTree at h
      rw [if_neg (by simp)] at h
      obtain ⟨o, ho, h⟩ := Res.bind_eq_ok.1 h
      cases o with
      | none => cases h
      | some bi =>
        rw [← ha] at ho
        obtain ⟨hk, rfl⟩ := initcut_info p t body c k bi ht hb ho
        dsimp only at h
        rw [if_neg (by simp)] at h
        obtain ⟨r3, hr3, h⟩ := Res.bind_eq_ok.1 h
        have hpay : BoxInfo.payload ⟨p.length, 8 + body.length, 8, t⟩ a = body.take (k - p.length - 8) := by
          unfold FMP4.BoxInfo.payload
          dsimp only
          rw [← ha, initcut_take p t body c k ht hk, show p ++ (beBytes 4 (8 + body.length) ++ (t ++ (body ++ c).take (k - p.length - 8))) =
            (p ++ (beBytes 4 (8 + body.length) ++ t)) ++ (body ++ c).take (k - p.length - 8) by simp only [List.append_assoc],
            List.drop_left' (by simp only [List.length_append, beBytes_length, ht]), Nat.add_sub_cancel_left, List.take_take, List.take_append,
            show min body.length (k - p.length - 8) - body.length = 0 by omega, List.take_zero, List.append_nil]
          by_cases hm : body.length ≤ k - p.length - 8
          · rw [Nat.min_eq_left hm, List.take_of_length_le hm, List.take_of_length_le (Nat.le_refl _)]
          · rw [Nat.min_eq_right (by omega)]
        rw [hpay] at hr3
        refine ⟨n, r, ?_⟩
        rw [List.flatMap_nil, List.length_nil, Nat.add_zero, hr3]
        rw [Option.map_some, Nat.sub_self] at h
        cases n with
        | zero => cases h
        | succ n =>
          unfold readTree at h
          rw [if_pos (by simp), if_pos rfl] at h
          cases h
          rfl
  | cons x l ih =>
    intro n p a depth r r2 ha h
    obtain ⟨h1, h2⟩ := hl x (by simp)
    rw [List.flatMap_cons, List.append_assoc] at ha
    rw [List.flatMap_cons, List.length_append, box_length _ _ h1] at h
    cases n with
    | zero => cases h
    | succ n =>
      unfold readTree at h
      rw [if_neg (by simp; omega)] at h
      obtain ⟨o, ho, h⟩ := Res.bind_eq_ok.1 h
      cases o with
      | none => cases h
      | some bi =>
        rw [← ha] at ho
        obtain ⟨hk, rfl⟩ := initcut_info p x.1 x.2 _ k bi h1 h2 ho
        dsimp only at h
        rw [if_neg (by simp; omega)] at h
        obtain ⟨r1, -, h⟩ := Res.bind_eq_ok.1 h
        rw [show p.length + (8 + x.2.length) = (p ++ box x.1 x.2).length by rw [List.length_append, box_length _ _ h1],
          Option.map_some, show 8 + x.2.length + (l.flatMap fun x => box x.1 x.2).length + (box t body).length - (8 + x.2.length) =
            (l.flatMap fun x => box x.1 x.2).length + (box t body).length by omega] at h
        have := ih (fun y hy => hl y (by simp [hy])) n (p ++ box x.1 x.2) a depth r1 r2 (by rw [List.append_assoc]; exact ha) h
        rw [List.flatMap_cons, List.length_append, ← Nat.add_assoc, ← List.length_append]
        exact this

/-- Boxes that are not accepted when they are cut, whatever follows them and whatever was read before. -/
def Uncuttable {σ : Type} (fields : Fields) (hd : Handler σ) (b : Bytes) (depth : Nat) : Prop :=
  ∀ (p c : Bytes) (k n : Nat) (r r2 : σ), k < p.length + b.length → readTree fields hd n ((p ++ (b ++ c)).take k) p.length (some b.length) depth r ≠ .ok r2

theorem mp4cut_sizes (l : List (Bytes × Bytes)) (h : ∀ x ∈ l, x.1.length = 4) (hl : (l.flatMap fun x => box x.1 x.2).length < 2 ^ 32) :
    ∀ x ∈ l, x.1.length = 4 ∧ 8 + x.2.length < 2 ^ 32 := by
  intro x hx
  refine ⟨h x hx, ?_⟩
  have := List.Sublist.length_le (List.sublist_flatten_of_mem (List.mem_map_of_mem (f := fun x : Bytes × Bytes => box x.1 x.2) hx))
  rw [box_length _ _ (h x hx)] at this
  rw [List.flatMap_def] at hl
  omega

theorem mp4cut_leaf {σ : Type} (fields : Fields) (hd : Handler σ) (l : List (Bytes × Bytes)) (t body : Bytes) (depth : Nat) (h4 : ∀ x ∈ l, x.1.length = 4)
    (ht : t.length = 4) (hl : ((l.flatMap fun x => box x.1 x.2) ++ box t body).length < 2 ^ 32)
    (hb : 0 < body.length) (hh : ∀ bi q expand r r2, bi.typ = t → q < body.length → hd bi depth (body.take q) expand r ≠ .ok r2) :
    Uncuttable fields hd ((l.flatMap fun x => box x.1 x.2) ++ box t body) depth := by
  intro p c k n r r2 hk h
  rw [List.length_append, box_length _ _ ht] at hl hk
  rw [List.append_assoc] at h
  rw [List.length_append] at h
  obtain ⟨m, r1, e⟩ := mp4cut_level fields hd l t body ht (by omega) (mp4cut_sizes l h4 (by omega)) c k n p _ depth r r2 rfl h
  exact hh _ (k - (p.length + (l.flatMap fun x => box x.1 x.2).length) - 8) _ _ _ rfl (by omega) e

theorem mp4cut_node {σ : Type} (fields : Fields) (hd : Handler σ) (l : List (Bytes × Bytes)) (t body : Bytes) (depth : Nat) (h4 : ∀ x ∈ l, x.1.length = 4)
    (ht : t.length = 4) (hl : ((l.flatMap fun x => box x.1 x.2) ++ box t body).length < 2 ^ 32) (hf : ∀ b, fields t b = some 0)
    (hh : ∀ bi q expand r r2, bi.typ = t → hd bi depth q expand r = .ok r2 → ∃ r1, expand r1 = .ok r2) (hu : Uncuttable fields hd body (depth + 1)) :
    Uncuttable fields hd ((l.flatMap fun x => box x.1 x.2) ++ box t body) depth := by
  intro p c k n r r2 hk h
  rw [List.length_append, box_length _ _ ht] at hl hk
  rw [List.append_assoc] at h
  rw [List.length_append] at h
  obtain ⟨m, r1, e⟩ := mp4cut_level fields hd l t body ht (by omega) (mp4cut_sizes l h4 (by omega)) c k n p _ depth r r2 rfl h
  obtain ⟨r3, e⟩ := hh _ _ _ _ _ rfl e
  unfold expandBox at e
  dsimp only at e
  rw [hf] at e
  dsimp only at e
  rw [if_neg (by omega), Nat.add_zero, Nat.sub_zero, Nat.add_sub_cancel_left] at e
  refine hu (p ++ ((l.flatMap fun x => box x.1 x.2) ++ (beBytes 4 (8 + body.length) ++ t))) c k m r3 r2 ?_ ?_
  · simp only [List.length_append, beBytes_length, ht]; omega
  · rw [show p ++ ((l.flatMap fun x => box x.1 x.2) ++ (beBytes 4 (8 + body.length) ++ t)) ++ (body ++ c) =
      p ++ ((l.flatMap fun x => box x.1 x.2) ++ (box t body ++ c)) by unfold box; simp only [List.append_assoc],
      show (p ++ ((l.flatMap fun x => box x.1 x.2) ++ (beBytes 4 (8 + body.length) ++ t))).length = p.length + (l.flatMap fun x => box x.1 x.2).length + 8 by
        simp only [List.length_append, beBytes_length, ht]; omega]
    exact e

/-! ## The handler -/

theorem mp4cut_handle (bi : BoxInfo) (depth : Nat) (hd : depth < 7) (payload : Bytes) (expand : PMP4File.Reader → Res PMP4File.Reader) (r r2 : PMP4File.Reader)
    (h : PMP4File.handle bi depth payload expand r = .ok r2) : ∃ r1 : PMP4File.Reader, r1.readBox bi.typ payload expand = .ok r2 := by
  unfold PMP4File.handle at h
  split at h
  · obtain ⟨c, -, h⟩ := Res.bind_eq_ok.1 h
    obtain ⟨a, ha, h⟩ := Res.bind_eq_ok.1 h
    unfold CodecReader.read at ha
    rw [if_pos hd] at ha
    split at ha
    · cases ha
    · cases ha
      obtain ⟨r1, -, h⟩ := Res.bind_eq_ok.1 h
      exact ⟨r1, h⟩
  · exact ⟨r, h⟩

theorem mp4cut_expands (t : Bytes) (e : Event) (he : ∀ payload, decodeEvent t payload = .ok e) (hx : expands e = true) (depth : Nat) (hd : depth < 7) :
    ∀ (bi : BoxInfo) (q : Bytes) (expand : PMP4File.Reader → Res PMP4File.Reader) (r r2 : PMP4File.Reader), bi.typ = t →
      PMP4File.handle bi depth q expand r = .ok r2 → ∃ r1, expand r1 = .ok r2 := by
  intro bi q expand r r2 hb h
  obtain ⟨r1, h⟩ := mp4cut_handle bi depth hd q expand r r2 h
  unfold PMP4File.Reader.readBox at h
  rw [hb, he, Res.bind_ok] at h
  obtain ⟨r3, -, h⟩ := Res.bind_eq_ok.1 h
  rw [if_pos hx] at h
  exact ⟨r3, h⟩

theorem mp4cut_entries (n : Nat) : ∀ (b : Bytes) (l : List (List Nat)), decodeEntries [32] n b = .ok l → 4 * n ≤ b.length := by
  induction n with
  | zero => intro b l _; omega
  | succ n ih =>
    intro b l h
    unfold decodeEntries at h
    obtain ⟨⟨f, b'⟩, hu, h⟩ := Res.bind_eq_ok.1 h
    obtain ⟨l', hl', -⟩ := Res.bind_eq_ok.1 h
    unfold unpack at hu
    obtain ⟨⟨v, b''⟩, ht, hu⟩ := Res.bind_eq_ok.1 hu
    cases hu
    have := ih b' l' hl'
    unfold takeBE at ht
    split at ht
    · cases ht
    · rename_i h4
      cases ht
      rw [List.length_drop] at this
      have : ([32] : List Nat).sum / 8 = 4 := rfl
      omega

/-- Chunk offsets that are cut are refused. -/
theorem mp4cut_stco (offs : List Nat) (ho : offs.length < 2 ^ 32) (q : Nat) (hq : q < (encodeStco offs).length) (l : List Nat) :
    decodeWords ((encodeStco offs).take q) ≠ .ok l := by
  intro h
  rw [file_stco_length] at hq
  unfold decodeWords at h
  obtain ⟨⟨v, l'⟩, h, -⟩ := Res.bind_eq_ok.1 h
  unfold encodeStco encodeTable at h
  have hp : (pack [(8, 0), (24, 0), (32, (offs.map fun n => [(32, n)]).length)]).length = 8 := by
    rw [pack_length]; simp [widths]
  unfold decodeTable at h
  by_cases h8 : q < 8
  · obtain ⟨⟨f, b'⟩, hu, h⟩ := Res.bind_eq_ok.1 h
    unfold unpack at hu
    obtain ⟨⟨v, b''⟩, ht, hu⟩ := Res.bind_eq_ok.1 hu
    unfold takeBE at ht
    rw [if_pos (by rw [List.length_take]; have : ([8, 24, 32] : List Nat).sum / 8 = 8 := rfl; omega)] at ht
    cases ht
  · rw [List.take_append, hp, List.take_of_length_le (by omega), pack_read _ [8, 24, 32] _ (by rfl) (by simp [widths]), Res.bind_ok] at h
    have h : (decodeEntries [32] ((offs.map fun n => [(32, n)]).length % 2 ^ 32) ((encodeEntries (offs.map fun n => [(32, n)])).take (q - 8)) >>= _) = _ := h
    obtain ⟨l2, h2, -⟩ := Res.bind_eq_ok.1 h
    have := mp4cut_entries _ _ _ h2
    rw [List.length_map, Nat.mod_eq_of_lt ho, List.length_take] at this
    omega

theorem mp4cut_last (offs : List Nat) (ho : offs.length < 2 ^ 32) (depth : Nat) (hd : depth < 7) (bi : BoxInfo) (q : Nat)
    (expand : PMP4File.Reader → Res PMP4File.Reader) (r r2 : PMP4File.Reader) (hb : bi.typ = typStco) (hq : q < (encodeStco offs).length) :
    PMP4File.handle bi depth ((encodeStco offs).take q) expand r ≠ .ok r2 := by
  intro h
  obtain ⟨r1, h⟩ := mp4cut_handle bi depth hd _ expand r r2 h
  unfold PMP4File.Reader.readBox at h
  obtain ⟨e, he, -⟩ := Res.bind_eq_ok.1 h
  rw [hb] at he
  have he : (decodeWords ((encodeStco offs).take q) >>= fun l => .ok (.table (.stco l))) = Res.ok e := he
  obtain ⟨l, hl, -⟩ := Res.bind_eq_ok.1 he
  exact mp4cut_stco offs ho q hq l hl

/-! ## Tracks -/

theorem mp4cut_stbl (p : FileParts) (samples : List PMP4.Sample) (offs : List Nat) (hl : (fileStsd p ++ fileTables p samples offs).length < 2 ^ 32) :
    Uncuttable isoFields PMP4File.handle (fileStsd p ++ fileTables p samples offs) 6 := by
  obtain ⟨l, h4, e⟩ : ∃ l : List (Bytes × Bytes), (∀ x ∈ l, x.1.length = 4) ∧
      fileStsd p ++ fileTables p samples offs = (l.flatMap fun x => box x.1 x.2) ++ box typStco (encodeStco offs) := by
    cases hs : marshalSTSS samples with
    | none =>
      refine ⟨[(typStsd, encodeCount 1 ++ fileEntry p), (typStts, encodeStts p.stts), (typCtts, encodeCtts p.ctts), (typStsc, encodeStsc p.stsc),
        (typStsz, PMP4File.encodeStsz (marshalSTSZ samples))], ?_, ?_⟩
      · intro x hx
        simp only [List.mem_cons, List.not_mem_nil, or_false] at hx
        rcases hx with rfl | rfl | rfl | rfl | rfl <;> rfl
      · unfold fileStsd fileTables fileStss
        rw [hs]
        simp only [List.flatMap_cons, List.flatMap_nil, List.append_assoc, List.append_nil, List.nil_append]
    | some ss =>
      refine ⟨[(typStsd, encodeCount 1 ++ fileEntry p), (typStts, encodeStts p.stts), (typStss, encodeStss ss), (typCtts, encodeCtts p.ctts),
        (typStsc, encodeStsc p.stsc), (typStsz, PMP4File.encodeStsz (marshalSTSZ samples))], ?_, ?_⟩
      · intro x hx
        simp only [List.mem_cons, List.not_mem_nil, or_false] at hx
        rcases hx with rfl | rfl | rfl | rfl | rfl | rfl <;> rfl
      · unfold fileStsd fileTables fileStss
        rw [hs]
        simp only [List.flatMap_cons, List.flatMap_nil, List.append_assoc, List.append_nil]
  rw [e] at hl ⊢
  have ho : offs.length < 2 ^ 32 := by
    rw [List.length_append, file_stco_box] at hl; omega
  exact mp4cut_leaf _ _ l _ _ _ h4 (by rfl) hl (by rw [file_stco_length]; omega) fun bi q expand r r2 hb hq => mp4cut_last offs ho 6 (by decide) bi q expand r r2 hb hq

theorem mp4cut_minf (p : FileParts) (samples : List PMP4.Sample) (offs : List Nat)
    (hl : (initMediaHeader p.codec ++ (initDinf ++ fileStbl p samples offs)).length < 2 ^ 32) :
    Uncuttable isoFields PMP4File.handle (initMediaHeader p.codec ++ (initDinf ++ fileStbl p samples offs)) 5 := by
  obtain ⟨l, h4, e⟩ : ∃ l : List (Bytes × Bytes), (∀ x ∈ l, x.1.length = 4) ∧
      initMediaHeader p.codec ++ (initDinf ++ fileStbl p samples offs) = (l.flatMap fun x => box x.1 x.2) ++ fileStbl p samples offs := by
    refine ⟨[if p.codec.isVideo then (typVmhd, encodeVmhd) else (typSmhd, encodeSmhd), (typDinf, box typDref (encodeCount 1 ++ box typUrl encodeUrl))], ?_, ?_⟩
    · intro x hx
      simp only [List.mem_cons, List.not_mem_nil, or_false] at hx
      rcases hx with rfl | rfl
      · split <;> rfl
      · rfl
    · unfold initMediaHeader initDinf
      simp only [List.flatMap_cons, List.flatMap_nil, List.append_assoc, List.append_nil]
      split <;> rfl
  rw [e] at hl ⊢
  unfold fileStbl at hl ⊢
  refine mp4cut_node _ _ l _ _ _ h4 (by rfl) hl (fun _ => rfl) (mp4cut_expands typStbl .stbl (fun _ => rfl) rfl 5 (by decide)) (mp4cut_stbl p samples offs ?_)
  rw [List.length_append, box_length _ _ (by rfl)] at hl
  omega

theorem mp4cut_mdia (t : PMP4.Track) (p : FileParts) (offs : List Nat)
    (hl : (box typMdhd (PMP4File.encodeMdhd t.timeScale (PMP4.mediaDuration t)) ++ (box typHdlr (hdlrPayload p.codec) ++ fileMinf p t.samples offs)).length < 2 ^ 32) :
    Uncuttable isoFields PMP4File.handle (box typMdhd (PMP4File.encodeMdhd t.timeScale (PMP4.mediaDuration t)) ++ (box typHdlr (hdlrPayload p.codec) ++
      fileMinf p t.samples offs)) 4 := by
  have e : box typMdhd (PMP4File.encodeMdhd t.timeScale (PMP4.mediaDuration t)) ++ (box typHdlr (hdlrPayload p.codec) ++ fileMinf p t.samples offs) =
      ([(typMdhd, PMP4File.encodeMdhd t.timeScale (PMP4.mediaDuration t)), (typHdlr, hdlrPayload p.codec)].flatMap fun x => box x.1 x.2) ++
        fileMinf p t.samples offs := by
    simp only [List.flatMap_cons, List.flatMap_nil, List.append_assoc, List.append_nil]
  rw [e] at hl ⊢
  unfold fileMinf at hl ⊢
  refine mp4cut_node _ _ _ _ _ _ ?_ (by rfl) hl (fun _ => rfl) (mp4cut_expands typMinf .minf (fun _ => rfl) rfl 4 (by decide)) (mp4cut_minf p t.samples offs ?_)
  · intro x hx
    simp only [List.mem_cons, List.not_mem_nil, or_false] at hx
    rcases hx with rfl | rfl <;> rfl
  · rw [List.length_append, box_length typMinf _ (by rfl)] at hl
    omega

theorem mp4cut_trak (t : PMP4.Track) (p : FileParts) (offs : List Nat)
    (hl : (box typTkhd (PMP4File.tkhdPayload t.id p.duration p.codec p.info) ++ (fileEdts p ++ fileMdia t p offs)).length < 2 ^ 32) :
    Uncuttable isoFields PMP4File.handle (box typTkhd (PMP4File.tkhdPayload t.id p.duration p.codec p.info) ++ (fileEdts p ++ fileMdia t p offs)) 3 := by
  have e : box typTkhd (PMP4File.tkhdPayload t.id p.duration p.codec p.info) ++ (fileEdts p ++ fileMdia t p offs) =
      ([(typTkhd, PMP4File.tkhdPayload t.id p.duration p.codec p.info), (typEdts, box typElst (encodeElst p.elst))].flatMap fun x => box x.1 x.2) ++
        fileMdia t p offs := by
    simp only [List.flatMap_cons, List.flatMap_nil, List.append_assoc, List.append_nil, fileEdts]
  rw [e] at hl ⊢
  unfold fileMdia at hl ⊢
  refine mp4cut_node _ _ _ _ _ _ ?_ (by rfl) hl (fun _ => rfl) (mp4cut_expands typMdia .mdia (fun _ => rfl) rfl 3 (by decide)) (mp4cut_mdia t p offs ?_)
  · intro x hx
    simp only [List.mem_cons, List.not_mem_nil, or_false] at hx
    rcases hx with rfl | rfl <;> rfl
  · rw [List.length_append, box_length typMdia _ (by rfl)] at hl
    omega

theorem mp4cut_movie (o : List PMP4.Sample → List Nat) (xs : List (PMP4File.Track × FileParts)) (hx : xs ≠ []) (mvhd : Bytes)
    (hl : (box typMvhd mvhd ++ fileTraks o xs).length < 2 ^ 32) :
    Uncuttable isoFields PMP4File.handle (box typMvhd mvhd ++ fileTraks o xs) 2 := by
  obtain ⟨ys, x, rfl⟩ : ∃ ys x, xs = ys ++ [x] := ⟨_, _, (List.dropLast_concat_getLast hx).symm⟩
  have e : box typMvhd mvhd ++ fileTraks o (ys ++ [x]) = (((typMvhd, mvhd) :: ys.map fun x => (typTrak,
      box typTkhd (PMP4File.tkhdPayload x.1.id x.2.duration x.2.codec x.2.info) ++ (fileEdts x.2 ++ fileMdia x.1.toTrack x.2 (o x.1.samples)))).flatMap
        fun x => box x.1 x.2) ++ fileTrak x.1.toTrack x.2 (o x.1.samples) := by
    unfold fileTraks
    rw [List.flatMap_append, List.flatMap_cons, List.flatMap_nil, List.append_nil, List.flatMap_cons, List.flatMap_map, List.append_assoc]
    rfl
  rw [e] at hl ⊢
  unfold fileTrak at hl ⊢
  refine mp4cut_node _ _ _ _ _ _ ?_ (by rfl) hl (fun _ => rfl) (mp4cut_expands typTrak .trak (fun _ => rfl) rfl 2 (by decide)) (mp4cut_trak _ _ _ ?_)
  · intro y hy
    rcases List.mem_cons.1 hy with rfl | hy
    · rfl
    · obtain ⟨z, -, rfl⟩ := List.mem_map.1 hy; rfl
  · rw [List.length_append, box_length typTrak _ (by rfl)] at hl
    omega

/-! ## Files -/

theorem mp4cut_shape (ts : List PMP4File.Track) (file : Bytes) (hne : ts ≠ []) (hg : ∀ t ∈ ts, FileGood t)
    (h : PMP4File.marshal ts = .ok file) (hl : file.length < 2 ^ 32) :
    ∃ (header mvhd : Bytes) (xs : List (PMP4File.Track × FileParts)) (o : List PMP4.Sample → List Nat) (data : Bytes) (r' : PMP4File.Reader),
      file = header ++ box [0x6D, 0x64, 0x61, 0x74] data ∧ header = box typFtyp PMP4File.encodeFtyp ++ box typMoov (box typMvhd mvhd ++ fileTraks o xs) ∧
      xs ≠ [] ∧ (box typMoov (box typMvhd mvhd ++ fileTraks o xs)).length < 2 ^ 32 ∧ 8 + data.length < 2 ^ 32 ∧
      data.length = ((ts.flatMap (·.samples)).map (·.payloadSize)).sum ∧ Reads isoFields PMP4File.handle header 1 {} r' ∧ (r'.base.state = .waitingTrak ∨ r'.base.state = .waitingSampleProps) ∧ r'.base.all ≠ [] := by
  unfold PMP4File.marshal at h
  obtain ⟨L, hL, h⟩ := Res.bind_eq_ok.1 h
  obtain ⟨header, hh, h⟩ := Res.bind_eq_ok.1 h
  cases h
  have hw : ∀ t ∈ ts.map (·.toTrack), Writable t := by
    intro t ht
    obtain ⟨u, hu, rfl⟩ := List.mem_map.1 ht
    exact (hg u hu).writable
  have hdata := file_data_length _ hw L hL
  have hl' := hl
  rw [List.length_append, hdata] at hl'
  obtain ⟨L', e1, hint, h3, h4, h5⟩ := C48_interleaving (ts.map (·.toTrack)) (fun t ht _ => (hw t ht).timeScale) (by omega)
  rw [hL] at e1
  cases e1
  have hwL := pmp4_writable_layout _ L hw h3
  have hpay := pmp4_payload_layout L hwL hint
  have hsum := pmp4_sorted_sum _ L hint h3
  have hlen : L.tracks.length = ts.length := by
    have := congrArg List.length h3
    simpa only [List.length_map] using this
  obtain ⟨z1, z2⟩ := file_zipWith ts L.tracks hlen
  have hty : ∀ t ∈ L.tracks, FileTyped t := by
    intro t ht
    have hm := List.mem_map_of_mem (f := fun t : PMP4.Track => { t with samples := t.samples.map unplaced }) ht
    rw [h3, List.map_map] at hm
    obtain ⟨u, hu, he⟩ := List.mem_map.mp hm
    have g := hg u hu
    have hs : u.samples.map unplaced = t.samples.map unplaced := congrArg PMP4.Track.samples he
    refine ⟨?_, fun sa hsa => ?_⟩
    · have : u.timeScale = t.timeScale := by have := congrArg PMP4.Track.timeScale he; exact this
      rw [← this]; exact g.timeScale
    · have := List.mem_map_of_mem (f := unplaced) hsa
      rw [← hs] at this
      obtain ⟨sb, hsb, he⟩ := List.mem_map.mp this
      have : sb.duration = sa.duration := by have := congrArg PMP4.Sample.duration he; exact this
      rw [← this]; exact g.duration sb hsb
  have hk : ∀ t ∈ placed ts L.tracks, ∀ c, t.codec = some c → Kept c := by
    intro t ht c hc
    have := List.mem_map_of_mem (f := (·.codec)) ht
    rw [z2] at this
    obtain ⟨u, hu, he⟩ := List.mem_map.1 this
    exact (hg u hu).codec c (he.trans hc)
  obtain ⟨xs, D, k1, k2, _, k3, k4⟩ := file_header _ header hk hh
  have hxs : xs.map (·.1.toTrack) = L.tracks := by
    rw [← z1, ← k1, List.map_map, ]; rfl
  have hmem : ∀ x ∈ xs, x.1.toTrack ∈ L.tracks := fun x hx => by
    rw [← hxs]; exact List.mem_map_of_mem (f := fun x : PMP4File.Track × FileParts => x.1.toTrack) hx
  have hb : ∀ x ∈ xs, ∀ sa ∈ x.1.samples, sa.offset + sa.payloadSize + (header.length + 8) < 2 ^ 32 := by
    intro x hx sa hsa
    have hin := pmp4_interleaving_mem hint x.1.samples (List.mem_map.2 ⟨x.1.toTrack, hmem x hx, rfl⟩) sa hsa
    have := (pmp4_payload_at L.sorted 0 [0, 0, 0, 0, 0, 0, 0, 0] rfl hpay h4 sa hin).2
    omega
  obtain ⟨evs, r', a1, a2, a3, a4, a5⟩ := file_traks_read (header.length + 8) xs ⟨⟨.waitingTrak, [], none, false, 0⟩, none, none, []⟩ k2
    (fun x hx => hwL _ (hmem x hx)) (fun x hx => hty _ (hmem x hx)) hb (.inl rfl)
  rw [hxs] at a1
  -- the events of the file
  obtain ⟨events, file', rts, c1, c2, c3⟩ := C66_roundtrip header (ts.map (·.toTrack)) (by simpa using hne) hw (by omega)
  unfold PMP4.marshal at c1
  rw [hL, Res.bind_ok, a1, Res.bind_ok] at c1
  cases c1
  have hev : readEvents ([.ftyp, .moov, .mvhd] ++ evs ++ [.other]) {} = .ok r'.base := by
    rw [List.append_assoc, pmp4_readEvents_append]
    have h0 : readEvents [.ftyp, .moov, .mvhd] {} = .ok ⟨.waitingTrak, [], none, false, 0⟩ := rfl
    rw [h0, Res.bind_ok, pmp4_readEvents_append, a2, Res.bind_ok]
    rfl
  unfold PMP4.unmarshal at c2
  rw [hev, Res.bind_ok] at c2
  have hst : ¬(r'.base.state ≠ .waitingTrak ∧ r'.base.state ≠ .waitingSampleProps) := by
    rintro ⟨n1, n2⟩
    rcases a3 with h | h
    · exact n1 h
    · exact n2 h
  rw [if_neg hst] at c2
  by_cases hall : r'.base.all = []
  · rw [if_pos hall] at c2; cases c2
  rw [if_neg hall] at c2
  cases c2
  -- the boxes of the file
  have hflat : L.dataSize = (L.sorted.flatMap (·.payload)).length := by
    rw [h5, hsum, List.length_flatMap]
    congr 1
    exact (List.map_congr_left hpay).symm
  have hbytes : Reads isoFields PMP4File.handle header 1 {} r' := by
    conv => arg 3; rw [k4]
    generalize fileTraks (fun l => shiftChunks (header.length + 8) (marshalSTCO l)) xs = B at a4 k3 ⊢
    refine tree_append (r' := ⟨⟨.waitingMoov, [], none, false, 0⟩, none, none, []⟩) ?_ ?_
    · refine file_leaf _ _ _ _ _ .ftyp (by rfl) ?_ (by simp) rfl rfl rfl
      rw [box_length _ _ (by rfl), file_ftyp_length]; decide
    · refine file_node _ _ _ _ ⟨⟨.waitingMvhd, [], none, false, 0⟩, none, none, []⟩ _ .moov (by rfl) k3 (fun _ => rfl) (by simp) (fun _ => rfl) rfl rfl ?_
      refine tree_append ?_ a4
      have := tree_node (fields := isoFields) (h := PMP4File.handle) (typ := typMvhd) (fs := PMP4File.encodeMvhd D ((placed ts L.tracks).length + 1))
        (body := []) (depth := 2) (r := (⟨⟨.waitingMvhd, [], none, false, 0⟩, none, none, []⟩ : PMP4File.Reader))
        (r1 := (⟨⟨.waitingTrak, [], none, false, 0⟩, none, none, []⟩ : PMP4File.Reader))
        (r' := (⟨⟨.waitingTrak, [], none, false, 0⟩, none, none, []⟩ : PMP4File.Reader)) (by rfl)
        (by rw [List.append_nil, file_mvhd_length]; decide)
        (by rw [file_mvhd_length]; exact file_mvhd_fields D _ _ (List.append_nil _))
        (fun bi expand e => by
          unfold PMP4File.handle
          rw [if_neg (by simp), e]
          rfl) (tree_nil _ _ _ _)
      rwa [List.append_nil] at this
  have hxne : xs ≠ [] := by
    intro e
    have := congrArg List.length k1
    rw [e] at this
    have z := congrArg List.length z1
    rw [List.length_map, ← this, List.length_map, List.length_nil, hlen] at z
    exact hne (List.length_eq_zero_iff.1 z.symm)
  refine ⟨header, _, xs, fun l => shiftChunks (header.length + 8) (marshalSTCO l), L.sorted.flatMap (·.payload), r', ?_, k4, hxne, k3, ?_, ?_, hbytes, a3, hall⟩
  · rw [file_mdat_box _ _ hflat (by omega)]
  · rw [← hflat]; omega
  · rw [file_mdat_box _ _ hflat (by omega), box_length _ _ (by rfl), List.flatMap_map] at hdata
    exact Nat.add_left_cancel hdata

/-- C121: a file that ends before the end of the movie box is not accepted. The media data, with its header, are the last bytes of the file. -/
theorem C121_refused (ts : List PMP4File.Track) (file : Bytes) (hne : ts ≠ []) (hg : ∀ t ∈ ts, FileGood t) (h : PMP4File.marshal ts = .ok file)
    (hl : file.length < 2 ^ 32) (k : Nat) (hk : k + (8 + ((ts.flatMap (·.samples)).map (·.payloadSize)).sum) < file.length) (x : List (RTrack × Option Codec)) :
    PMP4File.unmarshal isoFields (file.take k) ≠ .ok x := by
  intro hc
  obtain ⟨header, mvhd, xs, o, data, r', e, hh, hxs, hm, -, hd, -, -, -⟩ := mp4cut_shape ts file hne hg h hl
  have hk : k < header.length := by
    rw [e, List.length_append, box_length _ _ (by rfl), hd] at hk; omega
  have hu := mp4cut_movie o xs hxs mvhd (by rw [box_length _ _ (by rfl)] at hm; omega)
  rw [box_length _ _ (by rfl)] at hm
  generalize box typMvhd mvhd ++ fileTraks o xs = m at hh hm hu
  have hft : (box typFtyp PMP4File.encodeFtyp).length = 32 := by rw [box_length _ _ (by rfl), file_ftyp_length]
  rw [hh, List.length_append, hft, box_length _ _ (by rfl)] at hk
  rw [e, hh, List.append_assoc] at hc
  generalize box [0x6D, 0x64, 0x61, 0x74] data = c at hc
  generalize ha : (box typFtyp PMP4File.encodeFtyp ++ (box typMoov m ++ c)).take k = a at hc
  unfold PMP4File.unmarshal at hc
  obtain ⟨r, hr, hc⟩ := Res.bind_eq_ok.1 hc
  -- The file type
  unfold readTree at hr
  rw [if_neg (by simp)] at hr
  obtain ⟨v, hv, hr⟩ := Res.bind_eq_ok.1 hr
  cases v with
  | none =>
    cases hr
    cases hc
  | some bi =>
    have hv1 : readBoxInfo (([] ++ (box typFtyp PMP4File.encodeFtyp ++ (box typMoov m ++ c))).take k) ([] : Bytes).length = .ok (some bi) := by
      rw [List.nil_append, ha]; exact hv
    obtain ⟨-, rfl⟩ := initcut_info [] typFtyp PMP4File.encodeFtyp _ k bi (by rfl) (by rw [file_ftyp_length]; decide) hv1
    dsimp only at hr
    rw [if_neg (by simp)] at hr
    obtain ⟨r1, hr1, hr⟩ := Res.bind_eq_ok.1 hr
    have e1 : r1 = ⟨⟨.waitingMoov, [], none, false, 0⟩, none, none, []⟩ := by
      have : (Res.ok ⟨⟨.waitingMoov, [], none, false, 0⟩, none, none, []⟩ : Res PMP4File.Reader) = .ok r1 := hr1
      cases this; rfl
    subst e1
    rw [file_ftyp_length, Option.map_none, List.length_nil] at hr
    -- The movie
    generalize a.length = n at hr
    cases n with
    | zero => cases hr
    | succ n =>
      unfold readTree at hr
      rw [if_neg (by simp)] at hr
      obtain ⟨v, hv2, hr⟩ := Res.bind_eq_ok.1 hr
      cases v with
      | none =>
        cases hr
        cases hc
      | some bi =>
        rw [show 0 + (8 + 24) = (box typFtyp PMP4File.encodeFtyp).length by omega, ← ha] at hv2
        obtain ⟨-, rfl⟩ := initcut_info _ typMoov m c k bi (by rfl) hm hv2
        dsimp only at hr
        rw [if_neg (by simp)] at hr
        obtain ⟨r2, hr2, -⟩ := Res.bind_eq_ok.1 hr
        obtain ⟨r3, e3⟩ := mp4cut_expands typMoov .moov (fun _ => rfl) rfl 1 (by decide) _ _ _ _ _ rfl hr2
        have e3 : readTree isoFields PMP4File.handle n a ((box typFtyp PMP4File.encodeFtyp).length + 8 + 0) (some (8 + m.length - 8 - 0)) 2 r3 = .ok r2 := e3
        rw [Nat.add_sub_cancel_left, Nat.sub_zero, Nat.add_zero] at e3
        refine hu (box typFtyp PMP4File.encodeFtyp ++ (beBytes 4 (8 + m.length) ++ typMoov)) c k n r3 r2 ?_ ?_
        · rw [List.length_append, List.length_append, hft, beBytes_length]
          have : typMoov.length = 4 := rfl
          omega
        · rw [show box typFtyp PMP4File.encodeFtyp ++ (beBytes 4 (8 + m.length) ++ typMoov) ++ (m ++ c) =
            box typFtyp PMP4File.encodeFtyp ++ (box typMoov m ++ c) by
              conv => rhs; arg 2; unfold box
              simp only [List.append_assoc], ha,
            show (box typFtyp PMP4File.encodeFtyp ++ (beBytes 4 (8 + m.length) ++ typMoov)).length = (box typFtyp PMP4File.encodeFtyp).length + 8 by
              rw [List.length_append, List.length_append, beBytes_length]; rfl]
          exact e3

/-- C121: a file that ends in the media data is read with the same tracks, samples and positions of payloads as the whole file. -/
theorem C121_growing (ts : List PMP4File.Track) (file : Bytes) (hne : ts ≠ []) (hg : ∀ t ∈ ts, FileGood t) (h : PMP4File.marshal ts = .ok file)
    (hl : file.length < 2 ^ 32) (k : Nat) (hk : file.length ≤ k + (8 + ((ts.flatMap (·.samples)).map (·.payloadSize)).sum)) :
    PMP4File.unmarshal isoFields (file.take k) = PMP4File.unmarshal isoFields file := by
  obtain ⟨header, mvhd, xs, o, data, r', e, -, -, -, hds, hd, hr, hs, hall⟩ := mp4cut_shape ts file hne hg h hl
  have hmd : ([0x6D, 0x64, 0x61, 0x74] : Bytes).length = 4 := rfl
  have hbl := box_length [0x6D, 0x64, 0x61, 0x74] data hmd
  have key : ∀ k, header.length ≤ k → readTree isoFields PMP4File.handle ((file.take k).length + 1) (file.take k) 0 none 1 {} = .ok r' := by
    intro k hk
    have ea : file.take k = header ++ (box [0x6D, 0x64, 0x61, 0x74] data).take (k - header.length) := by
      rw [e, List.take_append, List.take_of_length_le hk]
    generalize k - header.length = q at ea
    obtain ⟨j, hj, g⟩ := hr
    have hal := congrArg List.length ea
    rw [List.length_append] at hal
    generalize hy : (box [0x6D, 0x64, 0x61, 0x74] data).take q = y at ea hal
    obtain ⟨n, hn⟩ : ∃ n, (file.take k).length + 1 = n + 1 + j := ⟨(file.take k).length - j, by omega⟩
    have g := g (n + 1) [] y none none (.inl ⟨rfl, rfl⟩) (by omega)
    rw [List.nil_append, List.nil_append, ← ea, ← hn, List.length_nil] at g
    rw [g]
    generalize file.take k = a at *
    have stop : ∀ m pos, a.length < pos + 8 → readTree isoFields PMP4File.handle (m + 1) a pos none 1 r' = .ok r' := by
      intro m pos hp
      unfold readTree
      rw [if_neg (by simp)]
      have : readBoxInfo a pos = .ok none := by
        unfold readBoxInfo
        rw [if_pos (by rw [List.length_drop]; omega)]
      rw [this, Res.bind_ok]
      rfl
    by_cases hq : y.length < 8
    · exact stop _ _ (by omega)
    · have hyl := congrArg List.length hy
      rw [List.length_take, hbl] at hyl
      have et := initcut_take [] [0x6D, 0x64, 0x61, 0x74] data [] q hmd (by rw [List.length_nil]; omega)
      rw [List.nil_append, List.nil_append, List.append_nil, List.append_nil, hy] at et
      have hh := initcut_header header [0x6D, 0x64, 0x61, 0x74] (data.take (q - ([] : Bytes).length - 8)) (8 + data.length) hmd (by omega) hds
      rw [← et, ← ea] at hh
      unfold readTree
      rw [if_neg (by simp), hh, Res.bind_ok]
      dsimp only
      rw [if_neg (by simp)]
      have hskip : ∀ (bi : BoxInfo) (payload : Bytes) (expand : PMP4File.Reader → Res PMP4File.Reader), bi.typ = [0x6D, 0x64, 0x61, 0x74] →
          PMP4File.handle bi 1 payload expand r' = .ok r' := by
        intro bi payload expand hb
        unfold PMP4File.handle
        rw [if_neg (by rcases hs with h | h <;> rw [h] <;> simp), hb]
        rfl
      rw [hskip _ _ _ rfl, Res.bind_ok]
      cases n with
      | zero => exfalso; omega
      | succ n => exact stop _ _ (by omega)
  have k1 := key k (by rw [e, List.length_append, hbl, hd] at hk; omega)
  have k2 := key file.length (by rw [e, List.length_append]; omega)
  rw [List.take_length] at k2
  unfold PMP4File.unmarshal
  rw [k1, k2]

/-- C121: a payload is returned from a file that is cut when its end is there, and then it is the one of the whole file. -/
theorem C121_payload (file : Bytes) (k : Nat) (sa : PMP4.RSample) (p : Bytes) (h : PMP4.getPayload file sa = .ok p) :
    ∃ off, sa.location = some (off, p.length) ∧ PMP4.getPayload (file.take k) sa = if p = [] ∨ off + p.length ≤ k then .ok p else .err "EOF" := by
  unfold PMP4.getPayload at h ⊢
  cases hl : sa.location with
  | none => rw [hl] at h; cases h
  | some x =>
    obtain ⟨off, size⟩ := x
    rw [hl] at h
    simp only at h ⊢
    split at h
    · rename_i hs
      injection h with h
      rw [h] at hs
      refine ⟨off, by rw [hs], ?_⟩
      have hlen := congrArg List.length h
      rw [List.length_take, List.length_drop] at hlen
      rw [List.drop_take, List.take_take]
      by_cases hc : p = [] ∨ off + p.length ≤ k
      · have hm : min size (k - off) = size := by
          rcases hc with hc | hc
          · rw [hc] at hs; simp only [List.length_nil] at hs; omega
          · omega
        rw [if_pos hc, hm, h, if_pos hs]
      · rw [if_neg hc, if_neg]
        rw [not_or] at hc
        have := List.length_pos_iff.mpr hc.1
        rw [List.length_take, List.length_drop]
        omega
    · cases h

/-- C121: what is found in a file that ends in the media data. The tracks and samples are the ones that were written. The payload of each sample is the
one that was written if its end is there, and otherwise there is an error. -/
theorem C121_samples (ts : List PMP4File.Track) (file : Bytes) (hne : ts ≠ []) (hg : ∀ t ∈ ts, FileGood t) (h : PMP4File.marshal ts = .ok file)
    (hl : file.length < 2 ^ 32) (k : Nat) (hk : file.length ≤ k + (8 + ((ts.flatMap (·.samples)).map (·.payloadSize)).sum)) :
    ∃ rts, PMP4File.unmarshal isoFields (file.take k) = .ok rts ∧
      rts.map (fun x => (seen file x.1, x.2)) = ts.map (fun t => (given t.toTrack, t.codec.map restoredCodec)) ∧
      ∀ x ∈ rts, ∀ sa ∈ x.1.reader.samples, ∃ off p, PMP4.getPayload file sa = .ok p ∧ sa.location = some (off, p.length) ∧
        PMP4.getPayload (file.take k) sa = if p = [] ∨ off + p.length ≤ k then .ok p else .err "EOF" := by
  obtain ⟨rts, h1, h2⟩ := C81_round_trip ts file hne hg h hl
  refine ⟨rts, by rw [C121_growing ts file hne hg h hl k hk, h1], h2, fun x hx sa hsa => ?_⟩
  have hm : (seen file x.1, x.2) ∈ ts.map fun t => (given t.toTrack, t.codec.map restoredCodec) := by
    rw [← h2]
    exact List.mem_map_of_mem hx
  obtain ⟨t, -, ht⟩ := List.mem_map.1 hm
  have hp := congrArg (fun v => v.1.2.2.2.map fun w => w.2.2.2.2) ht
  simp only [seen, given, List.map_map] at hp
  have hi : PMP4.getPayload file sa ∈ x.1.reader.samples.map (PMP4.getPayload file) := List.mem_map_of_mem hsa
  have hi : PMP4.getPayload file sa ∈ t.toTrack.samples.map fun sa => Res.ok sa.payload := by
    refine (congrArg (PMP4.getPayload file sa ∈ ·) ?_).mpr hi
    exact hp
  obtain ⟨sb, -, hsb⟩ := List.mem_map.1 hi
  obtain ⟨off, q1, q2⟩ := C121_payload file k sa _ hsb.symm
  exact ⟨off, _, hsb.symm, q1, q2⟩

/-- The types of the boxes that `Presentation.Unmarshal` looks at, outside of sample entries. -/
def presentationTypes : List Bytes :=
  [typFtyp, typMoov, typMvhd, typTrak, typTkhd, typEdts, typElst, typMdia, typMdhd, typMinf, typStbl, typStsd, typStts, typStss, typCtts, typStsc, typStsz,
    typStco]

theorem mp4cut_other (t payload : Bytes) (h : t ∉ presentationTypes) : decodeEvent t payload = .ok .other := by
  simp only [presentationTypes, List.mem_cons, List.not_mem_nil, or_false, not_or] at h
  obtain ⟨h1, h2, h3, h4, h5, h6, h7, h8, h9, h10, h11, h12, h13, h14, h15, h16, h17, h18⟩ := h
  unfold decodeEvent
  rw [if_neg h1, if_neg h2, if_neg h3, if_neg h4, if_neg h5, if_neg h6, if_neg h7, if_neg h8, if_neg h9, if_neg h10, if_neg h11, if_neg h12, if_neg h13,
    if_neg h14, if_neg h15, if_neg h16, if_neg h17, if_neg h18]

theorem mp4cut_after (l : List (Bytes × Bytes)) (h : ∀ x ∈ l, x.1.length = 4 ∧ x.1 ∉ presentationTypes ∧ 8 + x.2.length < 2 ^ 32) (r : PMP4File.Reader)
    (hs : r.base.state ≠ .readingCodec) : Reads isoFields PMP4File.handle (l.flatMap fun x => box x.1 x.2) 1 r r := by
  induction l with
  | nil => exact tree_nil _ _ _ _
  | cons x l ih =>
    obtain ⟨h1, h2, h3⟩ := h x (by simp)
    rw [List.flatMap_cons]
    exact tree_append (file_skip _ _ _ _ h1 (by rwa [box_length _ _ h1]) hs (mp4cut_other _ _ h2)) (ih fun y hy => h y (by simp [hy]))

/-- C121: boxes of other types after the file do not matter. -/
theorem C121_followed (ts : List PMP4File.Track) (file : Bytes) (hne : ts ≠ []) (hg : ∀ t ∈ ts, FileGood t) (h : PMP4File.marshal ts = .ok file)
    (hl : file.length < 2 ^ 32) (l : List (Bytes × Bytes)) (hx : ∀ x ∈ l, x.1.length = 4 ∧ x.1 ∉ presentationTypes ∧ 8 + x.2.length < 2 ^ 32) :
    PMP4File.unmarshal isoFields (file ++ l.flatMap fun x => box x.1 x.2) = PMP4File.unmarshal isoFields file := by
  obtain ⟨header, mvhd, xs, o, data, r', e, -, -, -, hds, hd, hr, hs, hall⟩ := mp4cut_shape ts file hne hg h hl
  have hs : r'.base.state ≠ .readingCodec := by rcases hs with h | h <;> rw [h] <;> simp
  have g : Reads isoFields PMP4File.handle file 1 {} r' := by
    rw [e]
    exact tree_append hr (file_skip _ _ _ _ (by rfl) (by rwa [box_length _ _ (by rfl)]) hs rfl)
  unfold PMP4File.unmarshal
  rw [tree_file g, tree_file (tree_append g (mp4cut_after l hx r' hs))]

/-- Free space and the index of a fragmented file. -/
example : ∀ x ∈ [([0x66, 0x72, 0x65, 0x65], [0, 0]), ([0x6D, 0x66, 0x72, 0x61], [1])], x.1.length = 4 ∧ x.1 ∉ presentationTypes ∧
    8 + (x.2 : Bytes).length < 2 ^ 32 := by decide

/-- The file of `fileExample` without its last bytes. -/
def fileCut (n : Nat) : Res Nat := (PMP4File.marshal fileExample).bind fun f => (PMP4File.unmarshal isoFields (f.take (f.length - n))).bind fun x => .ok x.length

/-- The media data are 15 bytes with their header. -/
example : ((fileExample.flatMap (·.samples)).map (·.payloadSize)).sum = 7 ∧ fileCut 0 = .ok 2 ∧ fileCut 15 = .ok 2 ∧ fileCut 16 = .err "EOF" := by
  decide +kernel

/-- Without the last three bytes of the file, two payloads are left, one of them empty. -/
example : ((PMP4File.marshal fileExample).bind fun f => (PMP4File.unmarshal isoFields (f.take (f.length - 3))).bind fun rts =>
    .ok (rts.map fun x => x.1.reader.samples.map fun sa => PMP4.getPayload (f.take (f.length - 3)) sa)) =
    .ok [[.ok [1, 2], .err "EOF"], [.err "EOF", .ok [], .err "EOF"]] := by
  decide +kernel

end Verif.Props
