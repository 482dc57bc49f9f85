import Verif.Model.Depth
import Verif.Props.FMP4InitRoundTrip
import Verif.Props.FMP4InitHostile
import Verif.Props.PMP4FileSize

/-!
# C107: boxes in boxes in boxes

The functions that read MP4 files call themselves for each box that is expanded, and nothing bounds how many boxes may be around a box. A
limit that cannot be noticed exists for each file: an eighth of its length (`C107_init_bound`, `C107_presentation_bound`,
`C107_parts_bound`). No limit is one for all files (`C107_init_false`, `C107_presentation_false`, `C107_parts_false`): there are files that are
accepted and that are not with the limit, with 8 bytes, 8 bytes and 32 bytes for each level.
-/

namespace Verif.Props
open FMP4Init MP4Codec MP4Box MP4Writer
open FMP4 (readBoxInfo BoxInfo box_length)
open Spec (beBytes)
open Spec.FMP4 (box)
open ByteR (beBytes_length)
open PMP4File (typElst)
open Depth (limited)

/-! ## The length of the file is a limit -/

/-- A box that is read takes 8 bytes, before those of the boxes in it. -/
theorem deep_readTree {σ : Type} (fields : Fields) (h : Handler σ) (limit : Nat) (b : Bytes) (hb : b.length < 8 * (limit + 1)) : ∀ (n pos : Nat)
    (left : Option Nat) (depth : Nat) (r : σ), 8 * depth ≤ pos + 8 →
    readTree fields (limited limit h) n b pos left depth r = readTree fields h n b pos left depth r := by
  intro n
  induction n with
  | zero => intros; rfl
  | succ n ih =>
    intro pos left depth r hd
    rw [readTree, readTree]
    split
    · rfl
    cases hi : readBoxInfo b pos with
    | err e => rfl
    | panic => rfl
    | ok o =>
      rw [Res.bind_ok, Res.bind_ok]
      cases o with
      | none => rfl
      | some bi =>
        have hs := sound_readBoxInfo b pos
        rw [hi] at hs
        obtain ⟨h1, h2, h3, h4⟩ := hs bi rfl
        dsimp only
        split
        · rfl
        have he : expandBox fields (readTree fields (limited limit h) n b) b bi depth = expandBox fields (readTree fields h n b) b bi depth := by
          funext r'
          unfold expandBox
          split
          · rfl
          · split
            · rfl
            · exact ih _ _ _ _ (by omega)
        rw [he]
        unfold limited
        rw [if_neg (by omega)]
        exact bind_congr fun r' => ih _ _ _ _ (by omega)

/-- **C107**: on a file, a limit of an eighth of its length changes nothing. -/
theorem C107_init_bound (limit : Nat) (fields : Fields) (b : Bytes) (h : b.length < 8 * (limit + 1)) :
    Depth.initUnmarshal limit fields b = FMP4Init.unmarshal fields b := by
  unfold Depth.initUnmarshal FMP4Init.unmarshal
  rw [deep_readTree fields _ limit b h _ _ _ _ _ (by omega)]

theorem C107_presentation_bound (limit : Nat) (fields : Fields) (b : Bytes) (h : b.length < 8 * (limit + 1)) :
    Depth.presentationUnmarshal limit fields b = PMP4File.unmarshal fields b := by
  unfold Depth.presentationUnmarshal PMP4File.unmarshal
  rw [deep_readTree fields _ limit b h _ _ _ _ _ (by omega)]

theorem deep_parts (b : Bytes) : ∀ (n pos : Nat) (left : Option Nat) (depth : Nat) (r : FMP4.Reader),
    readTree (fun _ _ => some 0) (Depth.partsHandle b) n b pos left depth r = FMP4.readLevel n b pos left r := by
  intro n
  induction n with
  | zero => intros; rfl
  | succ n ih =>
    intro pos left depth r
    rw [readTree, FMP4.readLevel]
    split
    · rfl
    refine bind_congr fun o => ?_
    cases o with
    | none => rfl
    | some bi =>
      dsimp only
      split
      · rfl
      have he : expandBox (fun _ _ => some 0) (readTree (fun _ _ => some 0) (Depth.partsHandle b) n b) b bi depth =
          fun r => FMP4.readLevel n b (bi.offset + bi.headerSize) (some (bi.size - bi.headerSize)) r := by
        funext r'
        unfold expandBox
        dsimp only
        rw [if_neg (by omega), ih]
        rfl
      rw [he]
      exact bind_congr fun r' => ih _ _ _ _

theorem C107_parts_bound (limit : Nat) (b : Bytes) (h : b.length < 8 * (limit + 1)) :
    Depth.partsUnmarshal limit b = FMP4.unmarshal b := by
  unfold Depth.partsUnmarshal FMP4.unmarshal
  rw [deep_readTree _ _ limit b h _ _ _ _ _ (by omega), deep_parts]

/-! ## Boxes on which the reader stops -/

/-- The reader stops with an error in `bytes`. -/
def Stops {σ : Type} (fields : Fields) (h : Handler σ) (bytes : Bytes) (depth : Nat) (r : σ) (e : String) : Prop :=
  ∀ (n : Nat) (a c : Bytes) (left left' : Option Nat), Remains bytes.length left left' → bytes.length ≤ n →
    readTree fields h (n + 1) (a ++ (bytes ++ c)) a.length left depth r = .err e

theorem deep_remains {x y : Nat} {left left' : Option Nat} (h : Remains (x + y) left left') : ∃ mid, Remains x left mid ∧ Remains y mid left' := by
  rcases h with ⟨g1, g2⟩ | ⟨k, g1, g2⟩
  · exact ⟨none, .inl ⟨g1, rfl⟩, .inl ⟨rfl, g2⟩⟩
  · exact ⟨some (y + k), .inr ⟨y + k, by rw [g1, Nat.add_assoc], rfl⟩, .inr ⟨k, rfl, g2⟩⟩

theorem deep_leaf {σ : Type} {fields : Fields} {h : Handler σ} {typ body : Bytes} {depth : Nat} {r : σ} {e : String} (ht : typ.length = 4)
    (hl : 8 + body.length < 2 ^ 32) (hh : ∀ bi expand, bi.typ = typ → h bi depth body expand r = .err e) :
    Stops fields h (box typ body) depth r e := by
  intro n a c left left' hr hn
  rw [box_length _ _ ht] at hr
  rw [tree_step fields h n a c typ body left left' depth r ht hl hr, hh _ _ rfl]
  rfl

theorem deep_node {σ : Type} {fields : Fields} {h : Handler σ} {typ body : Bytes} {depth : Nat} {r r1 : σ} {e : String} (ht : typ.length = 4)
    (hl : 8 + body.length < 2 ^ 32) (hf : ∀ b, fields typ b = some 0)
    (hh : ∀ bi b expand, bi.typ = typ → h bi depth b expand r = expand r1) (hb : Stops fields h body (depth + 1) r1 e) :
    Stops fields h (box typ body) depth r e := by
  intro n a c left left' hr hn
  rw [box_length _ _ ht] at hr hn
  rw [tree_step fields h n a c typ body left left' depth r ht hl hr, hh _ _ _ rfl]
  have hx : expandBox fields (readTree fields h n (a ++ (box typ body ++ c))) (a ++ (box typ body ++ c))
      ⟨a.length, 8 + body.length, 8, typ⟩ depth r1 = .err e := by
    unfold expandBox
    rw [hf]
    dsimp only
    rw [if_neg (by omega)]
    obtain ⟨m, rfl⟩ : ∃ m, n = m + 1 := ⟨n - 1, by omega⟩
    have q := hb m (a ++ (beBytes 4 (8 + body.length) ++ typ)) c (some body.length) (some 0) (.inr ⟨0, rfl, rfl⟩) (by omega)
    have eb : a ++ (beBytes 4 (8 + body.length) ++ typ) ++ (body ++ c) = a ++ (box typ body ++ c) := by
      unfold box; simp only [List.append_assoc]
    have el : (a ++ (beBytes 4 (8 + body.length) ++ typ)).length = a.length + 8 + 0 := by
      simp only [List.length_append, beBytes_length, ht]
    rw [eb, el] at q
    rw [show 8 + body.length - 8 - 0 = body.length by omega, q]
  rw [hx]
  rfl

theorem deep_before {σ : Type} {fields : Fields} {h : Handler σ} {x : Bytes} (y : Bytes) {depth : Nat} {r : σ} {e : String}
    (hx : Stops fields h x depth r e) : Stops fields h (x ++ y) depth r e := by
  intro n a c left left' hr hn
  rw [List.length_append] at hr hn
  obtain ⟨mid, m1, _⟩ := deep_remains hr
  have := hx n a (y ++ c) left mid m1 (by omega)
  rwa [← List.append_assoc x] at this

theorem deep_after {σ : Type} {fields : Fields} {h : Handler σ} {x y : Bytes} {depth : Nat} {r r' : σ} {e : String}
    (hx : Reads fields h x depth r r') (hy : Stops fields h y depth r' e) : Stops fields h (x ++ y) depth r e := by
  obtain ⟨k, l, hx⟩ := hx
  intro n a c left left' hr hn
  rw [List.length_append] at hr hn
  obtain ⟨mid, m1, m2⟩ := deep_remains hr
  obtain ⟨m, rfl⟩ : ∃ m, n = m + k := ⟨n - k, by omega⟩
  have q := hx (m + 1) a (y ++ c) left mid m1 (by omega)
  have q' := hy m (a ++ x) c mid left' m2 (by omega)
  rw [show m + k + 1 = m + 1 + k by omega]
  simp only [List.append_assoc] at q q' ⊢
  rw [q, q']

theorem deep_file {σ : Type} {fields : Fields} {h : Handler σ} {b : Bytes} {r : σ} {e : String} (hb : Stops fields h b 1 r e) :
    readTree fields h (b.length + 1) b 0 none 1 r = .err e := by
  have := hb b.length [] [] none none (.inl ⟨rfl, rfl⟩) (Nat.le_refl _)
  simpa using this

/-! ## Nests -/

/-- `k` boxes of a type, one in the other. -/
def nestOf (typ : Bytes) : Nat → Bytes
  | 0 => []
  | k + 1 => box typ (nestOf typ k)

theorem deep_nest_length (typ : Bytes) (ht : typ.length = 4) (k : Nat) : (nestOf typ k).length = 8 * k := by
  induction k with
  | zero => rfl
  | succ k ih => rw [nestOf, box_length _ _ ht, ih]; omega

/-- A box that may be in itself: the state does not change. -/
theorem deep_nest_reads {σ : Type} {fields : Fields} {h : Handler σ} {typ : Bytes} {r : σ} (ht : typ.length = 4) (hf : ∀ b, fields typ b = some 0)
    (hh : ∀ bi depth b expand, bi.typ = typ → h bi depth b expand r = expand r) (k : Nat) :
    ∀ depth, 8 * k < 2 ^ 32 → Reads fields h (nestOf typ k) depth r r := by
  induction k with
  | zero => intro depth _; exact tree_nil _ _ _ _
  | succ k ih =>
    intro depth hl
    have := deep_nest_length typ ht k
    exact tree_node0 ht (by omega) hf (fun bi b expand e => hh bi depth b expand e) (ih (depth + 1) (by omega))

theorem deep_nest_stops {σ : Type} {fields : Fields} {h : Handler σ} {typ : Bytes} {r : σ} (limit : Nat) (ht : typ.length = 4)
    (hf : ∀ b, fields typ b = some 0) (hh : ∀ bi depth b expand, bi.typ = typ → h bi depth b expand r = expand r) (k : Nat) :
    ∀ depth, 8 * k < 2 ^ 32 → 0 < k → limit < depth + k - 1 → Stops fields (limited limit h) (nestOf typ k) depth r "too deep" := by
  induction k with
  | zero => intro depth _ h0; omega
  | succ k ih =>
    intro depth hl _ hd
    have := deep_nest_length typ ht k
    by_cases hc : limit < depth
    · exact deep_leaf ht (by omega) fun bi expand e => if_pos hc
    · refine deep_node ht (by omega) hf (fun bi b expand e => ?_) (ih (depth + 1) (by omega) (by omega) (by omega))
      unfold limited
      rw [if_neg hc]
      exact hh bi depth b expand e

/-! ## Initialization segments -/

/-- The codec boxes of a track with Opus. -/
def nestEntry : Bytes := initEntry typOpus (encodeAudio 2 16 (48000 * 65536)) typDOps (encodeDOps 2) 0 0

/-- A segment with a track, in which there are `k` boxes `mdia`, one in the other, in front of the one with the track. -/
def nestInit (k : Nat) : Bytes :=
  box typFtyp encodeFtyp ++ box typMoov (box typMvhd encodeMvhd ++ box typTrak (box typTkhd (tkhdPayload 1 (.opus 2) {}) ++
    (nestOf typMdia k ++ initMdia 48000 (.opus 2) nestEntry)))

theorem deep_mdia_length : (initMdia 48000 (.opus 2) nestEntry).length = 312 := by decide +kernel

theorem deep_tkhd_length : (box typTkhd (tkhdPayload 1 (.opus 2) {})).length = 92 := by decide +kernel

theorem deep_trak_length (k : Nat) : (box typTrak (box typTkhd (tkhdPayload 1 (.opus 2) {}) ++
    (nestOf typMdia k ++ initMdia 48000 (.opus 2) nestEntry))).length = 412 + 8 * k := by
  rw [box_length _ _ (by rfl), List.length_append, List.length_append, deep_nest_length _ (by rfl), deep_mdia_length, deep_tkhd_length]
  omega

theorem deep_init_length (k : Nat) : (nestInit k).length = 560 + 8 * k := by
  unfold nestInit
  rw [List.length_append, box_length _ _ (by rfl), box_length typMoov _ (by rfl), List.length_append, box_length typMvhd _ (by rfl), deep_trak_length,
    init_ftyp_length, init_mvhd_length]
  omega

theorem deep_mdia (ts : List InitTrack) (ud : List (Bytes × Bytes)) (cr : Option CodecReader) (bi : BoxInfo) (depth : Nat) (b : Bytes)
    (expand : Reader → Res Reader) (e : bi.typ = typMdia) :
    handle isoFields bi depth b expand ⟨.waitingMdhd, ts, ud, cr⟩ = expand ⟨.waitingMdhd, ts, ud, cr⟩ := by
  show Reader.readBox _ bi.typ _ expand = _
  rw [e]; rfl

theorem deep_read_tkhd (bi : BoxInfo) (depth : Nat) (expand : Reader → Res Reader) (e : bi.typ = typTkhd) :
    handle isoFields bi depth (tkhdPayload 1 (.opus 2) {}) expand ⟨.waitingTkhd, [{}], [], none⟩ =
      .ok ⟨.waitingMdhd, [{ id := 1 }], [], none⟩ := by
  show Reader.readBox _ bi.typ _ expand = _
  rw [e, init_is_tkhd]
  unfold Reader.readTkhd
  obtain ⟨n, hn, hid⟩ := init_tkhd 1 (.opus 2) {} (by omega)
  rw [if_neg (by simp), hn, Res.bind_ok, hid]
  rfl

/-- What is in front of the boxes `mdia`. -/
theorem deep_init_front (H : Handler Reader)
    (hH : ∀ bi depth b expand r, depth ≤ 3 → H bi depth b expand r = handle isoFields bi depth b expand r) :
    Reads isoFields H (box typFtyp encodeFtyp) 1 {} ⟨.waitingMoov, [], [], none⟩ ∧
    Reads isoFields H (box typMvhd encodeMvhd) 2 ⟨.waitingMvhd, [], [], none⟩ ⟨.waitingTrak, [], [], none⟩ ∧
    Reads isoFields H (box typTkhd (tkhdPayload 1 (.opus 2) {})) 3 ⟨.waitingTkhd, [{}], [], none⟩ ⟨.waitingMdhd, [{ id := 1 }], [], none⟩ := by
  refine ⟨tree_leaf (by rfl) (by rw [init_ftyp_length]; decide) fun bi expand e => ?_, ?_,
    tree_leaf (by rfl) (by have := deep_tkhd_length; rw [box_length _ _ (by rfl)] at this; omega) fun bi expand e => ?_⟩
  · rw [hH _ _ _ _ _ (by omega)]
    show Reader.readBox _ bi.typ _ expand = _
    rw [e]; rfl
  · have := tree_node (fields := isoFields) (h := H) (typ := typMvhd) (fs := encodeMvhd) (body := []) (depth := 2)
      (r := (⟨.waitingMvhd, [], [], none⟩ : Reader)) (r1 := (⟨.waitingTrak, [], [], none⟩ : Reader)) (r' := (⟨.waitingTrak, [], [], none⟩ : Reader)) (by rfl)
      (by rw [List.append_nil, init_mvhd_length]; decide) (by rw [init_mvhd_length]; exact init_mvhd_fields _ (List.append_nil _))
      (fun bi expand e => by
        rw [hH _ _ _ _ _ (by omega)]
        show Reader.readBox _ bi.typ _ expand = _
        rw [e]; rfl) (tree_nil _ _ _ _)
    rwa [List.append_nil] at this
  · rw [hH _ _ _ _ _ (by omega), deep_read_tkhd _ _ _ e]

/-- **C107 is false of `Init.Unmarshal`**: for any limit there is a segment that is accepted, with a track, and in which boxes are nested deeper. It
takes 8 bytes for each level. (The bound on the limit is that of the 32-bit size of a box.) -/
theorem C107_init_false (limit : Nat) (hl : 8 * limit < 2 ^ 31) : ∃ b, b.length = 560 + 8 * limit ∧
    FMP4Init.unmarshal isoFields b = .ok ⟨[{ id := 1, timeScale := 48000, codec := some (.opus 2) }], []⟩ ∧
    Depth.initUnmarshal limit isoFields b = .err "too deep" := by
  refine ⟨nestInit limit, deep_init_length _, ?_, ?_⟩
  · have hlen := deep_init_length limit
    have htl := deep_trak_length limit
    have hml := deep_mdia_length
    unfold nestInit at hlen
    rw [List.length_append] at hlen
    obtain ⟨f1, f2, f3⟩ := deep_init_front (handle isoFields) fun _ _ _ _ _ _ => rfl
    obtain ⟨cr, g⟩ := tree_mdia 48000 typOpus (encodeAudio 2 16 (48000 * 65536)) typDOps (encodeDOps 2) 0 0 (.opus 2) (.opus 2) [] { id := 1 }
      [] none (by omega) (init_opus 2 {} 0 0 0 _ _ _ _ ⟨by decide, by decide⟩ rfl rfl) (by show (initMdia 48000 (.opus 2) nestEntry).length < _; omega)
    have key : Reads isoFields (handle isoFields) (nestInit limit) 1 {} ⟨.waitingTrak, [{ id := 1, timeScale := 48000, codec := some (.opus 2) }], [], cr⟩ := by
      refine tree_append f1 (tree_node0 (by rfl) (by rw [box_length typMoov _ (by rfl)] at hlen; omega) (fun _ => rfl)
        (r1 := (⟨.waitingMvhd, [], [], none⟩ : Reader)) (fun bi b expand e => ?_)
        (tree_append f2 (tree_node0 (by rfl) (by rw [box_length typTrak _ (by rfl)] at htl; omega) (fun _ => rfl)
          (r1 := (⟨.waitingTkhd, [{}], [], none⟩ : Reader)) (fun bi b expand e => ?_)
          (tree_append f3 (tree_append (deep_nest_reads (by rfl) (fun _ => rfl) (fun bi d b expand e => deep_mdia _ _ _ bi d b expand e) _ _ (by omega)) g)))))
      · show Reader.readBox _ bi.typ _ expand = _
        rw [e]; rfl
      · show Reader.readBox _ bi.typ _ expand = _
        rw [e]; rfl
    unfold FMP4Init.unmarshal
    rw [tree_file key, Res.bind_ok]
    rfl
  · match limit, hl with
    | 0, _ => decide +kernel
    | 1, _ => decide +kernel
    | 2, _ => decide +kernel
    | m + 3, hl =>
      have hlen := deep_init_length (m + 3)
      have htl := deep_trak_length (m + 3)
      unfold nestInit at hlen
      rw [List.length_append] at hlen
      obtain ⟨f1, f2, f3⟩ := deep_init_front (limited (m + 3) (handle isoFields)) fun _ _ _ _ _ h => if_neg (by omega)
      have key : Stops isoFields (limited (m + 3) (handle isoFields)) (nestInit (m + 3)) 1 {} "too deep" := by
        refine deep_after f1 (deep_node (by rfl) (by rw [box_length typMoov _ (by rfl)] at hlen; omega) (fun _ => rfl)
          (r1 := (⟨.waitingMvhd, [], [], none⟩ : Reader)) (fun bi b expand e => ?_)
          (deep_after f2 (deep_node (by rfl) (by rw [box_length typTrak _ (by rfl)] at htl; omega) (fun _ => rfl)
            (r1 := (⟨.waitingTkhd, [{}], [], none⟩ : Reader)) (fun bi b expand e => ?_)
            (deep_after f3 (deep_before _ (deep_nest_stops _ (by rfl) (fun _ => rfl) (fun bi d b expand e => deep_mdia _ _ _ bi d b expand e) _ _
              (by omega) (by omega) (by omega)))))))
        · rw [show limited (m + 3) (handle isoFields) bi 1 b expand {state := .waitingMoov} = handle isoFields bi 1 b expand {state := .waitingMoov} from if_neg (by omega)]
          show Reader.readBox _ bi.typ _ expand = _
          rw [e]; rfl
        · rw [show limited (m + 3) (handle isoFields) bi 2 b expand {state := .waitingTrak} = handle isoFields bi 2 b expand {state := .waitingTrak} from if_neg (by omega)]
          show Reader.readBox _ bi.typ _ expand = _
          rw [e]; rfl
      unfold Depth.initUnmarshal
      rw [deep_file key]
      rfl

/-! ## Presentations -/

/-- What follows `tkhd` in the track of C83. -/
def nestRest : Bytes := box typEdts (box typElst (PMP4File.encodeElst [])) ++
  box typMdia (box typMdhd (PMP4File.encodeMdhd 48000 0) ++ box typMinf (box typStbl (floodStsd ++ box typStts (PMP4File.encodeStts [⟨2, 960⟩]))))

/-- A file with a track, in which there are `k` boxes `edts`, one in the other, in front of the one with the edit list. -/
def nestFile (k : Nat) : Bytes :=
  floodFile (box typTrak (box typTkhd (PMP4File.encodeTkhd 1 0 0 0 0 0) ++ (nestOf typEdts k ++ nestRest)))

theorem deep_rest_length : nestRest.length = 175 := by decide +kernel

theorem deep_ptkhd_length : (box typTkhd (PMP4File.encodeTkhd 1 0 0 0 0 0)).length = 92 := by decide +kernel

theorem deep_ptrak_length (k : Nat) :
    (box typTrak (box typTkhd (PMP4File.encodeTkhd 1 0 0 0 0 0) ++ (nestOf typEdts k ++ nestRest))).length = 275 + 8 * k := by
  rw [box_length _ _ (by rfl), List.length_append, List.length_append, deep_nest_length _ (by rfl), deep_rest_length, deep_ptkhd_length]
  omega

theorem deep_file_length (k : Nat) : (nestFile k).length = 423 + 8 * k := by
  unfold nestFile floodFile
  rw [List.length_append, box_length _ _ (by rfl), box_length typMoov _ (by rfl), List.length_append, box_length typMvhd _ (by rfl), deep_ptrak_length,
    file_ftyp_length, file_mvhd_length]
  omega

/-- The limit does not matter for a box that is not too deep. -/
theorem deep_within {σ : Type} {limit : Nat} {h : Handler σ} {bi : BoxInfo} {depth : Nat} {b : Bytes} {expand : σ → Res σ} {r : σ}
    (hd : depth ≤ limit) : limited limit h bi depth b expand r = h bi depth b expand r := if_neg (by omega)

theorem deep_event (typ : Bytes) (e : PMP4.Event) (r r1 : PMP4File.Reader) (hs : r.base.state ≠ .readingCodec)
    (b : Bytes) (hd : PMP4File.decodeEvent typ b = .ok e) (hx : PMP4File.expands e = true) (hr : r.step e = .ok r1)
    (bi : BoxInfo) (depth : Nat) (expand : PMP4File.Reader → Res PMP4File.Reader) (ht : bi.typ = typ) :
    PMP4File.handle bi depth b expand r = expand r1 := by
  unfold PMP4File.handle
  rw [if_neg hs, ht]
  unfold PMP4File.Reader.readBox
  rw [hd, Res.bind_ok, hr, Res.bind_ok, hx]
  rfl

/-- What is in front of the boxes `edts`. -/
theorem deep_file_front (H : Handler PMP4File.Reader)
    (hH : ∀ bi depth b expand r, depth ≤ 3 → H bi depth b expand r = PMP4File.handle bi depth b expand r) :
    Reads isoFields H (box typFtyp PMP4File.encodeFtyp) 1 {} ⟨⟨.waitingMoov, [], none, false, 0⟩, none, none, []⟩ ∧
    Reads isoFields H (box typMvhd (PMP4File.encodeMvhd 0 2)) 2 ⟨⟨.waitingMvhd, [], none, false, 0⟩, none, none, []⟩
      ⟨⟨.waitingTrak, [], none, false, 0⟩, none, none, []⟩ ∧
    Reads isoFields H (box typTkhd (PMP4File.encodeTkhd 1 0 0 0 0 0)) 3 ⟨⟨.waitingTkhd, [], some {}, true, 0⟩, none, none, []⟩
      ⟨⟨.waitingElst, [], some { id := 1 }, true, 0⟩, none, none, []⟩ := by
  refine ⟨tree_leaf (by rfl) (by rw [file_ftyp_length]; decide) fun bi expand e => ?_, ?_,
    tree_leaf (by rfl) (by have := deep_ptkhd_length; rw [box_length _ _ (by rfl)] at this; omega) fun bi expand e => ?_⟩
  · rw [hH _ _ _ _ _ (by omega)]
    unfold PMP4File.handle
    rw [if_neg (by simp), e]
    rfl
  · have := tree_node (fields := isoFields) (h := H) (typ := typMvhd) (fs := PMP4File.encodeMvhd 0 2) (body := []) (depth := 2)
      (r := (⟨⟨.waitingMvhd, [], none, false, 0⟩, none, none, []⟩ : PMP4File.Reader))
      (r1 := (⟨⟨.waitingTrak, [], none, false, 0⟩, none, none, []⟩ : PMP4File.Reader))
      (r' := (⟨⟨.waitingTrak, [], none, false, 0⟩, none, none, []⟩ : PMP4File.Reader)) (by rfl)
      (by rw [List.append_nil, file_mvhd_length]; decide) (by rw [file_mvhd_length]; exact file_mvhd_fields 0 _ _ (List.append_nil _))
      (fun bi expand e => by
        rw [hH _ _ _ _ _ (by omega)]
        unfold PMP4File.handle
        rw [if_neg (by simp), e]
        rfl) (tree_nil _ _ _ _)
    rwa [List.append_nil] at this
  · rw [hH _ _ _ _ _ (by omega)]
    unfold PMP4File.handle
    rw [if_neg (by simp), e]
    unfold PMP4File.Reader.readBox
    have : PMP4File.decodeEvent typTkhd (PMP4File.encodeTkhd 1 0 0 0 0 0) = .ok (.tkhd 1) := by
      show (decodeTkhd (PMP4File.encodeTkhd 1 0 0 0 0 0) >>= _) = _
      rw [mp4t_tkhd]
      rfl
    rw [this, Res.bind_ok]
    rfl

/-- **C107 is false of `Presentation.Unmarshal`**, with 8 bytes for each level. -/
theorem C107_presentation_false (limit : Nat) (hl : 8 * limit < 2 ^ 31) : ∃ b l, b.length = 423 + 8 * limit ∧
    PMP4File.unmarshal isoFields b = .ok l ∧ l.length = 1 ∧ fileSampleCount l = 2 ∧
    Depth.presentationUnmarshal limit isoFields b = .err "too deep" := by
  refine ⟨nestFile limit, [(⟨1, 48000, floodReader 2⟩, some (.opus 2))], deep_file_length _, ?_, rfl, rfl, ?_⟩
  · have hlen := deep_file_length limit
    have htl := deep_ptrak_length limit
    unfold nestFile floodFile at hlen
    rw [List.length_append] at hlen
    obtain ⟨f1, f2, f3⟩ := deep_file_front PMP4File.handle fun _ _ _ _ _ _ => rfl
    obtain ⟨cr, g⟩ := file_flood_rest 2 (by decide) [] 0 none []
    have key : Reads isoFields PMP4File.handle (nestFile limit) 1 {}
        ⟨⟨.waitingSampleProps, [], some ⟨1, 48000, floodReader 2⟩, true, 0⟩, some cr, some (.opus 2), []⟩ := by
      refine tree_append f1 (tree_node0 (by rfl) (by rw [box_length typMoov _ (by rfl)] at hlen; omega) (fun _ => rfl)
        (r1 := (⟨⟨.waitingMvhd, [], none, false, 0⟩, none, none, []⟩ : PMP4File.Reader))
        (fun bi b expand e => deep_event _ .moov _ _ (by simp) _ rfl rfl rfl _ _ _ e)
        (tree_append f2 (tree_node0 (by rfl) (by rw [box_length typTrak _ (by rfl)] at htl; omega) (fun _ => rfl)
          (r1 := (⟨⟨.waitingTkhd, [], some {}, true, 0⟩, none, none, []⟩ : PMP4File.Reader))
          (fun bi b expand e => deep_event _ .trak _ _ (by simp) _ rfl rfl rfl _ _ _ e)
          (tree_append f3 (tree_append (deep_nest_reads (by rfl) (fun _ => rfl)
            (fun bi d b expand e => deep_event _ .edts _ _ (by simp) _ rfl rfl rfl _ _ _ e) _ _ (by omega)) g)))))
    unfold PMP4File.unmarshal
    rw [tree_file key, Res.bind_ok]
    rfl
  · match limit, hl with
    | 0, _ => decide +kernel
    | 1, _ => decide +kernel
    | 2, _ => decide +kernel
    | m + 3, hl =>
      have hlen := deep_file_length (m + 3)
      have htl := deep_ptrak_length (m + 3)
      unfold nestFile floodFile at hlen
      rw [List.length_append] at hlen
      obtain ⟨f1, f2, f3⟩ := deep_file_front (limited (m + 3) PMP4File.handle) fun _ _ _ _ _ h => deep_within (by omega)
      have key : Stops isoFields (limited (m + 3) PMP4File.handle) (nestFile (m + 3)) 1 {} "too deep" := by
        refine deep_after f1 (deep_node (by rfl) (by rw [box_length typMoov _ (by rfl)] at hlen; omega) (fun _ => rfl)
          (r1 := (⟨⟨.waitingMvhd, [], none, false, 0⟩, none, none, []⟩ : PMP4File.Reader))
          (fun bi b expand e => (deep_within (by omega)).trans (deep_event _ .moov _ _ (by simp) _ rfl rfl rfl _ _ _ e))
          (deep_after f2 (deep_node (by rfl) (by rw [box_length typTrak _ (by rfl)] at htl; omega) (fun _ => rfl)
            (r1 := (⟨⟨.waitingTkhd, [], some {}, true, 0⟩, none, none, []⟩ : PMP4File.Reader))
            (fun bi b expand e => (deep_within (by omega)).trans (deep_event _ .trak _ _ (by simp) _ rfl rfl rfl _ _ _ e))
            (deep_after f3 (deep_before _ (deep_nest_stops _ (by rfl) (fun _ => rfl)
              (fun bi d b expand e => deep_event _ .edts _ _ (by simp) _ rfl rfl rfl _ _ _ e) _ _ (by omega) (by omega) (by omega)))))))
      unfold Depth.presentationUnmarshal
      rw [deep_file key]
      rfl

/-! ## Parts -/

/-- `k` boxes `moof`, one in the other; in front of the inner one there are `mfhd` and `mdat`. -/
def nestMoof : Nat → Bytes
  | 0 => []
  | k + 1 => box FMP4.typMoof (box FMP4.typMfhd (beBytes 8 0) ++ (box FMP4.typMdat [] ++ nestMoof k))

theorem deep_moof_length (k : Nat) : (nestMoof k).length = 32 * k := by
  induction k with
  | zero => rfl
  | succ k ih =>
    rw [nestMoof, box_length _ _ (by rfl), List.length_append, List.length_append, box_length _ _ (by rfl), box_length _ _ (by rfl), ih, beBytes_length]
    simp
    omega

/-- No fields in front of the boxes. -/
def nestFields : Fields := fun _ _ => some 0

/-- The first boxes of a `moof`. -/
theorem deep_moof_head (limit : Nat) (B a c : Bytes) (n k depth : Nat) (r : FMP4.Reader)
    (hb : B = a ++ (box FMP4.typMfhd (beBytes 8 0) ++ (box FMP4.typMdat [] ++ c))) (hs : r.state = .waitingMfhd) (ht : r.hasTrack = false)
    (hp : r.parts ≠ []) :
    ∃ r', r'.state = .waitingMoof ∧ r'.hasTrack = false ∧ r'.parts.length = r.parts.length ∧
      readTree nestFields (limited limit (Depth.partsHandle B)) (n + 2) B a.length (some (24 + k)) depth r =
        if limit < depth then .err "too deep"
        else readTree nestFields (limited limit (Depth.partsHandle B)) n B (a.length + 24) (some k) depth r' := by
  obtain ⟨l, p, hlp⟩ : ∃ l p, r.parts = l ++ [p] := ⟨_, _, (List.dropLast_concat_getLast hp).symm⟩
  have h1 := tree_step nestFields (limited limit (Depth.partsHandle B)) (n + 1) a (box FMP4.typMdat [] ++ c) FMP4.typMfhd (beBytes 8 0) (some (24 + k)) (some (8 + k))
    depth r (by rfl) (by rw [beBytes_length]; decide) (.inr ⟨8 + k, by rw [beBytes_length]; congr 1; omega, rfl⟩)
  have hpl : (⟨a.length, 8 + (beBytes 8 0).length, 8, FMP4.typMfhd⟩ : BoxInfo).payload B = beBytes 8 0 := by
    rw [hb]; exact fmp4_payload a _ FMP4.typMfhd (beBytes 8 0) (by rfl)
  rw [← hb] at h1
  refine ⟨{ r with parts := l ++ [{ p with sequenceNumber := 0 }], state := .waitingMoof }, rfl, ht, by rw [hlp]; simp, ?_⟩
  rw [h1]
  by_cases hc : limit < depth
  · rw [if_pos hc]
    unfold limited
    rw [if_pos hc]
    rfl
  · rw [if_neg hc]
    have e1 : ∀ ex, limited limit (Depth.partsHandle B) ⟨a.length, 8 + (beBytes 8 0).length, 8, FMP4.typMfhd⟩ depth (beBytes 8 0) ex r =
        .ok { r with parts := l ++ [{ p with sequenceNumber := 0 }], state := .waitingTraf } := by
      intro ex
      rw [deep_within (by omega)]
      unfold Depth.partsHandle FMP4.handle
      rw [if_neg (by show ¬FMP4.typMfhd = FMP4.typMoof; decide), if_pos rfl, if_neg (by rw [hs]; simp), hpl]
      have : FMP4.decodeMfhd (beBytes 8 0) = .ok 0 := by decide +kernel
      rw [this, Res.bind_ok]
      unfold FMP4.Reader.onPart
      rw [hlp]
      simp [Res.bind_ok]
    rw [e1, Res.bind_ok]
    have h2 := tree_step nestFields (limited limit (Depth.partsHandle B)) n (a ++ box FMP4.typMfhd (beBytes 8 0)) c FMP4.typMdat [] (some (8 + k)) (some k)
      depth { r with parts := l ++ [{ p with sequenceNumber := 0 }], state := .waitingTraf } (by rfl) (by decide) (.inr ⟨k, rfl, rfl⟩)
    rw [List.append_assoc, ← hb] at h2
    rw [h2]
    have e2 : ∀ ex, limited limit (Depth.partsHandle B) ⟨(a ++ box FMP4.typMfhd (beBytes 8 0)).length, 8 + ([] : Bytes).length, 8, FMP4.typMdat⟩ depth [] ex
        { r with parts := l ++ [{ p with sequenceNumber := 0 }], state := .waitingTraf } =
        .ok { r with parts := l ++ [{ p with sequenceNumber := 0 }], state := .waitingMoof } := by
      intro ex
      rw [deep_within (by omega)]
      unfold Depth.partsHandle FMP4.handle
      dsimp only
      rw [if_neg (by decide), if_neg (by decide), if_neg (by decide), if_neg (by decide), if_neg (by decide), if_neg (by decide), if_pos rfl,
        if_neg (by simp)]
      have : ({ r with parts := l ++ [{ p with sequenceNumber := 0 }], state := .waitingTraf } : FMP4.Reader).incomplete = false := by
        unfold FMP4.Reader.incomplete; rw [ht]; rfl
      rw [this]
      rfl
    rw [e2, Res.bind_ok]
    have : (a ++ box FMP4.typMfhd (beBytes 8 0) ++ box FMP4.typMdat []).length = a.length + 24 := by
      rw [List.length_append, List.length_append, box_length _ _ (by rfl), box_length _ _ (by rfl), beBytes_length]; rfl
    rw [this]

/-- A `moof`, if what follows `mfhd` and `mdat` in it is read. -/
theorem deep_moof (limit : Nat) (B : Bytes) (k : Nat) (a c : Bytes) (n depth : Nat) (left left' : Option Nat) (r : FMP4.Reader) (P : Prop) [Decidable P]
    (hb : B = a ++ (nestMoof (k + 1) ++ c)) (hl : 32 * (k + 1) < 2 ^ 32) (hr : Remains (32 * (k + 1)) left left') (hn : 32 * (k + 1) ≤ n)
    (hs : r.state = .waitingMoof) (ht : r.hasTrack = false) (hP : limit < depth + 1 → P)
    (hin : ∀ (a' : Bytes) (r' : FMP4.Reader), B = a' ++ (nestMoof k ++ c) → r'.state = .waitingMoof → r'.hasTrack = false →
      ∃ r'', r''.state = .waitingMoof ∧ r''.hasTrack = false ∧ r''.parts.length = r'.parts.length + k ∧
        (¬limit < depth + 1 → readTree nestFields (limited limit (Depth.partsHandle B)) (n - 2) B a'.length (some (32 * k)) (depth + 1) r' =
          if P then .err "too deep" else .ok r'')) :
    ∃ r', r'.state = .waitingMoof ∧ r'.hasTrack = false ∧ r'.parts.length = r.parts.length + (k + 1) ∧
      readTree nestFields (limited limit (Depth.partsHandle B)) (n + 1) B a.length left depth r =
        if P then .err "too deep"
        else readTree nestFields (limited limit (Depth.partsHandle B)) n B (a ++ nestMoof (k + 1)).length left' depth r' := by
  have hlen := deep_moof_length (k + 1)
  rw [nestMoof] at hb hlen ⊢
  generalize hbody : box FMP4.typMfhd (beBytes 8 0) ++ (box FMP4.typMdat [] ++ nestMoof k) = body at *
  rw [box_length _ _ (by rfl)] at hlen
  have h1 := tree_step nestFields (limited limit (Depth.partsHandle B)) n a c FMP4.typMoof body left left' depth r (by rfl) (by omega) (by rw [hlen]; exact hr)
  rw [← hb] at h1
  have ha1 : B = a ++ (beBytes 4 (8 + body.length) ++ FMP4.typMoof) ++ (box FMP4.typMfhd (beBytes 8 0) ++ (box FMP4.typMdat [] ++ (nestMoof k ++ c))) := by
    rw [hb, ← hbody]
    conv => lhs; rw [box]
    simp only [List.append_assoc]
  have hal : (a ++ (beBytes 4 (8 + body.length) ++ FMP4.typMoof)).length = a.length + 8 := by
    simp only [List.length_append, beBytes_length]; rfl
  obtain ⟨r2, i1, i2, i3, i4⟩ := deep_moof_head limit B _ _ (n - 2) (32 * k) (depth + 1)
    { r with parts := r.parts ++ [{}], moofOffset := a.length, state := .waitingMfhd } ha1 rfl ht (by simp)
  rw [hal, show n - 2 + 2 = n by omega] at i4
  obtain ⟨r3, j1, j2, j3, j4⟩ := hin (a ++ (beBytes 4 (8 + body.length) ++ FMP4.typMoof) ++ (box FMP4.typMfhd (beBytes 8 0) ++ box FMP4.typMdat [])) r2
    (by rw [ha1]; simp only [List.append_assoc]) i1 i2
  have hal2 : (a ++ (beBytes 4 (8 + body.length) ++ FMP4.typMoof) ++ (box FMP4.typMfhd (beBytes 8 0) ++ box FMP4.typMdat [])).length = a.length + 8 + 24 := by
    rw [List.length_append, hal, List.length_append, box_length _ _ (by rfl), box_length _ _ (by rfl), beBytes_length]; rfl
  rw [hal2] at j4
  refine ⟨r3, j1, j2, by rw [j3, i3]; simp; omega, ?_⟩
  rw [h1]
  by_cases hc : limit < depth
  · rw [if_pos (hP (by omega))]
    unfold limited
    rw [if_pos hc]
    rfl
  · rw [deep_within (by omega)]
    have e : Depth.partsHandle B ⟨a.length, 8 + body.length, 8, FMP4.typMoof⟩ depth body
        (expandBox nestFields (readTree nestFields (limited limit (Depth.partsHandle B)) n B) B ⟨a.length, 8 + body.length, 8, FMP4.typMoof⟩ depth) r =
        if P then .err "too deep" else .ok r3 := by
      unfold Depth.partsHandle FMP4.handle
      rw [if_pos rfl, if_neg (by rw [hs]; simp)]
      unfold expandBox nestFields
      dsimp only
      rw [if_neg (by omega), show 8 + body.length - 8 - 0 = 24 + 32 * k by omega]
      refine Eq.trans i4 ?_
      by_cases hd : limit < depth + 1
      · rw [if_pos hd, if_pos (hP hd)]
      · rw [if_neg hd, j4 hd]
    rw [e]
    by_cases hp : P
    · rw [if_pos hp, if_pos hp]; rfl
    · rw [if_neg hp, if_neg hp, Res.bind_ok]

/-- A `moof` in which there are `k` others. -/
theorem deep_moofs (limit : Nat) (B : Bytes) (k : Nat) : ∀ (a c : Bytes) (n depth : Nat) (left left' : Option Nat) (r : FMP4.Reader),
    B = a ++ (nestMoof (k + 1) ++ c) → 32 * (k + 1) < 2 ^ 32 → Remains (32 * (k + 1)) left left' → 32 * (k + 1) ≤ n → r.state = .waitingMoof →
    r.hasTrack = false → ∃ r', r'.state = .waitingMoof ∧ r'.hasTrack = false ∧ r'.parts.length = r.parts.length + (k + 1) ∧
      readTree nestFields (limited limit (Depth.partsHandle B)) (n + 1) B a.length left depth r =
        if limit < depth + (k + 1) then .err "too deep"
        else readTree nestFields (limited limit (Depth.partsHandle B)) n B (a ++ nestMoof (k + 1)).length left' depth r' := by
  induction k with
  | zero =>
    intro a c n depth left left' r hb hl hr hn hs ht
    refine deep_moof limit B 0 a c n depth left left' r _ hb hl hr hn hs ht (fun h => h) fun a' r' hb' hs' ht' => ?_
    refine ⟨r', hs', ht', rfl, fun hd => ?_⟩
    obtain ⟨m, hm⟩ : ∃ m, n - 2 = m + 1 := ⟨n - 3, by omega⟩
    rw [hm, if_neg hd]
    rfl
  | succ k ih =>
    intro a c n depth left left' r hb hl hr hn hs ht
    refine deep_moof limit B (k + 1) a c n depth left left' r _ hb hl hr hn hs ht (fun h => by omega) fun a' r' hb' hs' ht' => ?_
    obtain ⟨m, hm⟩ : ∃ m, n - 2 = m + 1 + 1 := ⟨n - 4, by omega⟩
    obtain ⟨r3, j1, j2, j3, j4⟩ := ih a' c (m + 1) (depth + 1) (some (32 * (k + 1))) (some 0) r' hb' (by omega) (.inr ⟨0, rfl, rfl⟩) (by omega) hs' ht'
    refine ⟨r3, j1, j2, j3, fun _ => ?_⟩
    rw [hm, j4, show depth + 1 + (k + 1) = depth + (k + 1 + 1) by omega]
    rfl

theorem deep_end {σ : Type} (fields : Fields) (h : Handler σ) (m depth : Nat) (b : Bytes) (r : σ) :
    readTree fields h (m + 1) b b.length none depth r = .ok r := by
  unfold readTree readBoxInfo
  simp [Res.bind_ok]

/-- **C107 is false of `Parts.Unmarshal`**: `moof` in `moof`, with 32 bytes for each level. -/
theorem C107_parts_false (limit : Nat) (hl : 32 * limit < 2 ^ 31) (h0 : 0 < limit) : ∃ b l, b.length = 32 * limit ∧
    FMP4.unmarshal b = .ok l ∧ l.length = limit ∧ Depth.partsUnmarshal limit b = .err "too deep" := by
  obtain ⟨k, rfl⟩ : ∃ k, limit = k + 1 := ⟨limit - 1, by omega⟩
  have hlen := deep_moof_length (k + 1)
  obtain ⟨r1, i1, i2, i3, i4⟩ := deep_moofs (4 * (k + 1)) (nestMoof (k + 1)) k [] [] (nestMoof (k + 1)).length 1 none none {} (by simp) (by omega)
    (.inl ⟨rfl, rfl⟩) (by omega) rfl rfl
  refine ⟨nestMoof (k + 1), r1.parts, hlen, ?_, by rw [i3]; simp, ?_⟩
  · rw [← C107_parts_bound (4 * (k + 1)) _ (by omega)]
    unfold Depth.partsUnmarshal
    rw [if_neg (by omega)] at i4
    have e : readTree nestFields (limited (4 * (k + 1)) (Depth.partsHandle (nestMoof (k + 1)))) (nestMoof (k + 1)).length (nestMoof (k + 1))
        ([] ++ nestMoof (k + 1)).length none 1 r1 = .ok r1 := by
      obtain ⟨m, hm⟩ : ∃ m, (nestMoof (k + 1)).length = m + 1 := ⟨32 * k + 31, by omega⟩
      rw [List.nil_append]
      conv => lhs; arg 3; rw [hm]
      exact deep_end _ _ _ _ _ _
    rw [e] at i4
    refine Eq.trans (congrArg (· >>= _) i4) ?_
    rw [Res.bind_ok, i1]
    rfl
  · obtain ⟨_, _, _, _, j4⟩ := deep_moofs (k + 1) (nestMoof (k + 1)) k [] [] (nestMoof (k + 1)).length 1 none none {} (by simp) (by omega)
      (.inl ⟨rfl, rfl⟩) (by omega) rfl rfl
    unfold Depth.partsUnmarshal
    rw [if_pos (by omega)] at j4
    exact congrArg (· >>= _) j4

/-! ## Examples -/

example : ∃ b, b.length = 560 + 8 * 1000000 ∧ FMP4Init.unmarshal isoFields b = .ok ⟨[{ id := 1, timeScale := 48000, codec := some (.opus 2) }], []⟩ ∧
    Depth.initUnmarshal 1000000 isoFields b = .err "too deep" := C107_init_false 1000000 (by omega)

/-- What `Init.Marshal` writes has 8 levels: `moov`, `trak`, `mdia`, `minf`, `stbl`, `stsd`, `Opus`, `dOps`. -/
example : Depth.initUnmarshal 8 isoFields (nestInit 0) = FMP4Init.unmarshal isoFields (nestInit 0) ∧
    Depth.initUnmarshal 7 isoFields (nestInit 0) = .err "too deep" := by decide +kernel

example : (nestFile 5).length < 8 * (57 + 1) ∧ Depth.presentationUnmarshal 8 isoFields (nestFile 5) = PMP4File.unmarshal isoFields (nestFile 5) ∧
    Depth.presentationUnmarshal 7 isoFields (nestFile 5) = .err "too deep" := by decide +kernel

example : Depth.partsUnmarshal 4 (nestMoof 3) = .ok [{}, {}, {}] ∧ Depth.partsUnmarshal 3 (nestMoof 3) = .err "too deep" := by decide +kernel

end Verif.Props
