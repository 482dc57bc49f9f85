import Verif.Props.FMP4InitRoundTrip
import Verif.Props.FMP4InitHostile
import Verif.Props.FMP4PartsISO

/-!
# C120: initialization segments inside of files and of cut files
-/

namespace Verif.Props
open FMP4Init MP4Codec MP4Box MP4Writer
open FMP4 (readBoxInfo BoxInfo full box_length)
open Spec (beBytes)
open Spec.FMP4 (box)
open ByteR (beBytes_length)
open Readers (SBuf)

/-! ## What is written -/

theorem initcut_tracks (l : List InitTrack) : ∀ (a : Bytes) (f : SBuf) (_ : ∀ t ∈ l, ∀ c, t.codec = some c → Kept c)
    (_ : ∀ t ∈ l, 0 ≤ t.id ∧ t.id < 2 ^ 32) (_ : ∀ t ∈ l, 0 < t.timeScale ∧ t.timeScale < 2 ^ 32)
    (_ : marshalTracks l (full a) = .ok f), ∃ bodies : List Bytes, f = full (a ++ bodies.flatMap (box typTrak)) ∧
      ∀ ts ud cr0, ∃ cr, Reads isoFields (handle isoFields) (bodies.flatMap (box typTrak)) 2
        ⟨.waitingTrak, ts, ud, cr0⟩ ⟨.waitingTrak, ts ++ l.map restoredTrack, ud, cr⟩ := by
  induction l with
  | nil =>
    intro a f _ _ _ h
    cases h
    refine ⟨[], by rw [List.flatMap_nil, List.append_nil], fun ts ud cr0 => ⟨cr0, ?_⟩⟩
    rw [List.map_nil, List.append_nil]
    exact tree_nil _ _ _ _
  | cons t l ih =>
    intro a f hk hi ht h
    obtain ⟨f1, h1, h⟩ := Res.bind_eq_ok.1 h
    obtain ⟨c, info, typ, entry, ctyp, config, avg, max, hc, hr, rfl, hl⟩ := put_track a t f1 (hk t (by simp)) h1
    obtain ⟨bodies, hb, hreads⟩ := ih _ f (fun t h => hk t (by simp [h])) (fun t h => hi t (by simp [h])) (fun t h => ht t (by simp [h])) h
    refine ⟨(box typTkhd (tkhdPayload t.id c info) ++ initMdia t.timeScale c (initEntry typ entry ctyp config avg max)) :: bodies, by
      rw [hb, List.flatMap_cons, List.append_assoc]; rfl, fun ts ud cr0 => ?_⟩
    obtain ⟨cr1, g1⟩ := tree_trak t.id t.timeScale info typ entry ctyp config avg max (restoredCodec c) c ts ud cr0 (hi t (by simp))
      (ht t (by simp)) hr hl
    obtain ⟨cr2, g2⟩ := hreads (ts ++ [{ id := t.id, timeScale := t.timeScale, codec := some (restoredCodec c) }]) ud cr1
    refine ⟨cr2, ?_⟩
    have e : restoredTrack t = { id := t.id, timeScale := t.timeScale, codec := some (restoredCodec c) } := by
      unfold restoredTrack; rw [hc]; rfl
    rw [List.map_cons, e, List.flatMap_cons]
    have := tree_append g1 g2
    rwa [List.append_assoc] at this

theorem initcut_all (l : List (Bytes × Bytes)) : ∀ (a : Bytes) (f : SBuf) (_ : ∀ u ∈ l, u.1.length = 4) (_ : writeAll l (full a) = .ok f),
    f = full (a ++ l.flatMap fun x => box x.1 x.2) := by
  induction l with
  | nil =>
    intro a f _ h
    cases h
    rw [List.flatMap_nil, List.append_nil]
  | cons u l ih =>
    intro a f hu h
    have h4 : u.1.length = 4 := hu u (by simp)
    unfold writeAll at h
    have W := put_writers
    generalize writeBoxStart = start at W
    generalize writeBox = one at W h
    generalize writeBoxEnd = stop at W
    obtain ⟨⟨_, _⟩, e, h⟩ := Res.bind_eq_ok.1 h
    obtain rfl := W.one _ _ _ _ _ h4 e
    rw [ih _ _ (fun u h => hu u (by simp [h])) h, List.flatMap_cons, List.append_assoc]

/-- The user data of a movie. -/
def userBytes (l : List (Bytes × Bytes)) : Bytes := if l = [] then [] else box typUdta (l.flatMap fun x => box x.1 x.2)

theorem initcut_userData (l : List (Bytes × Bytes)) (a : Bytes) (f : SBuf) (hu : ∀ u ∈ l, u.1.length = 4)
    (h : writeUserData l (full a) = .ok f) : f = full (a ++ userBytes l) := by
  unfold writeUserData at h
  unfold userBytes
  by_cases hl : l = []
  · subst hl
    cases h
    rw [if_pos rfl, List.append_nil]
  · rw [if_pos (fun e => hl (List.length_eq_zero_iff.1 e))] at h
    have W := put_writers
    have A := initcut_all l
    generalize writeBoxStart = start at W h
    generalize writeBox = one at W
    generalize writeBoxEnd = stop at W h
    generalize writeAll = all at A h
    obtain ⟨⟨_, _⟩, e, h⟩ := Res.bind_eq_ok.1 h
    cases W.start _ _ _ _ e
    clear e
    obtain ⟨f2, h2, h⟩ := Res.bind_eq_ok.1 h
    obtain rfl := A _ _ hu h2
    obtain ⟨rfl, _⟩ := W.stop _ typUdta (l.flatMap fun x => box x.1 x.2) _ _ (by rfl) (by simp only [List.append_nil, List.append_assoc]) h
    rw [if_neg hl]

/-- The boxes of an initialization segment, and how they are read. -/
theorem initcut_shape (i : Init) (f : SBuf) (hg : GoodInit i) (h : marshal ⟨[], 0⟩ i = .ok f) :
    ∃ (bodies : List Bytes) (bx bu : Bytes) (s : State) (cr : Option CodecReader),
      f.buf = box typFtyp encodeFtyp ++ box typMoov (box typMvhd encodeMvhd ++ (bodies.flatMap (box typTrak) ++ (box typMvex bx ++ bu))) ∧
      (box typMoov (box typMvhd encodeMvhd ++ (bodies.flatMap (box typTrak) ++ (box typMvex bx ++ bu)))).length < 2 ^ 32 ∧
      bu = userBytes i.userData ∧
      Reads isoFields (handle isoFields) (box typMvhd encodeMvhd ++ bodies.flatMap (box typTrak)) 2 ⟨.waitingMvhd, [], [], none⟩
        ⟨.waitingTrak, i.tracks.map restoredTrack, [], cr⟩ ∧
      (s = .waitingTrak ∨ s = .readingUserData) ∧
      Reads isoFields (handle isoFields) bu 2 ⟨.waitingTrak, i.tracks.map restoredTrack, [], cr⟩ ⟨s, i.tracks.map restoredTrack, i.userData, cr⟩ := by
  unfold marshal at h
  have h0 : (⟨[], 0⟩ : SBuf) = full [] := rfl
  rw [h0] at h
  have W := put_writers
  have T := initcut_tracks i.tracks
  have X := put_trexs i.tracks
  have U := tree_userData i.userData
  have V := initcut_userData i.userData
  generalize writeBoxStart = start at W h
  generalize writeBox = one at W h
  generalize writeBoxEnd = stop at W h
  generalize marshalTracks = tracks at T h
  generalize writeTrexs = trexs at X h
  generalize writeUserData = user at U V h
  obtain ⟨⟨_, _⟩, e, h⟩ := Res.bind_eq_ok.1 h
  obtain rfl := W.one _ _ _ _ _ (by rfl) e
  clear e
  dsimp only at h
  obtain ⟨⟨_, _⟩, e, h⟩ := Res.bind_eq_ok.1 h
  cases W.start _ _ _ _ e
  clear e
  dsimp only at h
  obtain ⟨⟨_, _⟩, e, h⟩ := Res.bind_eq_ok.1 h
  obtain rfl := W.one _ _ _ _ _ (by rfl) e
  clear e
  dsimp only at h
  obtain ⟨f1, h1, h⟩ := Res.bind_eq_ok.1 h
  obtain ⟨bodies, rfl, ht⟩ := T _ _ hg.codec hg.id hg.time h1
  obtain ⟨⟨_, _⟩, e, h⟩ := Res.bind_eq_ok.1 h
  cases W.start _ _ _ _ e
  clear e
  dsimp only at h
  obtain ⟨f2, h2, h⟩ := Res.bind_eq_ok.1 h
  obtain ⟨bx, rfl⟩ := X _ _ h2
  obtain ⟨f3, h3, h⟩ := Res.bind_eq_ok.1 h
  obtain ⟨rfl, _⟩ := W.stop _ typMvex bx _ _ (by rfl) (by simp only [List.append_nil, List.append_assoc]) h3
  obtain ⟨f4, h4, h⟩ := Res.bind_eq_ok.1 h
  obtain ⟨bu, rfl, hu⟩ := U _ _ hg.userData h4
  have hv : bu = userBytes i.userData := by
    have h5 := congrArg SBuf.buf (V _ _ hg.userData h4)
    unfold full at h5
    exact List.append_cancel_left h5
  obtain ⟨rfl, hl⟩ := W.stop _ typMoov (box typMvhd encodeMvhd ++ (bodies.flatMap (box typTrak) ++ (box typMvex bx ++ bu))) _ _ (by rfl)
    (by simp only [List.append_nil, List.append_assoc]) h
  clear h h1 h2 h3 h4 W T X U V
  have hl' := hl
  rw [box_length _ _ (by rfl), List.length_append, List.length_append, List.length_append] at hl'
  obtain ⟨cr, g1⟩ := ht [] [] none
  obtain ⟨s, hs, g2⟩ := hu (by omega) (i.tracks.map restoredTrack) cr
  refine ⟨bodies, bx, bu, s, cr, by unfold full; rfl, hl, hv, tree_append ?_ g1, hs, g2⟩
  have := tree_node (fields := isoFields) (h := handle isoFields) (typ := typMvhd) (fs := encodeMvhd) (body := []) (depth := 2)
    (r := (⟨.waitingMvhd, [], [], none⟩ : Reader)) (r1 := (⟨.waitingTrak, [], [], none⟩ : Reader)) (r' := (⟨.waitingTrak, [], [], none⟩ : Reader)) (by rfl)
    (by rw [List.append_nil, init_mvhd_length]; decide) (by rw [init_mvhd_length]; exact init_mvhd_fields _ (List.append_nil _))
    (fun bi expand e => by
      show Reader.readBox _ bi.typ _ expand = _
      rw [e]; rfl) (tree_nil _ _ _ _)
  rwa [List.append_nil] at this

theorem initcut_written (i : Init) (f : SBuf) (hg : GoodInit i) (h : marshal ⟨[], 0⟩ i = .ok f) : ∃ s cr, (s = .waitingTrak ∨ s = .readingUserData) ∧
    Reads isoFields (handle isoFields) f.buf 1 {} ⟨s, i.tracks.map restoredTrack, i.userData, cr⟩ := by
  obtain ⟨bodies, bx, bu, s, cr, e, hl, -, g1, hs, g2⟩ := initcut_shape i f hg h
  refine ⟨s, cr, hs, ?_⟩
  rw [e]
  have hl' := hl
  rw [box_length _ _ (by rfl), List.length_append, List.length_append, List.length_append] at hl'
  rw [← List.append_assoc (box typMvhd encodeMvhd)] at hl ⊢
  refine tree_append (r' := (⟨.waitingMoov, [], [], none⟩ : Reader)) ?_ (tree_node0 (by rfl) (by rwa [box_length _ _ (by rfl)] at hl)
    (fun _ => rfl) (fun bi b expand e => ?_) (r1 := (⟨.waitingMvhd, [], [], none⟩ : Reader)) (tree_append g1 (tree_append ?_ g2)))
  · refine tree_leaf (by rfl) (by rw [init_ftyp_length]; decide) fun bi expand e => ?_
    show Reader.readBox _ bi.typ _ expand = _
    rw [e]; rfl
  · show Reader.readBox _ bi.typ _ expand = _
    rw [e]; rfl
  · exact tree_skip _ _ _ _ (by rfl) (by omega) (by simp) (by simp) fun _ => rfl

/-! ## Followed by other boxes -/

/-- The types of the boxes that `Init.Unmarshal` looks at, outside of sample entries and of user data. -/
def segmentTypes : List Bytes :=
  [typFtyp, typMoov, typUdta, typMvhd, typTrak, typTkhd, typMdia, typMdhd, typMinf, typStbl, typStsd]

theorem initcut_ignored (r : Reader) (typ payload : Bytes) (expand : Reader → Res Reader) (h : typ ∉ segmentTypes) : r.readBox typ payload expand = .ok r := by
  simp only [segmentTypes, List.mem_cons, List.not_mem_nil, or_false, not_or] at h
  obtain ⟨h1, h2, h3, h4, h5, h6, h7, h8, h9, h10, h11⟩ := h
  unfold Reader.readBox
  rw [if_neg h1, if_neg h2, if_neg h3, if_neg h4, if_neg h5, if_neg h6, if_neg h7, if_neg h8, if_neg (by simp [h9, h10]), if_neg h11]

theorem initcut_after (d : Nat) (hd : d < 3) (l : List (Bytes × Bytes)) (h : ∀ x ∈ l, x.1.length = 4 ∧ x.1 ∉ segmentTypes ∧ 8 + x.2.length < 2 ^ 32) :
    ∀ (s : State) (ts : List InitTrack) (ud : List (Bytes × Bytes)) (cr : Option CodecReader), (s = .waitingTrak ∨ s = .readingUserData) →
    ∃ s', (s' = .waitingTrak ∨ s' = .readingUserData) ∧
      Reads isoFields (handle isoFields) (l.flatMap fun x => box x.1 x.2) d ⟨s, ts, ud, cr⟩ ⟨s', ts, ud, cr⟩ := by
  induction l with
  | nil => intro s ts ud cr hs; exact ⟨s, hs, tree_nil _ _ _ _⟩
  | cons x l ih =>
    intro s ts ud cr hs
    obtain ⟨h1, h2, h3⟩ := h x (by simp)
    obtain ⟨s', hs', g⟩ := ih (fun y hy => h y (by simp [hy])) .waitingTrak ts ud cr (.inl rfl)
    refine ⟨s', hs', ?_⟩
    rw [List.flatMap_cons]
    refine tree_append (r' := ⟨.waitingTrak, ts, ud, cr⟩) (tree_leaf h1 h3 fun bi expand e => ?_) g
    unfold handle
    rcases hs with rfl | rfl
    · dsimp only
      rw [e, initcut_ignored _ _ _ _ h2]
    · dsimp only
      rw [if_pos hd, e, initcut_ignored _ _ _ _ h2]

/-- C120: an initialization segment is read the same whatever boxes of other types follow it, such as the parts of a fragmented file. -/
theorem C120_followed (i : Init) (f : SBuf) (hg : GoodInit i) (h : marshal ⟨[], 0⟩ i = .ok f) (l : List (Bytes × Bytes))
    (hl : ∀ x ∈ l, x.1.length = 4 ∧ x.1 ∉ segmentTypes ∧ 8 + x.2.length < 2 ^ 32) :
    unmarshal isoFields (f.buf ++ l.flatMap fun x => box x.1 x.2) = .ok (restoredInit i) := by
  obtain ⟨s, cr, hs, g⟩ := initcut_written i f hg h
  obtain ⟨s', hs', g'⟩ := initcut_after 1 (by decide) l hl s (i.tracks.map restoredTrack) i.userData cr hs
  unfold unmarshal
  rw [tree_file (tree_append g g'), Res.bind_ok]
  dsimp only
  have hn : (i.tracks.map restoredTrack).length ≠ 0 := by
    rw [List.length_map]
    exact fun e => hg.tracks (List.length_eq_zero_iff.1 e)
  rw [if_neg (by rcases hs' with rfl | rfl <;> simp), if_neg hn]
  rfl

/-- C120: boxes of other types at the end of the movie do not matter either, and are not user data. -/
theorem C120_movie (i : Init) (f : SBuf) (hg : GoodInit i) (h : marshal ⟨[], 0⟩ i = .ok f) (l : List (Bytes × Bytes))
    (hl : ∀ x ∈ l, x.1.length = 4 ∧ x.1 ∉ segmentTypes) (hs : (f.buf ++ l.flatMap fun x => box x.1 x.2).length < 2 ^ 32) :
    unmarshal isoFields (f.buf.take 32 ++ box typMoov (f.buf.drop 40 ++ l.flatMap fun x => box x.1 x.2)) = .ok (restoredInit i) := by
  obtain ⟨bodies, bx, bu, s, cr, e, hle, -, g1, hs1, g2⟩ := initcut_shape i f hg h
  have hl' := hle
  rw [box_length _ _ (by rfl), List.length_append, List.length_append, List.length_append] at hl'
  have hft : (box typFtyp encodeFtyp).length = 32 := by rw [box_length _ _ (by rfl), init_ftyp_length]
  have hsz : ∀ x ∈ l, 8 + x.2.length < 2 ^ 32 := by
    intro x hx
    have := List.Sublist.length_le (List.sublist_flatten_of_mem (List.mem_map_of_mem (f := fun x : Bytes × Bytes => box x.1 x.2) hx))
    rw [box_length _ _ (hl x hx).1] at this
    rw [List.length_append, List.flatMap_def] at hs
    omega
  obtain ⟨s', hs', g3⟩ := initcut_after 2 (by decide) l (fun x hx => ⟨(hl x hx).1, (hl x hx).2, hsz x hx⟩) s (i.tracks.map restoredTrack) i.userData cr hs1
  generalize hm : box typMvhd encodeMvhd ++ (bodies.flatMap (box typTrak) ++ (box typMvex bx ++ bu)) = m at e hle
  have e1 : f.buf.take 32 = box typFtyp encodeFtyp := by rw [e, List.take_left' hft]
  have e2 : f.buf.drop 40 = m := by
    rw [e, show box typFtyp encodeFtyp ++ box typMoov m = (box typFtyp encodeFtyp ++ (beBytes 4 (8 + m.length) ++ typMoov)) ++ m by
      unfold box; simp only [List.append_assoc]]
    exact List.drop_left' (by rw [List.length_append, List.length_append, hft, beBytes_length]; rfl)
  have hlm : 8 + (m ++ l.flatMap fun x => box x.1 x.2).length < 2 ^ 32 := by
    rw [e, List.length_append, List.length_append, hft, box_length _ _ (by rfl)] at hs
    rw [List.length_append]
    omega
  rw [e1, e2]
  have g : Reads isoFields (handle isoFields) (box typFtyp encodeFtyp ++ box typMoov (m ++ l.flatMap fun x => box x.1 x.2)) 1 {}
      ⟨s', i.tracks.map restoredTrack, i.userData, cr⟩ := by
    refine tree_append (r' := (⟨.waitingMoov, [], [], none⟩ : Reader)) ?_ (tree_node0 (by rfl) hlm
      (fun _ => rfl) (fun bi b expand e => ?_) (r1 := (⟨.waitingMvhd, [], [], none⟩ : Reader)) ?_)
    · refine tree_leaf (by rfl) (by rw [init_ftyp_length]; decide) fun bi expand e => ?_
      show Reader.readBox _ bi.typ _ expand = _
      rw [e]; rfl
    · show Reader.readBox _ bi.typ _ expand = _
      rw [e]; rfl
    · rw [← hm, ← List.append_assoc (box typMvhd encodeMvhd)]
      refine tree_append (tree_append g1 (tree_append ?_ g2)) g3
      exact tree_skip _ _ _ _ (by rfl) (by omega) (by simp) (by simp) fun _ => rfl
  unfold unmarshal
  rw [tree_file g, Res.bind_ok]
  dsimp only
  have hn : (i.tracks.map restoredTrack).length ≠ 0 := by
    rw [List.length_map]
    exact fun e => hg.tracks (List.length_eq_zero_iff.1 e)
  rw [if_neg (by rcases hs' with rfl | rfl <;> simp), if_neg hn]
  rfl

/-! ## Cut -/

/-- The header of a box, whatever of its content is there. -/
theorem initcut_header (p t q : Bytes) (v : Nat) (ht : t.length = 4) (h8 : 8 ≤ v) (hv : v < 2 ^ 32) :
    readBoxInfo (p ++ (beBytes 4 v ++ (t ++ q))) p.length = .ok (some ⟨p.length, v, 8, t⟩) := by
  unfold readBoxInfo
  rw [List.drop_left, if_neg (by simp only [List.length_append, beBytes_length, ht]; omega), fmp4_takeBE 4 _ _ (by omega), Res.bind_ok]
  simp only
  rw [if_neg (by omega), if_neg (by omega), if_neg (by omega), List.take_left' ht]

/-- What is left of a box that is cut after its header. -/
theorem initcut_take (p t body c : Bytes) (k : Nat) (ht : t.length = 4) (hk : p.length + 8 ≤ k) :
    (p ++ (box t body ++ c)).take k = p ++ (beBytes 4 (8 + body.length) ++ (t ++ (body ++ c).take (k - p.length - 8))) := by
  have e : p ++ (box t body ++ c) = (p ++ (beBytes 4 (8 + body.length) ++ t)) ++ (body ++ c) := by
    unfold box; simp only [List.append_assoc]
  have hl : (p ++ (beBytes 4 (8 + body.length) ++ t)).length = p.length + 8 := by simp only [List.length_append, beBytes_length, ht]
  rw [e, List.take_append, hl, List.take_of_length_le (by omega), Nat.sub_sub]
  simp only [List.append_assoc]

theorem initcut_info (p t body c : Bytes) (k : Nat) (bi : BoxInfo) (ht : t.length = 4) (hl : 8 + body.length < 2 ^ 32)
    (h : readBoxInfo ((p ++ (box t body ++ c)).take k) p.length = .ok (some bi)) :
    p.length + 8 ≤ k ∧ bi = ⟨p.length, 8 + body.length, 8, t⟩ := by
  by_cases hk : p.length + 8 ≤ k
  · rw [initcut_take p t body c k ht hk, initcut_header _ _ _ _ ht (by omega) hl] at h
    cases h
    exact ⟨hk, rfl⟩
  · unfold readBoxInfo at h
    rw [if_pos (by rw [List.length_drop, List.length_take]; omega)] at h
    cases h

/-- The boxes of a level of a cut file are all there, except for the content of the last one. -/
theorem initcut_chain {σ : Type} (fields : Fields) (hd : Handler σ) (l : List (Bytes × Bytes)) (t body : Bytes) (ht : t.length = 4)
    (hb : 8 + body.length < 2 ^ 32) (hl : ∀ x ∈ l, x.1.length = 4 ∧ 8 + x.2.length < 2 ^ 32) (c : Bytes) (k : Nat) :
    ∀ (n : Nat) (p : Bytes) (depth : Nat) (r r' : σ),
      readTree fields hd n ((p ++ ((l.flatMap fun x => box x.1 x.2) ++ (box t body ++ c))).take k) p.length
        (some ((l.flatMap fun x => box x.1 x.2).length + (box t body).length)) depth r = .ok r' →
      p.length + (l.flatMap fun x => box x.1 x.2).length + 8 ≤ k := by
  induction l with
  | nil =>
    intro n p depth r r' h
    cases n with
    | zero => cases h
    | succ n =>
      unfold readTree at h
      rw [List.flatMap_nil, List.nil_append, List.length_nil, Nat.zero_add, box_length _ _ ht] at h
      rw [if_neg (by simp)] at h
      obtain ⟨o, ho, h⟩ := Res.bind_eq_ok.1 h
      cases o with
      | none => cases h
      | some bi => exact (initcut_info p t body c k bi ht hb ho).1
  | cons x l ih =>
    intro n p depth r r' h
    obtain ⟨h1, h2⟩ := hl x (by simp)
    cases n with
    | zero => cases h
    | succ n =>
      unfold readTree at h
      rw [List.flatMap_cons, List.length_append, box_length _ _ h1, List.append_assoc] at h
      rw [if_neg (by simp; omega)] at h
      obtain ⟨o, ho, h⟩ := Res.bind_eq_ok.1 h
      cases o with
      | none => cases h
      | some bi =>
        obtain ⟨hk, rfl⟩ := initcut_info p x.1 x.2 _ k bi h1 h2 ho
        dsimp only at h
        rw [if_neg (by simp; omega)] at h
        obtain ⟨r1, -, h⟩ := Res.bind_eq_ok.1 h
        have e : p ++ (box x.1 x.2 ++ ((l.flatMap fun x => box x.1 x.2) ++ (box t body ++ c))) =
            (p ++ box x.1 x.2) ++ ((l.flatMap fun x => box x.1 x.2) ++ (box t body ++ c)) := by rw [List.append_assoc]
        rw [e, show p.length + (8 + x.2.length) = (p ++ box x.1 x.2).length by rw [List.length_append, box_length _ _ h1],
          Option.map_some, show 8 + x.2.length + (l.flatMap fun x => box x.1 x.2).length + (box t body).length - (8 + x.2.length) =
            (l.flatMap fun x => box x.1 x.2).length + (box t body).length by omega] at h
        have := ih (fun y hy => hl y (by simp [hy])) n _ depth r1 r' h
        rw [List.flatMap_cons, List.length_append, box_length _ _ h1]
        rw [List.length_append, box_length _ _ h1] at this
        omega

/-- The boxes of a level of which the last may be cut: those before it are read as they were written, the last one as far as it is there. -/
theorem initcut_level {σ : Type} (fields : Fields) (hd : Handler σ) (l : List (Bytes × Bytes)) (t body : Bytes) (ht : t.length = 4)
    (hb : 8 + body.length < 2 ^ 32) (hl : ∀ x ∈ l, x.1.length = 4 ∧ 8 + x.2.length < 2 ^ 32) (k n : Nat) (p a : Bytes) (depth : Nat) (r r' r2 : σ)
    (ha : (p ++ ((l.flatMap fun x => box x.1 x.2) ++ box t body)).take k = a) (hn : a.length ≤ p.length + n)
    (g : Reads fields hd (l.flatMap fun x => box x.1 x.2) depth r r')
    (h : readTree fields hd n a p.length (some ((l.flatMap fun x => box x.1 x.2).length + (box t body).length)) depth r = .ok r2) :
    ∃ m q, a.length ≤ p.length + (l.flatMap fun x => box x.1 x.2).length + 8 + m ∧
      hd ⟨p.length + (l.flatMap fun x => box x.1 x.2).length, 8 + body.length, 8, t⟩ depth (body.take q)
        (expandBox fields (readTree fields hd m a) a ⟨p.length + (l.flatMap fun x => box x.1 x.2).length, 8 + body.length, 8, t⟩ depth) r' = .ok r2 := by
  have hbl := box_length t body ht
  have hk : p.length + (l.flatMap fun x => box x.1 x.2).length + 8 ≤ k := by
    refine initcut_chain fields hd l t body ht hb hl [] k n p depth r r2 ?_
    rw [List.append_nil, ha]
    exact h
  generalize (l.flatMap fun x => box x.1 x.2) = X at ha g h hk ⊢
  have hY := initcut_take (p ++ X) t body [] k ht (by rw [List.length_append]; exact hk)
  rw [List.append_nil, List.append_nil, List.append_assoc, ha, List.append_assoc] at hY
  generalize k - (p ++ X).length - 8 = q at hY
  obtain ⟨j, hj, g⟩ := g
  have hn1 := congrArg List.length hY
  simp only [List.length_append, beBytes_length, ht] at hn1
  obtain ⟨m, hm⟩ : ∃ m, n = m + 1 + j := ⟨n - j - 1, by omega⟩
  have e := g (m + 1) p (beBytes 4 (8 + body.length) ++ (t ++ body.take q)) (some (X.length + (box t body).length)) (some (8 + body.length))
    (.inr ⟨8 + body.length, by rw [hbl], rfl⟩) (by omega)
  rw [← hY, ← hm, h] at e
  have e := e.symm
  unfold readTree at e
  rw [if_neg (by simp)] at e
  have hh := initcut_header (p ++ X) t (body.take q) (8 + body.length) ht (by omega) hb
  rw [List.append_assoc, ← hY] at hh
  rw [hh, Res.bind_ok] at e
  dsimp only at e
  rw [if_neg (by simp)] at e
  obtain ⟨r3, hr3, e⟩ := Res.bind_eq_ok.1 e
  have hpay : BoxInfo.payload ⟨(p ++ X).length, 8 + body.length, 8, t⟩ a = body.take q := by
    unfold FMP4.BoxInfo.payload
    dsimp only
    rw [hY, show p ++ (X ++ (beBytes 4 (8 + body.length) ++ (t ++ body.take q))) = (p ++ X ++ (beBytes 4 (8 + body.length) ++ t)) ++ body.take q by
      simp only [List.append_assoc], List.drop_left' (by simp only [List.length_append, beBytes_length, ht]), Nat.add_sub_cancel_left,
      List.take_of_length_le (by rw [List.length_take]; omega)]
  rw [hpay, List.length_append] at hr3
  refine ⟨m, q, by omega, ?_⟩
  rw [hr3]
  cases m with
  | zero => cases e
  | succ m =>
    unfold readTree at e
    rw [Option.map_some, Nat.sub_self, if_pos (by simp), if_pos rfl] at e
    cases e
    rfl

theorem initcut_readUser (r : Reader) (t p : Bytes) : r.readUserData isoFields t p = .ok { r with userData := r.userData ++ [(t, p)] } := by
  unfold Reader.readUserData
  have : ∃ n, isoFields t p = some n := by
    unfold isoFields; repeat' split
    all_goals exact ⟨_, rfl⟩
  obtain ⟨n, hn⟩ := this
  rw [hn]

theorem initcut_user (l : List (Bytes × Bytes)) (h : ∀ x ∈ l, x.1.length = 4 ∧ 8 + x.2.length < 2 ^ 32) (ts : List InitTrack) (cr : Option CodecReader) :
    ∀ ud, Reads isoFields (handle isoFields) (l.flatMap fun x => box x.1 x.2) 3 ⟨.readingUserData, ts, ud, cr⟩ ⟨.readingUserData, ts, ud ++ l, cr⟩ := by
  induction l with
  | nil => intro ud; rw [List.append_nil]; exact tree_nil _ _ _ _
  | cons u l ih =>
    intro ud
    obtain ⟨h1, h2⟩ := h u (by simp)
    rw [show ud ++ u :: l = (ud ++ [u]) ++ l by simp, List.flatMap_cons]
    refine tree_append (tree_leaf h1 h2 fun bi expand e => ?_) (ih (fun x hx => h x (by simp [hx])) (ud ++ [u]))
    show Reader.readUserData _ isoFields bi.typ u.2 = _
    rw [e]
    exact initcut_readUser _ _ _

/-- C120: an initialization segment that is cut anywhere is refused with an error, or what was cut is content of the last box: then it is read
as it was written, if there are no user data; with user data, all but what is missing of the last of them. -/
theorem C120_cut (i : Init) (f : SBuf) (hg : GoodInit i) (h : marshal ⟨[], 0⟩ i = .ok f) (k : Nat) :
    (∃ e, unmarshal isoFields (f.buf.take k) = .err e) ∨
    (i.userData = [] ∧ unmarshal isoFields (f.buf.take k) = .ok (restoredInit i)) ∨
    ∃ u t p q, i.userData = u ++ [(t, p)] ∧ unmarshal isoFields (f.buf.take k) = .ok ⟨(restoredInit i).tracks, u ++ [(t, p.take q)]⟩ := by
  obtain ⟨bodies, bx, bu, s, cr, e, hl, hbu, g1, -, -⟩ := initcut_shape i f hg h
  generalize hm : box typMvhd encodeMvhd ++ (bodies.flatMap (box typTrak) ++ (box typMvex bx ++ bu)) = m at e hl
  cases hc : unmarshal isoFields (f.buf.take k) with
  | err s => exact .inl ⟨s, rfl⟩
  | panic => exact absurd hc (C74_no_panic _ _)
  | ok x =>
    refine .inr ?_
    rw [e] at hc
    generalize ha : (box typFtyp encodeFtyp ++ box typMoov m).take k = a at hc
    have hft : (box typFtyp encodeFtyp).length = 32 := by rw [box_length _ _ (by rfl), init_ftyp_length]
    have hal : a.length ≤ 32 + (8 + m.length) := by
      rw [← ha, List.length_take, List.length_append, hft, box_length _ _ (by rfl)]; omega
    rw [box_length _ _ (by rfl)] at hl
    unfold unmarshal at hc
    obtain ⟨r, hr, hc⟩ := Res.bind_eq_ok.1 hc
    -- The file type
    unfold readTree at hr
    rw [if_neg (by simp)] at hr
    obtain ⟨o, ho, hr⟩ := Res.bind_eq_ok.1 hr
    cases o with
    | none =>
      cases hr
      cases hc
    | some bi =>
      have ha1 : a = ([] ++ (box typFtyp encodeFtyp ++ box typMoov m)).take k := ha.symm
      have ho1 : readBoxInfo (([] ++ (box typFtyp encodeFtyp ++ box typMoov m)).take k) ([] : Bytes).length = .ok (some bi) := by
        rw [← ha1]; exact ho
      obtain ⟨k1, rfl⟩ := initcut_info [] typFtyp encodeFtyp _ k bi (by rfl) (by rw [init_ftyp_length]; decide) ho1
      dsimp only at hr
      rw [if_neg (by simp)] at hr
      obtain ⟨r1, hr1, hr⟩ := Res.bind_eq_ok.1 hr
      have e1 : r1 = ⟨.waitingMoov, [], [], none⟩ := by
        have : (Res.ok ⟨.waitingMoov, [], [], none⟩ : Res Reader) = .ok r1 := hr1
        cases this; rfl
      subst e1
      rw [init_ftyp_length, Option.map_none, List.length_nil] at hr
      -- The movie
      have h8 : 8 ≤ a.length := by
        have := (sound_readBoxInfo a 0)
        rw [ho] at this
        have := (this _ rfl).2.1
        omega
      obtain ⟨n, hn⟩ : ∃ n, a.length = n + 1 := ⟨a.length - 1, by omega⟩
      rw [hn] at hr
      unfold readTree at hr
      rw [if_neg (by simp)] at hr
      obtain ⟨o, ho2, hr⟩ := Res.bind_eq_ok.1 hr
      cases o with
      | none =>
        cases hr
        cases hc
      | some bi =>
        have ha2 : a = (box typFtyp encodeFtyp ++ (box typMoov m ++ [])).take k := by rw [List.append_nil]; exact ha.symm
        rw [show 0 + (8 + 24) = (box typFtyp encodeFtyp).length by omega, ha2] at ho2
        obtain ⟨k2, rfl⟩ := initcut_info _ typMoov m [] k bi (by rfl) hl ho2
        dsimp only at hr
        rw [if_neg (by simp)] at hr
        obtain ⟨r2, hr2, hr⟩ := Res.bind_eq_ok.1 hr
        have e2 : readTree isoFields (handle isoFields) n a (32 + 8 + 0) (some (8 + m.length - 8 - 0)) 2 ⟨.waitingMvhd, [], [], none⟩ = .ok r2 := by
          rw [← hft]; exact hr2
        rw [Nat.add_sub_cancel_left, Nat.sub_zero] at e2
        -- Its boxes
        obtain ⟨P, hP⟩ : ∃ P, P = box typFtyp encodeFtyp ++ (beBytes 4 (8 + m.length) ++ typMoov) := ⟨_, rfl⟩
        have hPl : P.length = 40 := by
          rw [hP, List.length_append, List.length_append, hft, beBytes_length]; rfl
        obtain ⟨l, hlm⟩ : ∃ l, l = (typMvhd, encodeMvhd) :: bodies.map fun b => (typTrak, b) := ⟨_, rfl⟩
        have hX : (l.flatMap fun x => box x.1 x.2) = box typMvhd encodeMvhd ++ bodies.flatMap (box typTrak) := by
          rw [hlm, List.flatMap_cons, List.flatMap_map]
        have hml : m.length = (l.flatMap fun x => box x.1 x.2).length + (8 + bx.length) + bu.length := by
          rw [← hm, hX]; simp only [List.length_append, box_length typMvex bx (by rfl)]; omega
        have hw : box typFtyp encodeFtyp ++ box typMoov m = P ++ ((l.flatMap fun x => box x.1 x.2) ++ (box typMvex bx ++ bu)) := by
          rw [hX, hP, List.append_assoc (box typMvhd encodeMvhd), hm]
          unfold box
          simp only [List.append_assoc]
        have hsizes : ∀ x ∈ l, x.1.length = 4 ∧ 8 + x.2.length < 2 ^ 32 := by
          intro x hx
          have h4 : x.1.length = 4 := by
            rw [hlm] at hx
            rcases List.mem_cons.1 hx with rfl | hx
            · rfl
            · obtain ⟨b, -, rfl⟩ := List.mem_map.1 hx; rfl
          refine ⟨h4, ?_⟩
          have := List.Sublist.length_le (List.sublist_flatten_of_mem (List.mem_map_of_mem (f := fun x : Bytes × Bytes => box x.1 x.2) hx))
          rw [box_length _ _ h4] at this
          rw [List.flatMap_def] at hml
          omega
        rw [hw] at ha
        rw [show 32 + 8 + 0 = P.length by omega] at e2
        rw [← hX] at g1
        have hbx : (box typMvex bx).length = 8 + bx.length := box_length _ _ (by rfl)
        -- The end of the file
        have hne : (i.tracks.map restoredTrack).length ≠ 0 := by
          rw [List.length_map]
          exact fun e => hg.tracks (List.length_eq_zero_iff.1 e)
        have fin : ∀ s ud cr, (s = .waitingTrak ∨ s = .readingUserData) → r2 = ⟨s, i.tracks.map restoredTrack, ud, cr⟩ → x = ⟨i.tracks.map restoredTrack, ud⟩ := by
          intro s ud cr hs e
          subst e
          cases n with
          | zero => cases e2
          | succ n =>
            unfold readTree at hr
            rw [if_neg (by simp)] at hr
            have hend : readBoxInfo a ((box typFtyp encodeFtyp).length + (8 + m.length)) = .ok none := by
              unfold readBoxInfo
              rw [if_pos (by rw [List.length_drop]; omega)]
            rw [hend, Res.bind_ok] at hr
            cases hr
            dsimp only at hc
            rw [if_neg (by rcases hs with rfl | rfl <;> simp), if_neg hne] at hc
            cases hc
            rfl
        unfold userBytes at hbu
        by_cases hud : i.userData = []
        · rw [if_pos hud] at hbu
          subst hbu
          rw [List.append_nil] at ha
          obtain ⟨m', q, -, e3⟩ := initcut_level isoFields (handle isoFields) l typMvex bx (by rfl) (by omega) hsizes k n P a 2 _ _ r2 ha (by omega) g1
            (by rw [hbx, ← e2, hml]; rfl)
          have e5 : r2 = ⟨.waitingTrak, i.tracks.map restoredTrack, [], cr⟩ := by
            have : (Res.ok ⟨.waitingTrak, i.tracks.map restoredTrack, [], cr⟩ : Res Reader) = .ok r2 := e3
            cases this; rfl
          refine .inl ⟨hud, ?_⟩
          rw [fin _ _ _ (.inl rfl) e5]
          unfold restoredInit
          rw [hud]
        · rw [if_neg hud] at hbu
          obtain ⟨u, ⟨t, p⟩, hut⟩ : ∃ u x, i.userData = u ++ [x] := ⟨_, _, (List.dropLast_concat_getLast hud).symm⟩
          have hflat : (i.userData.flatMap fun x => box x.1 x.2) = (u.flatMap fun x => box x.1 x.2) ++ box t p := by
            rw [hut, List.flatMap_append, List.flatMap_cons, List.flatMap_nil, List.append_nil]
          have ht : t.length = 4 := hg.userData (t, p) (by rw [hut]; simp)
          rw [hflat] at hbu
          generalize hub : (u.flatMap fun x => box x.1 x.2) ++ box t p = ub at hbu
          have hbul : bu.length = 8 + ub.length := by rw [hbu, box_length _ _ (by rfl)]
          have hubl : ub.length = (u.flatMap fun x => box x.1 x.2).length + (8 + p.length) := by rw [← hub, List.length_append, box_length _ _ ht]
          have husz : ∀ x ∈ u, x.1.length = 4 ∧ 8 + x.2.length < 2 ^ 32 := by
            intro x hx
            have h4 : x.1.length = 4 := hg.userData x (by rw [hut]; simp [hx])
            refine ⟨h4, ?_⟩
            have := List.Sublist.length_le (List.sublist_flatten_of_mem (List.mem_map_of_mem (f := fun x : Bytes × Bytes => box x.1 x.2) hx))
            rw [box_length _ _ h4] at this
            rw [List.flatMap_def] at hubl
            omega
          have hl2 : ((l ++ [(typMvex, bx)]).flatMap fun x => box x.1 x.2) = (l.flatMap fun x => box x.1 x.2) ++ box typMvex bx := by
            rw [List.flatMap_append, List.flatMap_cons, List.flatMap_nil, List.append_nil]
          have hl2l := congrArg List.length hl2
          rw [List.length_append, hbx] at hl2l
          have ha3 : (P ++ (((l ++ [(typMvex, bx)]).flatMap fun x => box x.1 x.2) ++ box typUdta ub)).take k = a := by
            rw [hl2, ← hbu, List.append_assoc, ha]
          obtain ⟨n2, q, hn2, e3⟩ := initcut_level isoFields (handle isoFields) (l ++ [(typMvex, bx)]) typUdta ub (by rfl) (by omega)
            (fun x hx => by
              rcases List.mem_append.1 hx with hx | hx
              · exact hsizes x hx
              · rw [List.mem_singleton] at hx
                subst hx
                exact ⟨rfl, by dsimp only; omega⟩) k n P a 2 _ ⟨.waitingTrak, i.tracks.map restoredTrack, [], cr⟩ r2 ha3 (by omega)
            (by rw [hl2]; exact tree_append g1 (tree_skip _ _ _ _ (by rfl) (by omega) (by simp) (by simp) fun _ => rfl))
            (by rw [← e2, box_length typUdta ub (by rfl), hl2l, hml, hbul])
          have e4 : readTree isoFields (handle isoFields) n2 a (P.length + ((l ++ [(typMvex, bx)]).flatMap fun x => box x.1 x.2).length + 8 + 0)
              (some (8 + ub.length - 8 - 0)) 3 ⟨.readingUserData, i.tracks.map restoredTrack, [], cr⟩ = .ok r2 := e3
          rw [Nat.add_sub_cancel_left, Nat.sub_zero, hubl] at e4
          obtain ⟨P2, hP2⟩ : ∃ P2, P2 = P ++ (((l ++ [(typMvex, bx)]).flatMap fun x => box x.1 x.2) ++ (beBytes 4 (8 + ub.length) ++ typUdta)) := ⟨_, rfl⟩
          have hP2l : P2.length = P.length + ((l ++ [(typMvex, bx)]).flatMap fun x => box x.1 x.2).length + 8 := by
            rw [hP2, List.length_append, List.length_append, List.length_append, beBytes_length, Nat.add_assoc]; rfl
          have ha4 : (P2 ++ ((u.flatMap fun x => box x.1 x.2) ++ box t p)).take k = a := by
            rw [← ha3, hP2, hub]
            unfold box
            simp only [List.append_assoc]
          obtain ⟨n3, q3, -, e5⟩ := initcut_level isoFields (handle isoFields) u t p ht (by omega) husz k n2 P2 a 3 _ _ r2 ha4 (by omega)
            (initcut_user u husz _ cr []) (by rw [box_length t p ht, hP2l]; exact e4)
          have e6 : Reader.readUserData ⟨.readingUserData, i.tracks.map restoredTrack, [] ++ u, cr⟩ isoFields t (p.take q3) = .ok r2 := e5
          rw [initcut_readUser] at e6
          refine .inr ⟨u, t, p, q3, hut, ?_⟩
          rw [fin _ _ _ (.inr rfl) (Res.ok.inj e6).symm]
          rfl

/-- C120: without user data. -/
theorem C120_cut_plain (i : Init) (f : SBuf) (hg : GoodInit i) (hu : i.userData = []) (h : marshal ⟨[], 0⟩ i = .ok f) (k : Nat) :
    unmarshal isoFields (f.buf.take k) = .ok (restoredInit i) ∨ ∃ e, unmarshal isoFields (f.buf.take k) = .err e := by
  rcases C120_cut i f hg h k with h | ⟨-, h⟩ | ⟨u, t, p, q, e, -⟩
  · exact .inr h
  · exact .inl h
  · rw [hu] at e
    exact absurd e.symm (by simp)

/-! ## Cut after the initialization segment -/

theorem initcut_handle (s : State) (ts : List InitTrack) (ud : List (Bytes × Bytes)) (cr : Option CodecReader) (hs : s = .waitingTrak ∨ s = .readingUserData)
    (bi : BoxInfo) (payload : Bytes) (expand : Reader → Res Reader) (h : bi.typ ∉ segmentTypes) :
    handle isoFields bi 1 payload expand ⟨s, ts, ud, cr⟩ = .ok ⟨.waitingTrak, ts, ud, cr⟩ := by
  unfold handle
  rcases hs with rfl | rfl
  · dsimp only
    rw [initcut_ignored _ _ _ _ h]
  · dsimp only
    rw [if_pos (by decide), initcut_ignored _ _ _ _ h]

theorem initcut_tail (l : List (Bytes × Bytes)) (h : ∀ x ∈ l, x.1.length = 4 ∧ x.1 ∉ segmentTypes ∧ 8 + x.2.length < 2 ^ 32) :
    ∀ (k n : Nat) (p : Bytes) (s : State) (ts : List InitTrack) (ud : List (Bytes × Bytes)) (cr : Option CodecReader), (s = .waitingTrak ∨ s = .readingUserData) →
    ((l.flatMap fun x => box x.1 x.2).take k).length < n →
    ∃ s', (s' = .waitingTrak ∨ s' = .readingUserData) ∧
      readTree isoFields (handle isoFields) n (p ++ (l.flatMap fun x => box x.1 x.2).take k) p.length none 1 ⟨s, ts, ud, cr⟩ = .ok ⟨s', ts, ud, cr⟩ := by
  have short : ∀ (n : Nat) (b : Bytes) (pos : Nat) (r : Reader), b.length < pos + 8 → 0 < n → readTree isoFields (handle isoFields) n b pos none 1 r = .ok r := by
    intro n b pos r hb hn
    obtain ⟨n, rfl⟩ : ∃ m, n = m + 1 := ⟨n - 1, by omega⟩
    unfold readTree
    rw [if_neg (by simp)]
    have : readBoxInfo b pos = .ok none := by
      unfold readBoxInfo
      rw [if_pos (by rw [List.length_drop]; omega)]
    rw [this, Res.bind_ok]
    rfl
  induction l with
  | nil =>
    intro k n p s ts ud cr hs hn
    exact ⟨s, hs, short _ _ _ _ (by simp) (by omega)⟩
  | cons x l ih =>
    intro k n p s ts ud cr hs hn
    obtain ⟨h1, h2, h3⟩ := h x (by simp)
    rw [List.flatMap_cons] at hn ⊢
    have hb := box_length x.1 x.2 h1
    by_cases hk : k < 8
    · exact ⟨s, hs, short _ _ _ _ (by rw [List.length_append, List.length_take]; omega) (by omega)⟩
    rw [List.length_take, List.length_append, hb] at hn
    obtain ⟨n, rfl⟩ : ∃ m, n = m + 1 := ⟨n - 1, by omega⟩
    have e : p ++ (box x.1 x.2 ++ l.flatMap fun x => box x.1 x.2).take k =
        p ++ (beBytes 4 (8 + x.2.length) ++ (x.1 ++ (x.2 ++ l.flatMap fun x => box x.1 x.2).take (k - 8))) := by
      have := initcut_take [] x.1 x.2 (l.flatMap fun x => box x.1 x.2) k h1 (by simp only [List.length_nil]; omega)
      simp only [List.nil_append, List.length_nil, Nat.sub_zero] at this
      rw [this]
    have hh := initcut_header p x.1 ((x.2 ++ l.flatMap fun x => box x.1 x.2).take (k - 8)) (8 + x.2.length) h1 (by omega) h3
    rw [← e] at hh
    unfold readTree
    rw [if_neg (by simp), hh, Res.bind_ok]
    dsimp only
    rw [if_neg (by simp), initcut_handle _ _ _ _ hs _ _ _ h2, Res.bind_ok, Option.map_none]
    by_cases hk2 : k < 8 + x.2.length
    · exact ⟨.waitingTrak, .inl rfl, short _ _ _ _ (by rw [List.length_append, List.length_take]; omega) (by omega)⟩
    · have e2 : (box x.1 x.2 ++ l.flatMap fun x => box x.1 x.2).take k = box x.1 x.2 ++ (l.flatMap fun x => box x.1 x.2).take (k - (8 + x.2.length)) := by
        rw [List.take_append, hb, List.take_of_length_le (by omega)]
      rw [e2, ← List.append_assoc, show p.length + (8 + x.2.length) = (p ++ box x.1 x.2).length by rw [List.length_append, hb]]
      exact ih (fun y hy => h y (by simp [hy])) _ n _ .waitingTrak ts ud cr (.inl rfl) (by rw [List.length_take]; omega)

/-- C120: files that are still being written: wherever the boxes that follow the initialization segment are cut, it is read as it was written. -/
theorem C120_growing (i : Init) (f : SBuf) (hg : GoodInit i) (h : marshal ⟨[], 0⟩ i = .ok f) (l : List (Bytes × Bytes))
    (hl : ∀ x ∈ l, x.1.length = 4 ∧ x.1 ∉ segmentTypes ∧ 8 + x.2.length < 2 ^ 32) (k : Nat) :
    unmarshal isoFields (f.buf ++ (l.flatMap fun x => box x.1 x.2).take k) = .ok (restoredInit i) := by
  obtain ⟨s, cr, hs, j, hj, g⟩ := initcut_written i f hg h
  obtain ⟨q, hq⟩ : ∃ q, (f.buf ++ (l.flatMap fun x => box x.1 x.2).take k).length + 1 = q + j := ⟨(f.buf ++ (l.flatMap fun x => box x.1 x.2).take k).length + 1 - j, by
    rw [List.length_append]; omega⟩
  obtain ⟨s', hs', g'⟩ := initcut_tail l hl k q f.buf s (i.tracks.map restoredTrack) i.userData cr hs (by
    rw [List.length_append] at hq; omega)
  have g := g q [] ((l.flatMap fun x => box x.1 x.2).take k) none none (.inl ⟨rfl, rfl⟩) (by rw [List.length_append] at hq; omega)
  rw [List.nil_append, List.nil_append, List.length_nil, g'] at g
  unfold unmarshal
  rw [hq, g, Res.bind_ok]
  dsimp only
  have hn : (i.tracks.map restoredTrack).length ≠ 0 := by
    rw [List.length_map]
    exact fun e => hg.tracks (List.length_eq_zero_iff.1 e)
  rw [if_neg (by rcases hs' with rfl | rfl <;> simp), if_neg hn]
  rfl

/-- C120: whole fragmented files, as they are written: the initialization segment is read from the file with
all of its parts, and while they are being written. -/
theorem C120_file (i : Init) (f g : SBuf) (hg : GoodInit i) (h : marshal ⟨[], 0⟩ i = .ok f) (l : List FMP4.Part) (hl : ∀ p ∈ l, FitsPart p)
    (hp : FMP4.marshalParts l (full []) = .ok g) (k : Nat) : unmarshal isoFields (f.buf ++ g.buf.take k) = .ok (restoredInit i) := by
  have e := fmp4_marshalParts l [] fun p hp => (hl p hp).2.2
  rw [e, List.nil_append] at hp
  cases hp
  have key : l.flatMap partBytes = (l.flatMap partBoxes).flatMap fun x => box x.1 x.2 := by
    rw [List.flatMap_assoc]
    exact congrArg (fun g => l.flatMap g) (funext fiso_partBytes)
  show unmarshal isoFields (f.buf ++ (l.flatMap partBytes).take k) = _
  rw [key]
  refine C120_growing i f hg h _ (fun x hx => ?_) k
  obtain ⟨p, hp, hx⟩ := List.mem_flatMap.1 hx
  have hf := (hl p hp).2.2
  have h1 := fiso_moof_length p
  have h2 : moofSize p = (Spec.FMP4.moof p (p.tracks.map fun _ => 0)).length := rfl
  have h3 : (Spec.FMP4.mdat p).length = 8 + (p.tracks.flatMap Spec.FMP4.trackData).length := by
    unfold Spec.FMP4.mdat; rw [box_length _ _ (by rfl)]
  simp only [partBoxes, List.mem_cons, List.not_mem_nil, or_false] at hx
  rcases hx with rfl | rfl
  · exact ⟨rfl, (by dsimp only; decide), by dsimp only; omega⟩
  · exact ⟨rfl, (by dsimp only; decide), by dsimp only; omega⟩

/-! ## Examples -/

/-- An audio track. -/
def initAudio : Init := { tracks := [{ id := 1, timeScale := 48000, codec := some (.opus 2) }] }

example : GoodInit initAudio := by
  refine ⟨by decide, by decide, by decide, ?_, by decide⟩
  intro t ht c hc
  simp only [initAudio, List.mem_cons, List.not_mem_nil, or_false] at ht
  subst ht
  cases hc
  exact ⟨by decide, by decide⟩

/-- The segment, and how it is read when all but the first bytes are cut. -/
def initAudioCut (k : Nat) : Res Init := (marshal ⟨[], 0⟩ initAudio).bind fun f => unmarshal isoFields (f.buf.take (f.buf.length - k))

/-- Whole, without the content of the last box, with a byte less. -/
example : initAudioCut 0 = .ok initAudio ∧ initAudioCut 32 = .ok initAudio ∧ initAudioCut 33 = .err "EOF" := by
  decide +kernel

/-- User data whose last box is cut: the decoder of the box decides, `isoFields` takes what is there. With a byte less than its header it is refused. -/
example : (marshal ⟨[], 0⟩ { initAudio with userData := [([116, 105, 116, 108], [1, 2, 3])] }).bind (fun f =>
      unmarshal isoFields (f.buf.take (f.buf.length - 1))) = .ok { initAudio with userData := [([116, 105, 116, 108], [1, 2])] } ∧
    (marshal ⟨[], 0⟩ { initAudio with userData := [([116, 105, 116, 108], [1, 2, 3])] }).bind (fun f =>
      unmarshal isoFields (f.buf.take (f.buf.length - 4))) = .err "EOF" := by decide +kernel

/-- Boxes that are not those of an initialization segment. -/
example : ∀ x ∈ [(FMP4.typMoof, [0, 1]), (FMP4.typMdat, []), (typMvex, [1])], x.1.length = 4 ∧ x.1 ∉ segmentTypes ∧ 8 + (x.2 : Bytes).length < 2 ^ 32 := by decide

/-- A box after the user data of a movie is not user data. -/
example : (marshal ⟨[], 0⟩ { initAudio with userData := [([116, 105, 116, 108], [1, 2, 3])] }).bind (fun f =>
    unmarshal isoFields (f.buf.take 32 ++ box typMoov (f.buf.drop 40 ++ box typMvex [7]))) =
    .ok { initAudio with userData := [([116, 105, 116, 108], [1, 2, 3])] } := by decide +kernel

/-- Not all boxes may follow: a second movie is refused. -/
theorem C120_second_false : ¬ ∀ (i : Init) (f : SBuf) (l : List (Bytes × Bytes)), GoodInit i → marshal ⟨[], 0⟩ i = .ok f →
    (∀ x ∈ l, x.1.length = 4 ∧ 8 + x.2.length < 2 ^ 32) → unmarshal isoFields (f.buf ++ l.flatMap fun x => box x.1 x.2) = .ok (restoredInit i) := by
  intro h
  have hgood : GoodInit initAudio := by
    refine ⟨by decide, by decide, by decide, ?_, by decide⟩
    intro t ht c hc
    simp only [initAudio, List.mem_cons, List.not_mem_nil, or_false] at ht
    subst ht
    cases hc
    exact ⟨by decide, by decide⟩
  have e : (marshal ⟨[], 0⟩ initAudio).bind (fun f => (unmarshal isoFields (f.buf ++ [(typMoov, [])].flatMap fun x => box x.1 x.2)).bind fun _ => .ok ()) ≠ .ok () ∧
      (marshal ⟨[], 0⟩ initAudio).bind (fun _ => .ok ()) = .ok () := by decide +kernel
  obtain ⟨f, hf, -⟩ := Res.bind_eq_ok.1 e.2
  refine e.1 ?_
  rw [hf]
  show (unmarshal isoFields (f.buf ++ _)).bind _ = _
  rw [h initAudio f [(typMoov, [])] hgood hf (by decide)]
  rfl

end Verif.Props
