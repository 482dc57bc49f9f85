import Verif.Props.MovieFileTables

/-!
# C93: non-fragmented files of any writer
-/

namespace Verif.Props
open MP4Box MP4Codec PMP4File
open FMP4Init (isoFields)
open FMP4 (box_length)
open PMP4 (Run StscEntry RSample RTrack PReader State Event readEvent maxSamples)
open Records
open Spec.FMP4 (box)
open Spec.Records (Carries field fourcc)
open Spec.ISO (only maybe named readMaybe readTimes readOffsets readWords readChunks readSizes ChunkRun)
open Spec.InitSegment (Other others NoneOf codecBoxes Description Tkhd Mdhd IsMvhd times)
open Spec.MovieFile (Tables readTables pathBoxes tableBoxes Ordered Track Item File items)
open SampleTables
open Bits (toInt32 wrapInt32)

/-! ## Events -/

theorem movie_other (typ p : Bytes) (h1 : typ ∉ pathBoxes) (h2 : typ ∉ tableBoxes) : decodeEvent typ p = .ok .other := by
  rw [show pathBoxes = [FMP4Init.typFtyp, FMP4Init.typMoov, FMP4Init.typMvhd, FMP4Init.typTrak, FMP4Init.typTkhd, FMP4Init.typEdts, typElst,
    FMP4Init.typMdia, FMP4Init.typMdhd, FMP4Init.typMinf, FMP4Init.typStbl, FMP4Init.typStsd] by decide] at h1
  rw [show tableBoxes = [FMP4Init.typStts, typStss, typCtts, FMP4Init.typStsc, FMP4Init.typStsz, FMP4Init.typStco] by decide] at h2
  simp only [List.mem_cons, List.not_mem_nil, or_false, not_or] at h1 h2
  obtain ⟨a1, a2, a3, a4, a5, a6, a7, a8, a9, a10, a11, a12⟩ := h1
  obtain ⟨b1, b2, b3, b4, b5, b6⟩ := h2
  unfold decodeEvent
  rw [if_neg a1, if_neg a2, if_neg a3, if_neg a4, if_neg a5, if_neg a6, if_neg a7, if_neg a8, if_neg a9, if_neg a10, if_neg a11, if_neg a12,
    if_neg b1, if_neg b2, if_neg b3, if_neg b4, if_neg b5, if_neg b6]

theorem movie_event_stts (p : Bytes) : decodeEvent (fourcc 's' 't' 't' 's') p = (decodeStts p >>= fun l => .ok (.table (.stts l))) := rfl
theorem movie_event_stss (p : Bytes) : decodeEvent (fourcc 's' 't' 's' 's') p = (decodeWords p >>= fun l => .ok (.table (.stss l))) := rfl
theorem movie_event_ctts (p : Bytes) : decodeEvent (fourcc 'c' 't' 't' 's') p = (decodeCtts p >>= fun l => .ok (.table (.ctts l))) := rfl
theorem movie_event_stsc (p : Bytes) : decodeEvent (fourcc 's' 't' 's' 'c') p = (decodeStsc p >>= fun l => .ok (.table (.stsc l))) := rfl
theorem movie_event_stsz (p : Bytes) : decodeEvent (fourcc 's' 't' 's' 'z') p = (decodeStsz p >>= fun l => .ok (.table (.stsz l))) := rfl
theorem movie_event_stco (p : Bytes) : decodeEvent (fourcc 's' 't' 'c' 'o') p = (decodeWords p >>= fun l => .ok (.table (.stco l))) := rfl
theorem movie_event_tkhd (p : Bytes) : decodeEvent (fourcc 't' 'k' 'h' 'd') p = (decodeTkhd p >>= fun id => .ok (.tkhd id)) := rfl
theorem movie_event_mdhd (p : Bytes) :
    decodeEvent (fourcc 'm' 'd' 'h' 'd') p = (PMP4File.decodeMdhd p >>= fun x => .ok (.mdhd x.1 x.2)) := rfl

/-! ## Other boxes -/

theorem movie_all {l : List Other} {depth : Nat} {r : PMP4File.Reader} (h : ∀ o ∈ l, Reads isoFields PMP4File.handle o.bytes depth r r) :
    Reads isoFields PMP4File.handle (others l) depth r r := by
  induction l with
  | nil => exact tree_nil _ _ _ _
  | cons a l ih =>
    unfold others at ih ⊢
    rw [List.flatMap_cons]
    exact tree_append (h a (by simp)) (ih fun o ho => h o (List.mem_cons_of_mem _ ho))

theorem movie_leaf (o : Other) (depth : Nat) (r r' : PMP4File.Reader) (e : Event) (ht : o.typ.length = 4)
    (hl : o.Fits) (hs : r.base.state ≠ .readingCodec) (hd : decodeEvent o.typ o.payload = .ok e) (hx : expands e = false)
    (hr : r.step e = .ok r') : Reads isoFields PMP4File.handle o.bytes depth r r' := by
  refine alien_leaf o ht hl fun bi expand e => ?_
  unfold PMP4File.handle
  rw [if_neg hs, e]
  unfold PMP4File.Reader.readBox
  rw [hd, Res.bind_ok, hr, Res.bind_ok, hx]
  rfl

/-- Other boxes outside of codec boxes. -/
theorem movie_plain {l : List Other} (depth : Nat) (r : PMP4File.Reader) (hl : ∀ o ∈ l, o.Fits)
    (h : NoneOf (pathBoxes ++ tableBoxes) l) (hs : r.base.state ≠ .readingCodec) : Reads isoFields PMP4File.handle (others l) depth r r := by
  refine movie_all fun o ho => ?_
  have hn := (h o ho).2
  rw [List.mem_append, not_or] at hn
  exact movie_leaf o depth r r .other (h o ho).1 (hl o ho) hs (movie_other _ _ hn.1 hn.2) rfl rfl

/-- Other boxes among codec boxes. -/
theorem movie_codec {l : List Other} (depth : Nat) (p : PReader) (cr : CodecReader) (c : Option Codec) (cs : List (Option Codec))
    (hl : ∀ o ∈ l, o.Fits) (h : NoneOf codecBoxes l) (hd : ¬ depth < 7) (hs : p.state = .readingCodec) :
    Reads isoFields PMP4File.handle (others l) depth ⟨p, some cr, c, cs⟩ ⟨p, some cr, c, cs⟩ := by
  refine movie_all fun o ho => ?_
  refine alien_leaf o (h o ho).1 (hl o ho) fun bi expand e => ?_
  unfold PMP4File.handle
  rw [if_pos hs]
  unfold deref
  dsimp only
  rw [Res.bind_ok]
  unfold CodecReader.read
  rw [if_neg hd, e, alien_codecBox _ _ _ (h o ho).2, Res.bind_ok]
  rfl

theorem movie_small {l : List Other} (h : (others l).length < 2 ^ 32) : ∀ o ∈ l, o.Fits := fun _ ho => by
  have := alien_length ho; exact alien_fits (by omega)

/-! ## Headers -/

theorem movie_mdhd {b : Bytes} {m : Mdhd} (h : Carries b m.fields) :
    PMP4File.decodeMdhd b = .ok (m.timeScale, if m.version = 0 then m.duration else 0) := by
  have ht := alien_times m.version
  have hw := alien_timeWidth h (by simp only [widths, List.map_cons, List.map_nil, List.sum_cons, List.sum_nil]; omega)
  unfold PMP4File.decodeMdhd
  rw [hw]
  dsimp only
  rw [taken_read_all _ h (by rfl) (by
    unfold Mdhd.fields; simp only [widths, List.map_cons, List.map_nil, List.sum_cons, List.sum_nil]; omega), Res.bind_ok]
  show Res.ok (m.timeScale, if times m.version = 32 then m.duration else 0) = _
  unfold times
  by_cases hv : m.version = 0
  · rw [if_pos hv, if_pos rfl, if_pos hv]
  · rw [if_neg hv, if_neg (by decide), if_neg hv]

/-! ## The boxes of the sample table -/

def moviePairs (l : List Other) : List (Bytes × Bytes) := l.map fun o => (o.typ, o.payload)

theorem movie_named (typ : Bytes) (l : List Other) : named typ (moviePairs l) = (l.filter fun o => o.typ == typ).map (·.payload) := by
  unfold named moviePairs
  rw [List.filter_map, List.map_map]
  rfl

theorem movie_only {typ b : Bytes} {l : List Other} (h : only typ (moviePairs l) = some b) :
    (∃ o ∈ l, o.typ = typ) ∧ (∀ o ∈ l, o.typ = typ → o.payload = b) ∧ (l.filter fun o => o.typ == typ).length = 1 := by
  unfold only at h
  rw [movie_named] at h
  cases hf : l.filter fun o => o.typ == typ with
  | nil => rw [hf] at h; cases h
  | cons x m =>
    rw [hf] at h
    cases m with
    | cons y m => cases h
    | nil =>
      injection h with h
      have hx : x ∈ l.filter fun o => o.typ == typ := by rw [hf]; simp
      rw [List.mem_filter, beq_iff_eq] at hx
      refine ⟨⟨x, hx⟩, fun o ho e => ?_, rfl⟩
      have : o ∈ l.filter fun o => o.typ == typ := List.mem_filter.2 ⟨ho, by rw [e]; simp⟩
      rw [hf, List.mem_singleton] at this
      rw [this]; exact h

theorem movie_maybe {typ : Bytes} {b : Option Bytes} {l : List Other} (h : maybe typ (moviePairs l) = some b) :
    (b = none → ∀ o ∈ l, o.typ ≠ typ) ∧ ∀ v, b = some v → (∃ o ∈ l, o.typ = typ) ∧ ∀ o ∈ l, o.typ = typ → o.payload = v := by
  unfold maybe at h
  have ho : ∀ v, only typ (moviePairs l) = some v ↔ named typ (moviePairs l) = [v] := by
    intro v
    unfold only
    split
    · rename_i w hw
      rw [hw]; simp
    · rename_i hw
      constructor
      · intro h; cases h
      · intro h; exact absurd h (hw v)
  split at h
  · rename_i hn
    injection h with h
    subst h
    refine ⟨fun _ o ho' e => ?_, fun v hv => by cases hv⟩
    rw [movie_named, List.map_eq_nil_iff, List.filter_eq_nil_iff] at hn
    exact hn o ho' (by rw [e]; simp)
  · rename_i v hn
    injection h with h
    subst h
    refine ⟨fun h => (by cases h), fun w hw => ?_⟩
    cases hw
    have := movie_only ((ho v).2 hn)
    exact ⟨this.1, this.2.1⟩
  · cases h

/-- The boxes of a sample table have the tables. -/
structure MovieBoxes (l : List Other) (t : Tables) : Prop where
  stts : ∀ o ∈ l, o.typ = fourcc 's' 't' 't' 's' → readTimes o.payload = some t.stts
  ctts : ∀ o ∈ l, o.typ = fourcc 'c' 't' 't' 's' → ∃ m, t.ctts = some m ∧ readOffsets o.payload = some m
  stss : ∀ o ∈ l, o.typ = fourcc 's' 't' 's' 's' → ∃ m, t.stss = some m ∧ readWords o.payload = some m
  stsc : ∀ o ∈ l, o.typ = fourcc 's' 't' 's' 'c' → readChunks o.payload = some t.stsc
  stsz : ∀ o ∈ l, o.typ = fourcc 's' 't' 's' 'z' → readSizes o.payload = some t.sizes
  stco : ∀ o ∈ l, o.typ = fourcc 's' 't' 'c' 'o' → readWords o.payload = some t.stco

/-- The mandatory tables are there once, and the optional ones when they have values. -/
structure MoviePresent (l : List Other) (t : Tables) : Prop where
  stts : (l.filter fun o => o.typ == fourcc 's' 't' 't' 's').length = 1
  stsc : (l.filter fun o => o.typ == fourcc 's' 't' 's' 'c').length = 1
  stsz : ∃ o ∈ l, o.typ = fourcc 's' 't' 's' 'z'
  stco : (l.filter fun o => o.typ == fourcc 's' 't' 'c' 'o').length = 1
  ctts : t.ctts = none ∨ ∃ o ∈ l, o.typ = fourcc 'c' 't' 't' 's'
  stss : t.stss = none ∨ ∃ o ∈ l, o.typ = fourcc 's' 't' 's' 's'

theorem movie_readMaybe {α : Type} {f : Bytes → Option α} {b : Option Bytes} {v : Option α} (h : readMaybe f b = some v) :
    (b = none ∧ v = none) ∨ ∃ x m, b = some x ∧ v = some m ∧ f x = some m := by
  cases b with
  | none => injection h with h; exact .inl ⟨rfl, h.symm⟩
  | some x =>
    change (f x).map some = some v at h
    cases hf : f x with
    | none => rw [hf] at h; cases h
    | some m => rw [hf] at h; injection h with h; exact .inr ⟨x, m, rfl, h.symm, hf⟩

theorem movie_boxes {l : List Other} {t : Tables} (h : readTables (moviePairs l) = some t) : MovieBoxes l t ∧ MoviePresent l t := by
  obtain ⟨b1, h1, h⟩ := movie_opt h
  obtain ⟨t1, g1, h⟩ := movie_opt h
  obtain ⟨b2, h2, h⟩ := movie_opt h
  obtain ⟨t2, g2, h⟩ := movie_opt h
  obtain ⟨b3, h3, h⟩ := movie_opt h
  obtain ⟨t3, g3, h⟩ := movie_opt h
  obtain ⟨b4, h4, h⟩ := movie_opt h
  obtain ⟨t4, g4, h⟩ := movie_opt h
  obtain ⟨b5, h5, h⟩ := movie_opt h
  obtain ⟨t5, g5, h⟩ := movie_opt h
  obtain ⟨b6, h6, h⟩ := movie_opt h
  obtain ⟨t6, g6, h⟩ := movie_opt h
  injection h with h
  subst h
  have k1 := movie_only h1
  have k2 := movie_maybe h2
  have k3 := movie_maybe h3
  have k4 := movie_only h4
  have k5 := movie_only h5
  have k6 := movie_only h6
  refine ⟨⟨fun o ho e => by rw [k1.2.1 o ho e]; exact g1, fun o ho e => ?_, fun o ho e => ?_, fun o ho e => by rw [k4.2.1 o ho e]; exact g4,
    fun o ho e => by rw [k5.2.1 o ho e]; exact g5, fun o ho e => by rw [k6.2.1 o ho e]; exact g6⟩,
    ⟨k1.2.2, k4.2.2, k5.1, k6.2.2, ?_, ?_⟩⟩
  · rcases movie_readMaybe g2 with ⟨e1, e2⟩ | ⟨x, m, e1, e2, e3⟩
    · exact absurd e (k2.1 e1 o ho)
    · exact ⟨m, e2, by rw [(k2.2 x e1).2 o ho e]; exact e3⟩
  · rcases movie_readMaybe g3 with ⟨e1, e2⟩ | ⟨x, m, e1, e2, e3⟩
    · exact absurd e (k3.1 e1 o ho)
    · exact ⟨m, e2, by rw [(k3.2 x e1).2 o ho e]; exact e3⟩
  · rcases movie_readMaybe g2 with ⟨e1, e2⟩ | ⟨x, m, e1, e2, e3⟩
    · exact .inl e2
    · exact .inr (k2.2 x e1).1
  · rcases movie_readMaybe g3 with ⟨e1, e2⟩ | ⟨x, m, e1, e2, e3⟩
    · exact .inl e2
    · exact .inr (k3.2 x e1).1

/-! ## Reading the sample table -/

/-- The reader in a track. -/
def movieAt (s : State) (ts : List RTrack) (t : RTrack) (d : Nat) (cr : Option CodecReader) (c : Option Codec) (cs : List (Option Codec)) :
    PMP4File.Reader := ⟨⟨s, ts, some t, true, d⟩, cr, c, cs⟩

theorem movie_step_table (ts : List RTrack) (id time d : Nat) (x y : PMP4.Reader) (b : PMP4.Box) (cr : Option CodecReader) (c : Option Codec)
    (cs : List (Option Codec)) (hx : x.props = true ∧ x.trackDuration = d) (hy : y.props = true) (h : PMP4.readBox x b = .ok y) :
    (movieAt .waitingSampleProps ts ⟨id, time, x⟩ d cr c cs).step (.table b) = .ok (movieAt .waitingSampleProps ts ⟨id, time, y⟩ d cr c cs) := by
  have e : ({ x with props := State.waitingSampleProps = State.waitingSampleProps, trackDuration := d } : PMP4.Reader) = x := by
    cases x
    simp only at hx
    simp [hx.1, hx.2]
  have h2 : readEvent (movieAt .waitingSampleProps ts ⟨id, time, x⟩ d cr c cs).base (.table b) =
      .ok (movieAt .waitingSampleProps ts ⟨id, time, y⟩ d cr c cs).base := by
    show (PMP4.readBox { x with props := State.waitingSampleProps = State.waitingSampleProps, trackDuration := d } b >>= _) = _
    rw [e, h, Res.bind_ok, hy]
    rfl
  unfold PMP4File.Reader.step
  rw [h2, Res.bind_ok]
  rfl

theorem movie_table (o : Other) (depth : Nat) (ts : List RTrack) (id time d : Nat) (x y : PMP4.Reader) (b : PMP4.Box) (cr : Option CodecReader)
    (c : Option Codec) (cs : List (Option Codec)) (hx : x.props = true ∧ x.trackDuration = d) (hy : y.props = true) (h4 : o.typ.length = 4)
    (hl : o.Fits) (hd : decodeEvent o.typ o.payload = .ok (.table b)) (h : PMP4.readBox x b = .ok y) :
    Reads isoFields PMP4File.handle o.bytes depth (movieAt .waitingSampleProps ts ⟨id, time, x⟩ d cr c cs)
      (movieAt .waitingSampleProps ts ⟨id, time, y⟩ d cr c cs) :=
  movie_leaf o depth _ _ _ h4 hl (by show State.waitingSampleProps ≠ _; simp) hd rfl
    (movie_step_table ts id time d x y b cr c cs hx hy h)

/-- A box of a type is there. -/
def movieHas (typ : Bytes) (l : List Other) : Bool := l.any fun o => o.typ == typ

theorem movie_has_cons (typ : Bytes) (o : Other) (l : List Other) : movieHas typ (o :: l) = (o.typ == typ || movieHas typ l) := rfl

/-- The sizes are in a list. -/
def MovieListed (l : List Other) : Prop := ∀ o ∈ l, o.typ = fourcc 's' 't' 's' 'z' → field o.payload 32 32 = 0

/-- What limits the reader: the number of samples, and 32-bit numbers. -/
structure MovieLimits (t : Tables) : Prop where
  samples : t.sizes.length ≤ 5184000
  offsets : MovieOffsetsFit t
  low : MovieLow t
  chunks : ∀ o ∈ t.stco, o < 2 ^ 32

theorem movie_tables (t : Tables) (d : Nat) (ts : List RTrack) (id time : Nat) (cr : Option CodecReader) (c : Option Codec)
    (cs : List (Option Codec)) (hc : t.Consistent) (hm : MovieLimits t) (l : List Other) :
    ∀ (a b x y z : Bool), MovieBoxes l t → MovieListed l → NoneOf pathBoxes l → (∀ o ∈ l, o.Fits) →
      (∀ o ∈ l, o.typ ≠ fourcc 's' 't' 't' 's' ∧ o.typ ≠ fourcc 's' 't' 'c' 'o') →
      (l.filter fun o => o.typ == fourcc 's' 't' 's' 'c').length + (if x then 1 else 0) ≤ 1 →
      Reads isoFields PMP4File.handle (others l) 6 (movieAt .waitingSampleProps ts ⟨id, time, movieReader t d a b x y z⟩ d cr c cs)
        (movieAt .waitingSampleProps ts ⟨id, time, movieReader t d (a || movieHas (fourcc 'c' 't' 't' 's') l) (b || movieHas (fourcc 's' 't' 's' 's') l)
          (x || movieHas (fourcc 's' 't' 's' 'c') l) (y || movieHas (fourcc 's' 't' 's' 'z') l) z⟩ d cr c cs) := by
  induction l with
  | nil =>
    intro a b x y z _ _ _ _ _ _
    have : ∀ v : Bool, (v || false) = v := by simp
    unfold movieHas
    simp only [List.any_nil, this]
    exact tree_nil _ _ _ _
  | cons o l ih =>
    intro a b x y z hb hz hn hl ht hs
    have htail : ∀ a' b' x' y' : Bool, (l.filter fun o => o.typ == fourcc 's' 't' 's' 'c').length + (if x' then 1 else 0) ≤ 1 → _ :=
      fun a' b' x' y' h => ih a' b' x' y' z ⟨fun o ho => hb.stts o (List.mem_cons_of_mem _ ho), fun o ho => hb.ctts o (List.mem_cons_of_mem _ ho),
        fun o ho => hb.stss o (List.mem_cons_of_mem _ ho), fun o ho => hb.stsc o (List.mem_cons_of_mem _ ho),
        fun o ho => hb.stsz o (List.mem_cons_of_mem _ ho), fun o ho => hb.stco o (List.mem_cons_of_mem _ ho)⟩
        (fun o ho => hz o (List.mem_cons_of_mem _ ho)) (fun o ho => hn o (List.mem_cons_of_mem _ ho)) (fun o ho => hl o (List.mem_cons_of_mem _ ho))
        (fun o ho => ht o (List.mem_cons_of_mem _ ho)) h
    have hmem : o ∈ o :: l := by simp
    have h4 := (hn o hmem).1
    have hlo := hl o hmem
    rw [List.filter_cons] at hs
    rw [show others (o :: l) = o.bytes ++ others l from List.flatMap_cons]
    simp only [movie_has_cons]
    by_cases e1 : o.typ = fourcc 'c' 't' 't' 's'
    · obtain ⟨m, g1, g2⟩ := hb.ctts o hmem e1
      rw [e1, if_neg (by decide)] at hs
      have := htail true b x y hs
      rw [e1]
      refine tree_append (movie_table o 6 ts id time d _ (movieReader t d true b x y z) (.ctts (movieRuns m)) cr c cs ⟨rfl, rfl⟩ rfl h4 hlo ?_
        (movie_read_ctts t d b x y a z m hc hm.offsets g1)) ?_
      · rw [e1, movie_event_ctts, movie_ctts _ _ g2, Res.bind_ok]
      · simpa [show (fourcc 'c' 't' 't' 's' == fourcc 's' 't' 's' 's') = false by decide,
          show (fourcc 'c' 't' 't' 's' == fourcc 's' 't' 's' 'c') = false by decide,
          show (fourcc 'c' 't' 't' 's' == fourcc 's' 't' 's' 'z') = false by decide] using this
    by_cases e2 : o.typ = fourcc 's' 't' 's' 's'
    · obtain ⟨m, g1, g2⟩ := hb.stss o hmem e2
      rw [e2, if_neg (by decide)] at hs
      have := htail a true x y hs
      rw [e2]
      refine tree_append (movie_table o 6 ts id time d _ (movieReader t d a true x y z) (.stss m) cr c cs ⟨rfl, rfl⟩ rfl h4 hlo ?_
        (movie_read_stss t d a x y b z m hc hm.samples g1)) ?_
      · rw [e2, movie_event_stss, movie_words _ _ g2, Res.bind_ok]
      · simpa [show (fourcc 's' 't' 's' 's' == fourcc 'c' 't' 't' 's') = false by decide,
          show (fourcc 's' 't' 's' 's' == fourcc 's' 't' 's' 'c') = false by decide,
          show (fourcc 's' 't' 's' 's' == fourcc 's' 't' 's' 'z') = false by decide] using this
    by_cases e3 : o.typ = fourcc 's' 't' 's' 'c'
    · have g2 := hb.stsc o hmem e3
      rw [e3, if_pos (by decide), List.length_cons] at hs
      have hx : x = false := by
        cases x
        · rfl
        · rw [if_pos rfl] at hs; omega
      subst hx
      have := htail a b true y (by rw [if_neg (by simp)] at hs; rw [if_pos rfl]; omega)
      rw [e3]
      refine tree_append (movie_table o 6 ts id time d _ (movieReader t d a b true y z) (.stsc (movieChunks t.stsc)) cr c cs ⟨rfl, rfl⟩ rfl h4 hlo ?_
        (movie_read_stsc t d a b y z hc hm.samples)) ?_
      · rw [e3, movie_event_stsc, movie_stsc _ _ g2, Res.bind_ok]
      · simpa [show (fourcc 's' 't' 's' 'c' == fourcc 'c' 't' 't' 's') = false by decide,
          show (fourcc 's' 't' 's' 'c' == fourcc 's' 't' 's' 's') = false by decide,
          show (fourcc 's' 't' 's' 'c' == fourcc 's' 't' 's' 'z') = false by decide] using this
    by_cases e4 : o.typ = fourcc 's' 't' 's' 'z'
    · have g2 := hb.stsz o hmem e4
      rw [e4, if_neg (by decide)] at hs
      have := htail a b x true hs
      rw [e4]
      refine tree_append (movie_table o 6 ts id time d _ (movieReader t d a b x true z) (.stsz t.sizes) cr c cs ⟨rfl, rfl⟩ rfl h4 hlo ?_
        (movie_read_stsz t d a b x y z)) ?_
      · rw [e4, movie_event_stsz, movie_stsz _ _ g2 (hz o hmem e4), Res.bind_ok]
      · simpa [show (fourcc 's' 't' 's' 'z' == fourcc 'c' 't' 't' 's') = false by decide,
          show (fourcc 's' 't' 's' 'z' == fourcc 's' 't' 's' 's') = false by decide,
          show (fourcc 's' 't' 's' 'z' == fourcc 's' 't' 's' 'c') = false by decide] using this
    have f1 : (o.typ == fourcc 'c' 't' 't' 's') = false := by rw [beq_eq_false_iff_ne]; exact e1
    have f2 : (o.typ == fourcc 's' 't' 's' 's') = false := by rw [beq_eq_false_iff_ne]; exact e2
    have f3 : (o.typ == fourcc 's' 't' 's' 'c') = false := by rw [beq_eq_false_iff_ne]; exact e3
    have f4 : (o.typ == fourcc 's' 't' 's' 'z') = false := by rw [beq_eq_false_iff_ne]; exact e4
    rw [f3, if_neg (by simp)] at hs
    have := htail a b x y hs
    rw [f1, f2, f3, f4]
    refine tree_append (r' := movieAt .waitingSampleProps ts ⟨id, time, movieReader t d a b x y z⟩ d cr c cs)
      (movie_leaf o 6 _ _ .other h4 hlo (by show State.waitingSampleProps ≠ _; simp)
      (movie_other _ _ (hn o hmem).2 ?_) rfl rfl) ?_
    · unfold tableBoxes
      simp only [List.mem_cons, List.not_mem_nil, or_false, not_or]
      exact ⟨(ht o hmem).1, e2, e1, e3, e4, (ht o hmem).2⟩
    · simpa using this

theorem movie_has_iff (typ : Bytes) (l : List Other) : movieHas typ l = true ↔ ∃ o ∈ l, o.typ = typ := by
  unfold movieHas
  rw [List.any_eq_true]
  simp

theorem movie_count_append (typ : Bytes) (a b : List Other) :
    ((a ++ b).filter fun o => o.typ == typ).length = (a.filter fun o => o.typ == typ).length + (b.filter fun o => o.typ == typ).length := by
  rw [List.filter_append, List.length_append]

theorem movie_count_zero {typ : Bytes} {l : List Other} : (l.filter fun o => o.typ == typ).length = 0 ↔ ∀ o ∈ l, o.typ ≠ typ := by
  rw [List.length_eq_zero_iff, List.filter_eq_nil_iff]
  simp

theorem movie_others_append (a b : List Other) : others (a ++ b) = others a ++ others b := List.flatMap_append

/-- The boxes before the durations, and the durations, for a reader that acts as if the codec was already taken. -/
theorem movie_first (r2 r3 : PMP4File.Reader) (h2 : r2.base.state ≠ .readingCodec) (stts : Other) (e : Event) (h4 : stts.typ.length = 4)
    (hd : decodeEvent stts.typ stts.payload = .ok e) (hx : expands e = false) (hs : r2.step e = .ok r3) (hl : stts.Fits)
    (a : List Other) : ∀ r, (∀ bi p expand, PMP4File.handle bi 6 p expand r = r2.readBox bi.typ p expand) → NoneOf (pathBoxes ++ tableBoxes) a →
      (∀ o ∈ a, o.Fits) → Reads isoFields PMP4File.handle (others a ++ stts.bytes) 6 r r3 := by
  induction a with
  | nil =>
    intro r hr _ _
    refine alien_leaf stts h4 hl fun bi expand e => ?_
    rw [hr, e]
    unfold PMP4File.Reader.readBox
    rw [hd, Res.bind_ok, hs, Res.bind_ok, hx]
    rfl
  | cons o a ih =>
    intro r hr hn hla
    rw [show others (o :: a) = o.bytes ++ others a from List.flatMap_cons, List.append_assoc]
    have ho := hn o (by simp)
    have hlo := hla o (by simp)
    refine tree_append (r' := r2) ?_ (ih r2 (fun bi p expand => ?_) (fun o ho => hn o (List.mem_cons_of_mem _ ho))
      fun o ho => hla o (List.mem_cons_of_mem _ ho))
    · refine alien_leaf o ho.1 hlo fun bi expand e => ?_
      have hn' := ho.2
      rw [List.mem_append, not_or] at hn'
      rw [hr, e]
      unfold PMP4File.Reader.readBox
      rw [movie_other _ _ hn'.1 hn'.2]
      rfl
    · unfold PMP4File.handle
      rw [if_neg h2]

/-- The next box ends the codec boxes. -/
theorem movie_ends (ts : List RTrack) (t : RTrack) (d : Nat) (cr : CodecReader) (c : Codec) (c0 : Option Codec) (cs : List (Option Codec))
    (h1 : cr.codec = some c) (h2 : cr.state = .waitingAdditional) (bi : FMP4.BoxInfo) (p : Bytes) (expand : PMP4File.Reader → Res PMP4File.Reader) :
    PMP4File.handle bi 6 p expand (movieAt .readingCodec ts t d (some cr) c0 cs) =
      (movieAt .waitingSamples ts t d (some cr) (some c) cs).readBox bi.typ p expand := by
  unfold PMP4File.handle
  rw [if_pos (by rfl)]
  show (deref (some cr) >>= _) = _
  unfold deref
  rw [Res.bind_ok]
  unfold CodecReader.read
  rw [if_pos (by decide), h2, if_neg (by simp), Res.bind_ok]
  unfold PMP4File.Reader.afterCodec PMP4File.Reader.codecEnded
  dsimp only
  rw [h1]
  rfl

/-- The tables of a track. -/
structure TablesMean (l : List Other) (t : Tables) : Prop where
  read : readTables (moviePairs l) = some t
  consistent : t.Consistent
  limits : MovieLimits t
  ordered : Ordered l
  listed : MovieListed l
  path : NoneOf pathBoxes l

theorem movie_reader_all (t : Tables) (d : Nat) (a b : Bool) (ha : a = true ∨ t.ctts = none) (hb : b = true ∨ t.stss = none) :
    movieReader t d a b true true true = movieReader t d true true true true true := by
  have : movieSamples t a b true = movieSamples t true true true := by
    unfold movieSamples
    refine List.map_congr_left fun i _ => ?_
    unfold movieSample
    congr 1
    · rcases ha with rfl | ha
      · rfl
      · unfold Tables.compositionOffset
        rw [ha]; simp
    · rcases hb with rfl | hb
      · rfl
      · unfold Tables.sync
        rw [hb]; simp
  unfold movieReader
  rw [this]

theorem movie_stbl (l : List Other) (t : Tables) (h : TablesMean l t) (hl : (others l).length < 2 ^ 32) (ts : List RTrack) (id time d : Nat)
    (cr : CodecReader) (c : Codec) (cs : List (Option Codec)) (h1 : cr.codec = some c) (h2 : cr.state = .waitingAdditional) :
    Reads isoFields PMP4File.handle (others l) 6 (movieAt .readingCodec ts ⟨id, time, {}⟩ d (some cr) none cs)
      (movieAt .waitingSampleProps ts ⟨id, time, movieReader t d true true true true true⟩ d (some cr) (some c) cs) := by
  obtain ⟨hb, hp⟩ := movie_boxes h.read
  obtain ⟨a, stts, b, stco, e, rfl, es, eo, ha, he⟩ := h.ordered
  have hsm := movie_small hl
  have hn := h.path
  have hc := h.consistent
  have hm := h.limits
  -- where the tables are
  have ca : ∀ typ ∈ tableBoxes, (a.filter fun o => o.typ == typ).length = 0 := fun typ ht =>
    movie_count_zero.2 fun o ho e => ha o ho (e ▸ ht)
  have cs1 := hp.stts
  have cs2 := hp.stsc
  have cs3 := hp.stco
  rw [movie_count_append, ca _ (by decide), List.filter_cons, es] at cs1 cs2 cs3
  rw [if_pos (by decide), List.length_cons, movie_count_append] at cs1
  rw [if_neg (by decide), movie_count_append, List.filter_cons, eo, if_neg (by decide), movie_count_zero.2 fun o ho => (he o ho).1] at cs2
  rw [if_neg (by decide), movie_count_append, List.filter_cons, eo, if_pos (by decide), List.length_cons] at cs3
  rw [List.filter_cons, eo, if_neg (by decide)] at cs1
  have nb : ∀ o ∈ b, o.typ ≠ fourcc 's' 't' 't' 's' ∧ o.typ ≠ fourcc 's' 't' 'c' 'o' := fun o ho =>
    ⟨movie_count_zero.1 (by omega) o ho, movie_count_zero.1 (by omega) o ho⟩
  have ne : ∀ o ∈ e, o.typ ≠ fourcc 's' 't' 't' 's' ∧ o.typ ≠ fourcc 's' 't' 'c' 'o' := fun o ho =>
    ⟨movie_count_zero.1 (by omega) o ho, movie_count_zero.1 (by omega) o ho⟩
  have hstts : stts ∈ a ++ (stts :: (b ++ (stco :: e))) := by simp
  have hstco : stco ∈ a ++ (stts :: (b ++ (stco :: e))) := by simp
  have mb : ∀ o ∈ b, o ∈ a ++ (stts :: (b ++ (stco :: e))) := fun o ho => by simp [ho]
  have me : ∀ o ∈ e, o ∈ a ++ (stts :: (b ++ (stco :: e))) := fun o ho => by simp [ho]
  have ma : ∀ o ∈ a, o ∈ a ++ (stts :: (b ++ (stco :: e))) := fun o ho => by simp [ho]
  -- the sizes of samples are in the middle part
  have hzb : movieHas (fourcc 's' 't' 's' 'z') b = true := by
    rw [movie_has_iff]
    obtain ⟨o, ho, et⟩ := hp.stsz
    simp only [List.mem_append, List.mem_cons] at ho
    rcases ho with ho | ho | ho | ho | ho
    · exact absurd (et ▸ (by decide : fourcc 's' 't' 's' 'z' ∈ tableBoxes)) (ha o ho)
    · subst ho; rw [es] at et; exact absurd et (by decide)
    · exact ⟨o, ho, et⟩
    · subst ho; rw [eo] at et; exact absurd et (by decide)
    · exact absurd et (he o ho).2
  have hcb : movieHas (fourcc 's' 't' 's' 'c') b = true := by
    rw [movie_has_iff]
    by_cases hx : ∃ o ∈ b, o.typ = fourcc 's' 't' 's' 'c'
    · exact hx
    · have := movie_count_zero.2 fun o ho e => hx ⟨o, ho, e⟩
      omega
  have hopt : ∀ (typ : Bytes), typ ∈ tableBoxes → typ ≠ fourcc 's' 't' 't' 's' → typ ≠ fourcc 's' 't' 'c' 'o' →
      (∃ o ∈ a ++ (stts :: (b ++ (stco :: e))), o.typ = typ) → (movieHas typ b || movieHas typ e) = true := by
    intro typ ht n1 n2 ⟨o, ho, et⟩
    rw [Bool.or_eq_true, movie_has_iff, movie_has_iff]
    simp only [List.mem_append, List.mem_cons] at ho
    rcases ho with ho | ho | ho | ho | ho
    · exact absurd (et ▸ ht) (ha o ho)
    · subst ho; exact absurd (et.symm.trans es) n1
    · exact .inl ⟨o, ho, et⟩
    · subst ho; exact absurd (et.symm.trans eo) n2
    · exact .inr ⟨o, ho, et⟩
  -- the parts
  have r1 := movie_first (movieAt .waitingSamples ts ⟨id, time, {}⟩ d (some cr) (some c) cs)
    (movieAt .waitingSampleProps ts ⟨id, time, movieReader t d false false false false false⟩ d (some cr) (some c) cs)
    (by show State.waitingSamples ≠ _; simp) stts (.table (.stts (movieRuns t.stts))) (hn stts hstts).1
    (by rw [es, movie_event_stts, movie_stts _ _ (hb.stts stts hstts es), Res.bind_ok]) rfl (by
      have e : readEvent (movieAt .waitingSamples ts ⟨id, time, {}⟩ d (some cr) (some c) cs).base (.table (.stts (movieRuns t.stts))) =
          .ok (movieAt .waitingSampleProps ts ⟨id, time, movieReader t d false false false false false⟩ d (some cr) (some c) cs).base := by
        show (PMP4.readBox { trackDuration := d } (.stts (movieRuns t.stts)) >>= _) = _
        rw [movie_read_stts t d hc hm.samples, Res.bind_ok]
        rfl
      unfold PMP4File.Reader.step
      rw [e, Res.bind_ok]
      rfl) (hsm _ hstts) a (movieAt .readingCodec ts ⟨id, time, {}⟩ d (some cr) none cs)
    (fun bi p expand => movie_ends ts _ d cr c none cs h1 h2 bi p expand)
    (fun o ho => ⟨(hn o (ma o ho)).1, by rw [List.mem_append, not_or]; exact ⟨(hn o (ma o ho)).2, ha o ho⟩⟩) (fun o ho => hsm o (ma o ho))
  have r2 := movie_tables t d ts id time (some cr) (some c) cs hc hm b false false false false false
    ⟨fun o ho => hb.stts o (mb o ho), fun o ho => hb.ctts o (mb o ho), fun o ho => hb.stss o (mb o ho), fun o ho => hb.stsc o (mb o ho),
      fun o ho => hb.stsz o (mb o ho), fun o ho => hb.stco o (mb o ho)⟩ (fun o ho => h.listed o (mb o ho)) (fun o ho => hn o (mb o ho))
    (fun o ho => hsm o (mb o ho)) nb (by rw [if_neg (by simp)]; omega)
  rw [hzb, hcb] at r2
  simp only [Bool.false_or] at r2
  have r3 := movie_table stco 6 ts id time d _ _ (.stco t.stco) (some cr) (some c) cs ⟨rfl, rfl⟩ rfl (hn stco hstco).1 (hsm _ hstco)
    (by rw [eo, movie_event_stco, movie_words _ _ (hb.stco stco hstco eo), Res.bind_ok])
    (movie_read_stco t d (movieHas (fourcc 'c' 't' 't' 's') b) (movieHas (fourcc 's' 't' 's' 's') b) false hc hm.low hm.chunks)
  have r4 := movie_tables t d ts id time (some cr) (some c) cs hc hm e (movieHas (fourcc 'c' 't' 't' 's') b) (movieHas (fourcc 's' 't' 's' 's') b)
    true true true
    ⟨fun o ho => hb.stts o (me o ho), fun o ho => hb.ctts o (me o ho), fun o ho => hb.stss o (me o ho), fun o ho => hb.stsc o (me o ho),
      fun o ho => hb.stsz o (me o ho), fun o ho => hb.stco o (me o ho)⟩ (fun o ho => h.listed o (me o ho)) (fun o ho => hn o (me o ho))
    (fun o ho => hsm o (me o ho)) ne (by rw [if_pos rfl, movie_count_zero.2 fun o ho => (he o ho).1]; omega)
  simp only [Bool.true_or] at r4
  rw [movie_reader_all t d _ _ (hp.ctts.elim .inr fun h => .inl (hopt _ (by decide) (by decide) (by decide) h))
    (hp.stss.elim .inr fun h => .inl (hopt _ (by decide) (by decide) (by decide) h))] at r4
  have r5 := tree_append r1 (tree_append r2 (tree_append r3 r4))
  have e5 : others (a ++ (stts :: (b ++ (stco :: e)))) = (others a ++ stts.bytes) ++ (others b ++ (stco.bytes ++ others e)) := by
    rw [movie_others_append, show others (stts :: (b ++ (stco :: e))) = stts.bytes ++ others (b ++ (stco :: e)) from List.flatMap_cons,
      movie_others_append, show others (stco :: e) = stco.bytes ++ others e from List.flatMap_cons]
    simp only [List.append_assoc]
  rw [e5]
  exact r5

end Verif.Props
