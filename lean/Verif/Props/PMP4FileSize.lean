import Verif.Props.PMP4FileHostile

/-!
# C82, C83: files that make the reader panic, and files that make it allocate
-/

namespace Verif.Props
open PMP4File MP4Codec MP4Box MP4Writer
open FMP4Init (typFtyp typMoov typMvhd typTrak typTkhd typEdts typMdia typMdhd typHdlr typMinf typStbl typStsd typStts typStsc typStsz typStco
  isoFields Handler Fields readTree expandBox)
open FMP4 (box_length)
open PMP4 (Run StscEntry Event RTrack PReader State readEvent readEvents maxSamples)
open Spec (beBytes)
open Spec.FMP4 (box)

/-- A file with a track of Opus, with any sample tables. -/
def floodStsd : Bytes := box typStsd (encodeCount 1 ++ box typOpus (encodeAudio 2 16 (48000 * 65536) ++ box typDOps (encodeDOps 2)))

def floodTrak (tables : Bytes) : Bytes :=
  box typTrak (box typTkhd (PMP4File.encodeTkhd 1 0 0 0 0 0) ++ (box typEdts (box typElst (encodeElst [])) ++
    box typMdia (box typMdhd (PMP4File.encodeMdhd 48000 0) ++ box typMinf (box typStbl (floodStsd ++ tables)))))

def floodFile (traks : Bytes) : Bytes :=
  box typFtyp PMP4File.encodeFtyp ++ box typMoov (box typMvhd (PMP4File.encodeMvhd 0 2) ++ traks)

/-! ## C82 is false -/

/-- **C82 is false**: the last entry of a `stsc` box has no samples, and the reader divides by zero. -/
theorem C82_stsc_false : PMP4File.unmarshal isoFields
    (floodFile (floodTrak (box typStts (encodeStts [⟨1, 960⟩]) ++ box typStsc (encodeStsc [⟨1, 0⟩])))) = .panic := by
  decide +kernel

/-- **C82 is false**: two `stsc` boxes, without zeros, and a sample that does not exist. -/
theorem C82_second_stsc_false : PMP4File.unmarshal isoFields
    (floodFile (floodTrak (box typStts (encodeStts [⟨1, 960⟩]) ++ (box typStsc (encodeStsc [⟨1, 1⟩]) ++ (box typStsc (encodeStsc [⟨1, 1⟩]) ++
      (box typStsz (PMP4File.encodeStsz [10]) ++ box typStco (encodeStco [100, 200]))))))) = .panic := by
  decide +kernel

/-- A file with sample tables that meets the hypothesis of C82_partial. -/
example : unmarshalWith guardedHandle isoFields
    (floodFile (floodTrak (box typStts (encodeStts [⟨1, 960⟩]) ++ box typStsc (encodeStsc [⟨1, 1⟩])))) ≠ .err "hostile stsc" := by
  decide +kernel

/-- A hostile file, that is refused. -/
example : PMP4File.unmarshal isoFields
    (floodFile (floodTrak (box typStts (encodeStts [⟨5184001, 960⟩])))) = .err "max samples reached" := by
  decide +kernel

/-- A file meets the hypothesis of C82_result. -/
example : ∃ l, PMP4File.unmarshal isoFields (floodFile (floodTrak (box typStts (encodeStts [⟨3, 960⟩])))) = .ok l ∧ l.length = 1 := by
  have h : (PMP4File.unmarshal isoFields (floodFile (floodTrak (box typStts (encodeStts [⟨3, 960⟩]))))).bind
      (fun l => if l.length = 1 then .ok () else .err "") = .ok () := by decide +kernel
  obtain ⟨l, hl, h⟩ := Res.bind_eq_ok.1 h
  refine ⟨l, hl, ?_⟩
  by_cases h1 : l.length = 1
  · exact h1
  · rw [if_neg h1] at h; cases h

/-! ## C83: a bound -/

/-- What a handler does to a quantity, when expanding a box adds at most `n` to it. -/
def Adds {σ : Type} (m : σ → Nat) (n : Nat) (r : σ) (x : Res σ) : Prop := Holds (fun r' => m r' ≤ m r + n) x

/-- When each box adds at most one to a quantity, its value after a tree is bounded by the size of the tree. -/
theorem file_tree_adds {σ : Type} (fields : Fields) (h : Handler σ) (m : σ → Nat)
    (hh : ∀ bi depth payload expand r n, (∀ r, Adds m n r (expand r)) → Adds m (n + 1) r (h bi depth payload expand r)) :
    ∀ (k : Nat) (b : Bytes) (pos : Nat) (left : Option Nat) (depth : Nat) (r : σ),
      Holds (fun r' => 8 * m r' ≤ 8 * m r + (b.length - pos) ∧ ∀ l, left = some l → 8 * m r' ≤ 8 * m r + l)
        (readTree fields h k b pos left depth r) := by
  intro k
  induction k with
  | zero => intro b pos left depth r; unfold readTree; trivial
  | succ k ih =>
    intro b pos left depth r
    unfold readTree
    have hstay : 8 * m r ≤ 8 * m r + (b.length - pos) ∧ ∀ l, left = some l → 8 * m r ≤ 8 * m r + l := ⟨by omega, fun _ _ => by omega⟩
    refine holds_if (fun _ => holds_if (fun _ => hstay) fun _ => trivial) fun hl8 => ?_
    refine holds_bind (holds_sound (sound_readBoxInfo b pos)) fun o ho => ?_
    match o, ho with
    | none, _ => exact holds_if (fun _ => hstay) fun _ => trivial
    | some bi, hbi =>
      obtain ⟨h1, h2, h3, h4⟩ := hbi bi rfl
      refine holds_if (fun _ => trivial) fun hsz => ?_
      have hx : ∀ r, Adds m (min (bi.size - 8) (b.length - pos - 8) / 8) r (expandBox fields (readTree fields h k b) b bi depth r) := by
        intro r
        unfold expandBox Adds
        split
        · trivial
        · rename_i n _
          refine holds_if (fun _ => trivial) fun _ => ?_
          refine holds_mono (ih b _ _ _ r) fun r' hr' => ?_
          have e1 := hr'.1
          have e2 := hr'.2 _ rfl
          have e3 : 8 * (m r' - m r) ≤ min (bi.size - 8) (b.length - pos - 8) := by
            rw [Nat.le_min]; omega
          have := Nat.div_le_div_right (c := 8) e3
          rw [Nat.mul_div_cancel_left _ (by decide)] at this
          omega
      refine holds_bind (hh bi depth _ _ r _ hx) fun r1 hr1 => ?_
      refine holds_mono (ih b _ _ depth r1) fun r' hr' => ⟨?_, fun l hl => ?_⟩
      · have e1 := hr'.1
        have e2 := hr1
        have e3 := Nat.div_mul_le_self (min (bi.size - 8) (b.length - pos - 8)) 8
        rcases Nat.le_total (bi.size - 8) (b.length - pos - 8) with hm | hm
        · rw [Nat.min_eq_left hm] at e2 e3; omega
        · rw [Nat.min_eq_right hm] at e2 e3; omega
      · subst hl
        have e1 := hr'.2 (l - bi.size) rfl
        have e2 := hr1
        have e3 := Nat.div_mul_le_self (min (bi.size - 8) (b.length - pos - 8)) 8
        have e4 := Nat.min_le_left (bi.size - 8) (b.length - pos - 8)
        have hs : ¬ l < bi.size := by simpa using hsz
        omega

/-- The number of tracks. -/
def fileTrackCount (r : PMP4File.Reader) : Nat := r.base.all.length

theorem file_all_cur (p p' : PReader) (t t' : RTrack) (h : p.cur = some t) (h1 : p'.cur = some t') (h2 : p'.tracks = p.tracks)
    (h3 : p'.listed = p.listed) : p'.all.length = p.all.length := by
  unfold PReader.all
  rw [h, h1, h2, h3]
  dsimp only
  split <;> simp

theorem file_event_adds (p : PReader) (e : Event) : Holds (fun p' => p'.all.length ≤ p.all.length + 1) (readEvent p e) := by
  have hsame : ∀ p' : PReader, p'.tracks = p.tracks → p'.cur = p.cur → p'.listed = p.listed → p'.all.length ≤ p.all.length + 1 := by
    intro p' h1 h2 h3
    unfold PReader.all
    rw [h1, h2, h3]
    omega
  cases e with
  | ftyp | moov | mvhd | edts | elst | mdia | minf | stbl | stsd => exact holds_if (fun _ => trivial) fun _ => hsame _ rfl rfl rfl
  | trak =>
    refine holds_if (fun _ => trivial) fun _ => ?_
    show (p.all ++ [_]).length ≤ _
    rw [List.length_append]
    exact Nat.le_refl _
  | tkhd id =>
    refine holds_if (fun _ => trivial) fun _ => ?_
    unfold PReader.withCur
    cases hc : p.cur with
    | none => trivial
    | some t => exact Nat.le_succ_of_le (Nat.le_of_eq (file_all_cur p _ t _ hc rfl rfl rfl))
  | mdhd ts d =>
    refine holds_if (fun _ => trivial) fun _ => holds_if (fun _ => trivial) fun _ => ?_
    unfold PReader.withCur
    cases hc : p.cur with
    | none => trivial
    | some t => exact Nat.le_succ_of_le (Nat.le_of_eq (file_all_cur p _ t _ hc rfl rfl rfl))
  | codec f =>
    refine holds_if (fun _ => trivial) fun _ => holds_if (fun _ => hsame _ rfl rfl rfl) fun _ => holds_if (fun _ => ?_) fun _ =>
      holds_if (fun _ => trivial) fun _ => ?_
    · show (PReader.all _).length ≤ _
      unfold PReader.all
      cases p.cur with
      | none => exact Nat.le_succ _
      | some t =>
        dsimp only
        split <;> simp only [List.length_append] <;> omega
    · show (PReader.all _).length ≤ _
      unfold PReader.all
      cases p.cur with
      | none => dsimp only; rw [List.length_dropLast]; omega
      | some t =>
        dsimp only
        split
        · simp only [List.length_append, List.length_dropLast]; omega
        · rw [List.length_dropLast]; omega
  | codecError => exact holds_if (fun _ => trivial) fun _ => hsame _ rfl rfl rfl
  | other => exact hsame _ rfl rfl rfl
  | table b =>
    refine holds_if (fun _ => trivial) fun _ => ?_
    unfold PReader.withCur
    cases hc : p.cur with
    | none => trivial
    | some t =>
      refine holds_bind (holds_any _) fun x _ => ?_
      exact Nat.le_succ_of_le (Nat.le_of_eq (file_all_cur p _ t _ hc rfl rfl rfl))

theorem file_box_adds (r : PMP4File.Reader) (typ payload : Bytes) (expand : PMP4File.Reader → Res PMP4File.Reader) (n : Nat)
    (hx : ∀ r, Adds fileTrackCount n r (expand r)) : Adds fileTrackCount (n + 1) r (r.readBox typ payload expand) := by
  unfold Adds PMP4File.Reader.readBox
  refine holds_bind (holds_any _) fun e _ => holds_bind (P := fun r' => fileTrackCount r' ≤ fileTrackCount r + 1) ?_ fun r' hr' =>
    holds_if (fun _ => holds_mono (hx r') fun r2 h2 => by omega) fun _ => (by show fileTrackCount r' ≤ _; omega)
  unfold PMP4File.Reader.step
  refine holds_bind (file_event_adds r.base e) fun p hp => ?_
  split <;> exact hp

theorem file_handle_adds (bi : FMP4.BoxInfo) (depth : Nat) (payload : Bytes) (expand : PMP4File.Reader → Res PMP4File.Reader) (r : PMP4File.Reader)
    (n : Nat) (hx : ∀ r, Adds fileTrackCount n r (expand r)) : Adds fileTrackCount (n + 1) r (PMP4File.handle bi depth payload expand r) := by
  unfold PMP4File.handle
  refine holds_if (fun hs => ?_) fun _ => file_box_adds r _ _ _ _ hx
  refine holds_bind (holds_any _) fun c _ => holds_bind (holds_any _) fun a _ => ?_
  cases a with
  | done c' => exact Nat.le_add_right _ _
  | expand c' => exact holds_mono (hx _) fun r' h => Nat.le_succ_of_le h
  | ended =>
    unfold PMP4File.Reader.afterCodec PMP4File.Reader.codecEnded
    refine holds_bind (P := fun r' => fileTrackCount r' ≤ fileTrackCount r) ?_ fun r' hr' =>
      holds_mono (file_box_adds r' _ _ _ _ hx) fun r2 h2 => by omega
    refine holds_bind (P := fun p => p.all.length ≤ r.base.all.length) ?_ fun p hp => hp
    refine holds_if (fun _ => trivial) fun _ => holds_if (fun _ => ?_) fun _ => holds_if (fun _ => ?_) fun _ => holds_if (fun _ => trivial) fun _ => ?_
    · exact Nat.le_refl _
    · show (PReader.all _).length ≤ _
      unfold PReader.all
      cases r.base.cur with
      | none => exact Nat.le_refl _
      | some t =>
        dsimp only
        split <;> simp only [List.length_append] <;> omega
    · show (PReader.all _).length ≤ _
      unfold PReader.all
      cases r.base.cur with
      | none => dsimp only; rw [List.length_dropLast]; omega
      | some t =>
        dsimp only
        split
        · simp only [List.length_append, List.length_dropLast]; omega
        · rw [List.length_dropLast]; omega

/-- The number of samples of a presentation. -/
def fileSampleCount (l : List (RTrack × Option Codec)) : Nat := (l.map fun x => x.1.reader.samples.length).sum

theorem file_sum_le (l : List Nat) (m : Nat) (h : ∀ x ∈ l, x ≤ m) : l.sum ≤ l.length * m := by
  induction l with
  | nil => simp
  | cons x l ih =>
    rw [List.sum_cons, List.length_cons, Nat.succ_mul]
    have := h x List.mem_cons_self
    have := ih fun y hy => h y (List.mem_cons_of_mem _ hy)
    omega

/-- **C83.** From all bytes, at most a track for each 8 bytes is read, and at most 5184000 samples for each track. -/
theorem C83_bound (fields : Fields) (b : Bytes) (l : List (RTrack × Option Codec)) (h : PMP4File.unmarshal fields b = .ok l) :
    8 * l.length ≤ b.length ∧ fileSampleCount l ≤ l.length * 5184000 := by
  constructor
  · unfold PMP4File.unmarshal at h
    obtain ⟨r, hr, h⟩ := Res.bind_eq_ok.1 h
    have := holds_get (file_tree_adds fields PMP4File.handle fileTrackCount file_handle_adds (b.length + 1) b 0 none 1 {}) hr
    split at h
    · cases h
    · split at h
      · cases h
      · cases h
        have e := this.1
        have e0 : fileTrackCount {} = 0 := rfl
        unfold fileTrackCount at e e0
        rw [List.length_zip]
        have := Nat.min_le_left r.base.all.length r.allCodecs.length
        omega
  · unfold fileSampleCount
    have := file_sum_le (l.map fun x => x.1.reader.samples.length) maxSamples (fun n hn => by
      obtain ⟨x, hx, rfl⟩ := List.mem_map.1 hn
      exact ((C82_result fields b l h).2 x hx).2.2.1)
    rwa [List.length_map] at this

/-! ## C83: the bound is reached -/

/-- A track with a run of `n` samples, in 16 bytes. -/
def floodTrack (n : Nat) : Bytes := floodTrak (box typStts (encodeStts [⟨n, 960⟩]))

theorem file_flood_stts (n : Nat) : (box typStts (encodeStts [⟨n, 960⟩])).length = 24 := by
  unfold encodeStts encodeTable encodeEntries
  rw [box_length _ _ (by rfl), List.length_append, List.map_cons, List.map_nil, List.flatMap_cons, List.flatMap_nil, List.length_append,
    pack_length, pack_length]
  simp [widths]

theorem file_flood_stbl (n : Nat) : (box typStbl (floodStsd ++ box typStts (encodeStts [⟨n, 960⟩]))).length = 103 := by
  rw [box_length _ _ (by rfl), List.length_append, file_flood_stts]
  have : floodStsd.length = 71 := by decide +kernel
  omega

theorem file_flood_mdia (n : Nat) : (box typMdia (box typMdhd (PMP4File.encodeMdhd 48000 0) ++
    box typMinf (box typStbl (floodStsd ++ box typStts (encodeStts [⟨n, 960⟩]))))).length = 151 := by
  rw [box_length _ _ (by rfl), List.length_append, box_length typMinf _ (by rfl), file_flood_stbl]
  have : (box typMdhd (PMP4File.encodeMdhd 48000 0)).length = 32 := by decide +kernel
  omega

theorem file_flood_length (n : Nat) : (floodTrack n).length = 275 := by
  unfold floodTrack floodTrak
  rw [box_length _ _ (by rfl), List.length_append, List.length_append, file_flood_mdia]
  have h1 : (box typTkhd (PMP4File.encodeTkhd 1 0 0 0 0 0)).length = 92 := by decide +kernel
  have h2 : (box typEdts (box typElst (encodeElst []))).length = 24 := by decide +kernel
  rw [h1, h2]

/-- `k` of them. -/
def floodTracks (n : Nat) : Nat → Bytes
  | 0 => []
  | k + 1 => floodTracks n k ++ floodTrack n

theorem file_floods_length (n k : Nat) : (floodTracks n k).length = 275 * k := by
  induction k with
  | zero => rfl
  | succ k ih => rw [floodTracks, List.length_append, ih, file_flood_length]; omega

theorem file_flood_file_length (n k : Nat) : (floodFile (floodTracks n k)).length = 148 + 275 * k := by
  unfold floodFile
  rw [List.length_append, box_length _ _ (by rfl), box_length _ _ (by rfl), List.length_append, box_length _ _ (by rfl), file_floods_length,
    file_ftyp_length, file_mvhd_length]
  omega

/-- The parts of the track. -/
def floodParts : FileParts :=
  ⟨.opus 2, {}, 0, [], typOpus, encodeAudio 2 16 (48000 * 65536), typDOps, encodeDOps 2, [], [], []⟩

/-- The samples of the track. -/
def floodReader (n : Nat) : PMP4.Reader :=
  { samples := List.replicate n { duration := 960 }, props := true,
    timeOffset := Bits.wrapInt32 (Bits.toInt32 0 - Bits.toInt32 (PMP4.sumRead 0 (List.replicate n { duration := 960 }))) }

theorem file_flood_table (n : Nat) (all : List RTrack) (hn : n ≤ maxSamples) :
    readEvent ⟨.waitingSamples, all, some ⟨1, 48000, {}⟩, true, 0⟩ (.table (.stts [⟨n, 960⟩])) =
      .ok ⟨.waitingSampleProps, all, some ⟨1, 48000, floodReader n⟩, true, 0⟩ := by
  have h : ¬ ([] : List PMP4.RSample).length + n > maxSamples := by
    have : ([] : List PMP4.RSample).length = 0 := rfl
    omega
  have hr : PMP4.readSTTS [⟨n, 960⟩] [] = .ok (List.replicate n { duration := 960 }) := by
    unfold PMP4.readSTTS
    dsimp only
    rw [if_neg h]
    unfold PMP4.readSTTS
    rw [List.nil_append]
  unfold readEvent PReader.withCur PMP4.readBox
  dsimp only
  rw [if_neg (by simp), if_neg (by simp), hr, Res.bind_ok, Res.bind_ok]
  rfl

/-- What follows `tkhd` in the track. -/
theorem file_flood_rest (n : Nat) (hn : n ≤ maxSamples) (all : List RTrack) (d : Nat) (cr0 : Option CodecReader) (codecs : List (Option Codec)) :
    ∃ cr, Reads isoFields PMP4File.handle (box typEdts (box typElst (encodeElst [])) ++
      box typMdia (box typMdhd (PMP4File.encodeMdhd 48000 0) ++ box typMinf (box typStbl (floodStsd ++ box typStts (encodeStts [⟨n, 960⟩]))))) 3
      ⟨⟨.waitingElst, all, some { id := 1 }, true, d⟩, cr0, none, codecs⟩
      ⟨⟨.waitingSampleProps, all, some ⟨1, 48000, floodReader n⟩, true, 0⟩, some cr, some (.opus 2), codecs⟩ := by
  have hcr : CodecReads floodParts.typ floodParts.entry floodParts.ctyp floodParts.config (.opus 2) :=
    init_opus 2 {} 0 0 0 _ _ _ _ ⟨by decide, by decide⟩ rfl rfl
  obtain ⟨cr, g1, g2, g3⟩ := file_entry floodParts (.opus 2) ⟨⟨.readingCodec, all, some ⟨1, 48000, {}⟩, true, 0⟩, some {}, none, codecs⟩
    rfl rfl hcr (by decide +kernel)
  have hn32 : n < 2 ^ 32 := by
    have : maxSamples < 2 ^ 32 := by decide
    generalize maxSamples = m at *; omega
  have htab : (⟨typStts, encodeStts [⟨n, 960⟩], .stts [⟨n, 960⟩]⟩ : FileTable).Good := by
    refine ⟨rfl, ?_⟩
    show (decodeStts _ >>= _) = _
    rw [mp4t_stts _ (by simp) (by intro e he; simp only [List.mem_singleton] at he; subst he; exact ⟨hn32, by show 960 < 2 ^ 32; decide⟩), Res.bind_ok]
  have e1 : readEvent ⟨.readingCodec, all, some ⟨1, 48000, {}⟩, true, 0⟩ (.codec true) =
      .ok ⟨.waitingSamples, all, some ⟨1, 48000, {}⟩, true, 0⟩ := rfl
  have l2 := file_flood_mdia n
  have l3 := file_flood_stbl n
  have l4 := file_flood_stts n
  have e2 := file_flood_table n all hn
  have e3 := file_first_table ⟨typStts, encodeStts [⟨n, 960⟩], .stts [⟨n, 960⟩]⟩
    ⟨⟨.readingCodec, all, some ⟨1, 48000, {}⟩, true, 0⟩, some cr, none, codecs⟩ cr (.opus 2) _ _ htab (by dsimp only; omega) rfl rfl g1 g2 e1 e2
  dsimp only at e3
  refine ⟨cr, ?_⟩
  generalize floodReader n = rd at *
  clear e2
  generalize box typStts (encodeStts [⟨n, 960⟩]) = T at *
  refine tree_append (r' := ⟨⟨.waitingMdhd, all, some { id := 1 }, true, d⟩, cr0, none, codecs⟩) ?_ ?_
  · refine file_node _ _ _ _ ⟨⟨.waitingElst, all, some { id := 1 }, true, d⟩, cr0, none, codecs⟩ _
      .edts (by rfl) (by decide +kernel) (fun _ => rfl) (by simp) (fun _ => rfl) rfl rfl ?_
    exact file_leaf _ _ _ _ _ .elst (by rfl) (by decide +kernel) (by simp) rfl rfl rfl
  · refine file_node _ _ _ _ ⟨⟨.waitingMdhd, all, some { id := 1 }, true, d⟩, cr0, none, codecs⟩ _
      .mdia (by rfl) (by omega) (fun _ => rfl) (by simp) (fun _ => rfl) rfl rfl ?_
    refine tree_append (r' := ⟨⟨.waitingStsd, all, some ⟨1, 48000, {}⟩, true, 0⟩, cr0, none, codecs⟩) ?_ ?_
    · refine file_leaf _ _ _ _ _ (.mdhd 48000 0) (by rfl) (by decide +kernel) (by simp) ?_ rfl rfl
      show (PMP4File.decodeMdhd (PMP4File.encodeMdhd 48000 0) >>= _) = _
      rw [mp4t_mdhd _ _ (by decide) (by decide), Res.bind_ok]
    · refine file_node _ _ _ _ ⟨⟨.waitingStsd, all, some ⟨1, 48000, {}⟩, true, 0⟩, cr0, none, codecs⟩ _
        .minf (by rfl) (by rw [box_length _ _ (by rfl)]; omega) (fun _ => rfl) (by simp) (fun _ => rfl) rfl rfl ?_
      refine file_node _ _ _ _ ⟨⟨.waitingStsd, all, some ⟨1, 48000, {}⟩, true, 0⟩, cr0, none, codecs⟩ _
        .stbl (by rfl) (by omega) (fun _ => rfl) (by simp) (fun _ => rfl) rfl rfl ?_
      refine tree_append (r' := ⟨⟨.readingCodec, all, some ⟨1, 48000, {}⟩, true, 0⟩, some cr, none, codecs⟩) ?_ e3
      unfold floodStsd
      refine tree_node (by rfl) (by decide +kernel) (by rw [init_count_length]; rfl) (fun bi expand e => ?_) g3
      unfold PMP4File.handle
      rw [if_neg (by simp), e]
      rfl

theorem file_flood_track (n : Nat) (hn : n ≤ maxSamples) (r : PMP4File.Reader)
    (hs : r.base.state = .waitingTrak ∨ r.base.state = .waitingSampleProps) :
    ∃ r', Reads isoFields PMP4File.handle (floodTrack n) 2 r r' ∧ r'.base.state = .waitingSampleProps ∧
      r'.base.all = r.base.all ++ [⟨1, 48000, floodReader n⟩] ∧ r'.allCodecs = r.allCodecs ++ [some (.opus 2)] := by
  have hst : r.step .trak = .ok ⟨⟨.waitingTkhd, r.base.all, some {}, true, r.base.trackDuration⟩, r.codecReader, none, r.allCodecs⟩ := by
    unfold PMP4File.Reader.step readEvent
    dsimp only
    rw [if_neg (by rcases hs with h | h <;> rw [h] <;> simp), Res.bind_ok]
  have l1 := file_flood_length n
  obtain ⟨cr, g⟩ := file_flood_rest n hn r.base.all r.base.trackDuration r.codecReader r.allCodecs
  refine ⟨⟨⟨.waitingSampleProps, r.base.all, some ⟨1, 48000, floodReader n⟩, true, 0⟩, some cr, some (.opus 2), r.allCodecs⟩, ?_, rfl, rfl, rfl⟩
  unfold floodTrack floodTrak at l1 ⊢
  refine file_node _ _ _ r _ _ .trak (by rfl) (by omega) (fun _ => rfl) (by rcases hs with h | h <;> rw [h] <;> simp) (fun _ => rfl) rfl hst ?_
  refine tree_append ?_ g
  refine file_leaf _ _ _ _ _ (.tkhd 1) (by rfl) (by decide +kernel) (by simp) ?_ rfl rfl
  show (decodeTkhd (PMP4File.encodeTkhd 1 0 0 0 0 0) >>= _) = _
  rw [mp4t_tkhd]
  rfl

theorem file_flood_tracks (n : Nat) (hn : n ≤ maxSamples) (k : Nat) :
    ∃ r', Reads isoFields PMP4File.handle (floodTracks n k) 2 ⟨⟨.waitingTrak, [], none, false, 0⟩, none, none, []⟩ r' ∧
      (r'.base.state = .waitingTrak ∨ r'.base.state = .waitingSampleProps) ∧
      r'.base.all = List.replicate k ⟨1, 48000, floodReader n⟩ ∧ r'.allCodecs = List.replicate k (some (.opus 2)) := by
  induction k with
  | zero => exact ⟨_, tree_nil _ _ _ _, .inl rfl, rfl, rfl⟩
  | succ k ih =>
    obtain ⟨r1, h1, h2, h3, h4⟩ := ih
    obtain ⟨r2, g1, g2, g3, g4⟩ := file_flood_track n hn r1 h2
    refine ⟨r2, ?_, .inr g2, ?_, ?_⟩
    · rw [floodTracks]; exact tree_append h1 g1
    · rw [g3, h3, List.replicate_succ']
    · rw [g4, h4, List.replicate_succ']

/-- **C83, the bound is reached.** For each `n` up to the limit and each `k`, a file of 148 + 275 k bytes has k tracks with n samples each. -/
theorem C83_reached (n k : Nat) (hn : n ≤ 5184000) (hk : 0 < k) (hl : 275 * k < 2 ^ 31) :
    ∃ b l, b.length = 148 + 275 * k ∧ PMP4File.unmarshal isoFields b = .ok l ∧ l.length = k ∧ fileSampleCount l = k * n := by
  obtain ⟨r', h1, h2, h3, h4⟩ := file_flood_tracks n hn k
  have hB := file_floods_length n k
  have hF := file_flood_file_length n k
  unfold floodFile at hF
  have hread : Reads isoFields PMP4File.handle (floodFile (floodTracks n k)) 1 {} r' := by
    unfold floodFile
    generalize floodTracks n k = B at *
    refine tree_append (r' := ⟨⟨.waitingMoov, [], none, false, 0⟩, none, none, []⟩) ?_ ?_
    · refine file_leaf _ _ _ _ _ .ftyp (by rfl) ?_ (by simp) rfl rfl rfl
      rw [box_length _ _ (by rfl), file_ftyp_length]; decide
    · refine file_node _ _ _ _ ⟨⟨.waitingMvhd, [], none, false, 0⟩, none, none, []⟩ _ .moov (by rfl)
        (by rw [List.length_append] at hF; omega) (fun _ => rfl) (by simp) (fun _ => rfl) rfl rfl ?_
      refine tree_append ?_ h1
      have := tree_node (fields := isoFields) (h := PMP4File.handle) (typ := typMvhd) (fs := PMP4File.encodeMvhd 0 2)
        (body := []) (depth := 2) (r := (⟨⟨.waitingMvhd, [], none, false, 0⟩, none, none, []⟩ : PMP4File.Reader))
        (r1 := (⟨⟨.waitingTrak, [], none, false, 0⟩, none, none, []⟩ : PMP4File.Reader))
        (r' := (⟨⟨.waitingTrak, [], none, false, 0⟩, none, none, []⟩ : PMP4File.Reader)) (by rfl)
        (by rw [List.append_nil, file_mvhd_length]; decide)
        (by rw [file_mvhd_length]; exact file_mvhd_fields 0 _ _ (List.append_nil _))
        (fun bi expand e => by
          unfold PMP4File.handle
          rw [if_neg (by simp), e]
          rfl) (tree_nil _ _ _ _)
      rwa [List.append_nil] at this
  refine ⟨floodFile (floodTracks n k), r'.base.all.zip r'.allCodecs, file_flood_file_length n k, ?_, ?_, ?_⟩
  · unfold PMP4File.unmarshal
    rw [tree_file hread, Res.bind_ok, if_neg, if_neg]
    · rw [h3]
      cases k with
      | zero => omega
      | succ k => rw [List.replicate_succ]; simp
    · rintro ⟨n1, n2⟩
      rcases h2 with h | h
      · exact n1 h
      · exact n2 h
  · rw [List.length_zip, h3, h4, List.length_replicate, List.length_replicate, Nat.min_self]
  · unfold fileSampleCount
    rw [h3, h4, List.zip_replicate', List.map_replicate]
    have : (floodReader n).samples.length = n := List.length_replicate
    rw [this, List.sum_replicate_nat]

/-- **C83, the factor is not small**: what is allocated is not bounded by 18000 for each byte. -/
theorem C83_small_factor : ¬ ∀ (b : Bytes) (l : List (RTrack × Option Codec)),
    PMP4File.unmarshal isoFields b = .ok l → fileSampleCount l ≤ 18000 * b.length := by
  intro h
  obtain ⟨b, l, h1, h2, _, h3⟩ := C83_reached 5184000 100 (by decide) (by decide) (by decide)
  have := h b l h2
  omega

end Verif.Props
