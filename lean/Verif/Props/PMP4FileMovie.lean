import Verif.Props.PMP4FileISO

/-!
# C86, C87, C88: the movie of an MP4 file that is written

The file that `Presentation.Marshal` writes is read by the reader of Spec/ISOFile.lean, which knows nothing of the writer.
C86 is about samples, times, codecs and tracks; C87 about when samples are presented; C88 about the durations and the identifier of the
headers.
-/

namespace Verif.Props
open PMP4File MP4Codec MP4Box MP4Writer ISOLemmas
open PMP4 (Run StscEntry ElstEntry marshalSTTS marshalCTTS marshalSTSS marshalSTSC marshalSTSZ marshalSTCO marshalELST mediaDuration shiftChunks
  maxSamples sumDurations)
open Spec (beBytes)
open Spec.FMP4 (box)
open Spec.ISO
open Spec.Records (field fourcc Fields)
open SampleTables (expand startTimes tableLocations region isSync)

/-! ## Samples -/

/-- Where samples are, when chunk offsets are moved by `d`. -/
theorem iso_locations (samples : List PMP4.Sample) (d : Nat) (stsc : List StscEntry) (hlen : samples.length < 2 ^ 32)
    (hb : ∀ sa ∈ samples, sa.offset + sa.payloadSize + d < 2 ^ 32) (h : marshalSTSC samples = .ok stsc) :
    tableLocations (stscPairs stsc) (shiftChunks d (marshalSTCO samples)) (marshalSTSZ samples) =
      samples.map fun sa => (sa.offset + d, sa.payloadSize) := by
  obtain ⟨r, h1, h2⟩ := C46_tables samples hlen fun sa hsa => by have := hb sa hsa; omega
  rw [h] at h1
  cases h1
  have hstcoMem : ∀ o ∈ marshalSTCO samples, ∃ sa ∈ samples, sa.offset = o := by
    cases samples with
    | nil => intro o h; cases h
    | cons first l =>
      intro o h
      have h : o ∈ PMP4.stcoLoop l first.end [first.offset] := h
      rw [pmp4_stcoLoop] at h
      rcases List.mem_append.mp h with h | h
      · exact ⟨first, List.mem_cons_self, (List.mem_singleton.mp h).symm⟩
      · obtain ⟨x, hx, hxo⟩ := pmp4_groupOffsets_mem _ _ _ h
        exact ⟨x, List.mem_cons_of_mem _ hx, hxo⟩
  have hshift : shiftChunks d (marshalSTCO samples) = (marshalSTCO samples).map (· + d) := by
    unfold shiftChunks
    apply List.map_congr_left
    intro o ho
    obtain ⟨sa, hsa, rfl⟩ := hstcoMem o ho
    have := hb sa hsa
    rw [Nat.mod_eq_of_lt (show d < 2 ^ 32 by omega), Nat.mod_eq_of_lt (by omega)]
  unfold tableLocations at h2 ⊢
  rw [hshift, List.length_map, pmp4_locations_shift, h2, List.map_map]
  rfl

/-- The samples that are given, from decoding time `d` on: decoding time, composition time, whether it is a sync sample, payload. -/
def samplesGiven : Int → List PMP4.Sample → List (Int × Int × Bool × Bytes)
  | _, [] => []
  | d, sa :: l => (d, d + sa.ptsOffset, !sa.isNonSync, sa.payload) :: samplesGiven (d + sa.duration) l

theorem iso_given_unplaced (l : List PMP4.Sample) : ∀ d, samplesGiven d (l.map unplaced) = samplesGiven d l := by
  induction l with
  | nil => intro d; rfl
  | cons sa l ih => intro d; simp only [List.map_cons, samplesGiven, ih]; rfl

theorem iso_samplesFrom (file : Bytes) (u : Spec.ISO.Track) (d : Nat) (l : List PMP4.Sample) :
    ∀ (i : Nat) (s : Int), (∀ k (hk : k < l.length), u.sync (i + k) = !l[k].isNonSync) →
      (∀ sa ∈ l, region file (sa.offset + d) sa.payloadSize = sa.payload) →
      (samplesFrom u i (startTimes s (l.map (·.duration))) (l.map (·.ptsOffset)) (l.map fun sa => (sa.offset + d, sa.payloadSize))).map
        (fun x => (x.decoding, x.composition, x.sync, x.bytes file)) = samplesGiven s l := by
  induction l with
  | nil => intro i s _ _; rfl
  | cons sa l ih =>
    intro i s hs hp
    simp only [List.map_cons, startTimes, samplesFrom, samplesGiven]
    rw [ih (i + 1) _ (fun k hk => by
      have := hs (k + 1) (by simpa using hk)
      rw [show i + 1 + k = i + (k + 1) by omega, this]; rfl) fun x hx => hp x (List.mem_cons_of_mem _ hx)]
    have h0 := hs 0 (by simp)
    rw [Nat.add_zero] at h0
    rw [h0]
    unfold Sample.bytes
    dsimp only
    rw [hp sa List.mem_cons_self]
    rfl

theorem iso_sync (u : Spec.ISO.Track) (samples : List PMP4.Sample) (hlen : samples.length < 2 ^ 32) (hu : u.stss = marshalSTSS samples) (k : Nat)
    (hk : k < samples.length) : u.sync k = !samples[k].isNonSync := by
  have h := C45_stss samples hlen k hk
  rw [← hu] at h
  unfold isSync at h
  unfold Spec.ISO.Track.sync
  cases hs : u.stss with
  | none =>
    rw [hs] at h
    dsimp only at h ⊢
    rw [h.1 trivial]; rfl
  | some l =>
    rw [hs] at h
    dsimp only at h ⊢
    cases hb : samples[k].isNonSync with
    | false =>
      rw [List.contains_iff_mem.2 (h.2 hb)]; rfl
    | true =>
      cases hc : l.contains (k + 1) with
      | false => rfl
      | true =>
        have := h.1 (List.contains_iff_mem.1 hc)
        rw [hb] at this; cases this

/-- What a track of the movie says of a track that is given. -/
structure IsoMeans (file : Bytes) (t : PMP4File.Track) (u : Spec.ISO.Track) : Prop where
  id : u.id = t.id
  enabled : u.flags = 3 ∧ u.matrix = [65536, 0, 0, 0, 65536, 0, 0, 0, 1073741824] ∧
    u.language.map (fun n => Char.ofNat (n + 0x60)) = ['u', 'n', 'd']
  timeScale : u.timeScale = t.timeScale
  consistent : u.Consistent
  samples : u.samples.map (fun x => (x.decoding, x.composition, x.sync, x.bytes file)) = samplesGiven 0 t.samples
  inside : ∀ x ∈ u.samples, x.offset + x.size ≤ file.length
  codec : ∃ c typ entry ctyp config, t.codec = some c ∧
    RecordWritten t.id (FMP4Init.defaultBitrate c) (FMP4Init.defaultBitrate c) c typ entry ctyp config ∧
    u.descriptions = [(typ, entry ++ box ctyp config)] ∧ (∀ e ∈ u.stsc, e.description = 1) ∧
    u.handler = (if c.isVideo then fourcc 'v' 'i' 'd' 'e' else fourcc 's' 'o' 'u' 'n') ∧
    u.mediaHeader = (if c.isVideo then fourcc 'v' 'm' 'h' 'd' else fourcc 's' 'm' 'h' 'd') ∧
    u.name = (if c.isVideo then fourcc 'V' 'i' 'd' 'e' else fourcc 'S' 'o' 'u' 'n') ++
      (if c.isVideo then fourcc 'o' 'H' 'a' 'n' else fourcc 'd' 'H' 'a' 'n') ++ fourcc 'd' 'l' 'e' 'r' ++ [0] ∧
    u.group = (if c.isVideo then 0 else 1) ∧ u.volume = (if c.isVideo then 0 else 256) ∧
    u.width = (if c.isVideo then field entry 192 16 * 65536 else 0) ∧ u.height = if c.isVideo then field entry 208 16 * 65536 else 0

/-- The size in `tkhd` is that of the sample entry, as a fixed point number. -/
theorem iso_size (info : CodecInfo) (c : Codec) (typ entry : Bytes) (hv : c.isVideo = true) (h : sampleEntry info c = .ok (typ, entry)) :
    FMP4.u32 (info.width * 65536) = field entry 192 16 * 65536 ∧ FMP4.u32 (info.height * 65536) = field entry 208 16 * 65536 := by
  have key : ∀ w h : Int, FMP4.u32 (w * 65536) = field (encodeVisual (u16 w) (u16 h)) 192 16 * 65536 ∧
      FMP4.u32 (h * 65536) = field (encodeVisual (u16 w) (u16 h)) 208 16 * 65536 := by
    intro w h
    have b : ∀ v : Int, u16 v < 2 ^ 16 := fun v => by unfold u16; omega
    unfold encodeVisual
    rw [field_pack' _ 192 16 (u16 w) (by simp [widths]) (by rfl) (b w), field_pack' _ 208 16 (u16 h) (by simp [widths]) (by rfl) (b h)]
    unfold FMP4.u32 u16
    omega
  have e : entry = encodeVisual (u16 info.width) (u16 info.height) := by
    cases c <;> first | exact absurd hv Bool.false_ne_true | (cases h; rfl)
  rw [e]
  exact key _ _

theorem iso_samples_mem (u : Spec.ISO.Track) : ∀ (ds os : List Int) (ls : List (Nat × Nat)) (i : Nat), ∀ x ∈ samplesFrom u i ds os ls,
    (x.offset, x.size) ∈ ls := by
  intro ds
  induction ds with
  | nil => intro os ls i x hx; simp [samplesFrom] at hx
  | cons d ds ih =>
    intro os ls i x hx
    cases os with
    | nil => simp [samplesFrom] at hx
    | cons o os =>
      cases ls with
      | nil => simp [samplesFrom] at hx
      | cons l ls =>
        simp only [samplesFrom, List.mem_cons] at hx
        rcases hx with rfl | hx
        · exact List.mem_cons_self
        · exact List.mem_cons_of_mem _ (ih os ls (i + 1) x hx)

theorem iso_means (file : Bytes) (d : Nat) (x : PMP4File.Track × FileParts) (t : PMP4File.Track) (h : IsoPlaced file d x t)
    (hl : file.length < 2 ^ 32) : IsoMeans file t (isoTrack x.1.toTrack x.2 (shiftChunks d (marshalSTCO x.1.samples))) := by
  have hlen : x.1.samples.length < 2 ^ 32 := by
    have := h.writable.count
    have : maxSamples < 2 ^ 32 := by decide
    generalize maxSamples = m at *; omega
  have e1 : x.1.id = t.id := by have := congrArg PMP4.Track.id h.same; exact this
  have e2 : x.1.timeScale = t.timeScale := by have := congrArg PMP4.Track.timeScale h.same; exact this
  have e3 : x.1.samples.map unplaced = t.samples.map unplaced := congrArg PMP4.Track.samples h.same
  have hstts : expand (runPairs x.2.stts) = x.1.samples.map (·.duration) := by
    obtain ⟨r, e, h2, _⟩ := C45_stts x.1.samples hlen
    rw [h.written.stts] at e; cases e; exact h2
  have hctts : expand (runPairs x.2.ctts) = x.1.samples.map (·.ptsOffset) := by
    obtain ⟨r, e, h2, _⟩ := C45_ctts x.1.samples hlen
    rw [h.written.ctts] at e; cases e; exact h2
  have hloc := iso_locations x.1.samples d x.2.stsc hlen (fun sa hsa => by have := (h.placed sa hsa).1; omega) h.written.stsc
  generalize hu : isoTrack x.1.toTrack x.2 (shiftChunks d (marshalSTCO x.1.samples)) = u
  have u1 : expand u.stts = x.1.samples.map (·.duration) := by rw [← hu]; exact hstts
  have u2 : u.offsets = x.1.samples.map (·.ptsOffset) := by rw [← hu]; exact hctts
  have u3 : u.locations = x.1.samples.map fun sa => (sa.offset + d, sa.payloadSize) := by
    rw [← hloc, ← hu]
    unfold Spec.ISO.Track.locations isoTrack stscPairs
    dsimp only
    rw [List.map_map]
    rfl
  have u4 : u.sizes = x.1.samples.map (·.payloadSize) := by rw [← hu]; rfl
  have u5 : u.stss = marshalSTSS x.1.samples := by rw [← hu]; rfl
  refine ⟨by rw [← hu]; exact e1, by rw [← hu]; exact ⟨rfl, rfl, iso_language⟩, by rw [← hu]; exact e2, ?_, ?_, ?_, ?_⟩
  · unfold Spec.ISO.Track.Consistent
    rw [u1, u2, u3, u4]
    simp only [List.length_map, and_self]
  · unfold Spec.ISO.Track.samples
    rw [u1, u2, u3, iso_samplesFrom file u d x.1.samples 0 0 (fun k hk => by rw [Nat.zero_add]; exact iso_sync u _ hlen u5 k hk)
      fun sa hsa => (h.placed sa hsa).2, ← iso_given_unplaced, e3, iso_given_unplaced]
  · intro y hy
    have := iso_samples_mem u _ _ _ _ y hy
    rw [u3] at this
    obtain ⟨sa, hsa, e⟩ := List.mem_map.1 this
    have := (h.placed sa hsa).1
    cases y
    simp only [Prod.mk.injEq] at e
    dsimp only
    omega
  · have w := h.written.written
    refine ⟨x.2.codec, x.2.typ, x.2.entry, x.2.ctyp, x.2.config, by rw [← h.codec]; exact h.written.codec, ?_, ?_, ?_, ?_, ?_, ?_, ?_, ?_, ?_, ?_⟩
    · rw [← e1]
      exact ⟨x.2.info, w.filled, w.entries, w.configs⟩
    · rw [← hu]; rfl
    · intro e he
      rw [← hu] at he
      obtain ⟨_, _, rfl⟩ := List.mem_map.1 he
      rfl
    · rw [← hu]; rfl
    · rw [← hu]; rfl
    · rw [← hu]; exact iso_name _
    · rw [← hu]; rfl
    · rw [← hu]; rfl
    · rw [← hu]
      unfold isoTrack
      dsimp only
      split
      · exact (iso_size _ _ _ _ ‹_› w.entries).1
      · rfl
    · rw [← hu]
      unfold isoTrack
      dsimp only
      split
      · exact (iso_size _ _ _ _ ‹_› w.entries).2
      · rfl

/-- **C86.** A file that is written is a movie, with a track for each track that is given, in the same order. A track has the identifier and
the time scale that were given; its tables agree on the number of samples, and list exactly the samples that were given, with their decoding and
composition times and sync flags; the bytes at the places that the tables say are the payloads; the only description has the codec that was
given, and the kind of media and the size of the picture are those of the codec. -/
theorem C86_movie (ts : List PMP4File.Track) (file : Bytes) (hg : ∀ t ∈ ts, FileGood t) (h : PMP4File.marshal ts = .ok file)
    (hl : file.length < 2 ^ 32) :
    ∃ m, readMovie file = some m ∧ m.timeScale = 1000 ∧ m.rate = 65536 ∧ m.volume = 256 ∧
      m.matrix = [65536, 0, 0, 0, 65536, 0, 0, 0, 1073741824] ∧ m.tracks.length = ts.length ∧
      ∀ (i : Nat) t u, ts[i]? = some t → m.tracks[i]? = some u → IsoMeans file t u := by
  obtain ⟨xs, pre, data, hf, hm, hlen, hx⟩ := iso_movie ts file hg h hl
  refine ⟨_, hm, rfl, rfl, rfl, rfl, ?_, fun i t u ht hu => ?_⟩
  · unfold isoMovie; rw [List.length_map, hlen]
  · unfold isoMovie at hu
    rw [List.getElem?_map] at hu
    obtain ⟨x, hxi, rfl⟩ := Option.map_eq_some_iff.1 hu
    exact iso_means file _ x t (hx i x t hxi ht) hl

/-! ## Presentation -/

theorem iso_sum (l : List PMP4.Sample) : ∀ a, a + (l.map (·.duration)).sum < 2 ^ 32 → sumDurations a l = a + (l.map (·.duration)).sum := by
  induction l with
  | nil => intro a _; rfl
  | cons sa l ih =>
    intro a h
    rw [List.map_cons, List.sum_cons] at h ⊢
    unfold sumDurations
    rw [Nat.mod_eq_of_lt (by omega), ih _ (by omega)]
    omega

theorem iso_durations (l k : List PMP4.Sample) (h : l.map unplaced = k.map unplaced) : l.map (·.duration) = k.map (·.duration) := by
  have := congrArg (List.map fun x : PMP4.Sample => x.duration) h
  rw [List.map_map, List.map_map] at this
  exact this

/-- What the movie says of the track `t`, in terms of the track itself. -/
structure IsoHead (t : PMP4.Track) (u : Spec.ISO.Track) : Prop where
  timeScale : u.timeScale = t.timeScale
  edits : ∃ l, marshalELST t = .ok l ∧ u.edits = some (l.map fun e => ⟨e.segmentDuration, e.mediaTime, 65536⟩)
  duration : PMP4.presentationDuration t = .ok u.duration
  media : u.mediaDuration = mediaDuration t
  stts : expand u.stts = t.samples.map (·.duration)
  id : u.id = t.id

theorem iso_sumDurations (l : List PMP4.Sample) : ∀ a, sumDurations a (l.map unplaced) = sumDurations a l := by
  induction l with
  | nil => intro a; rfl
  | cons sa l ih => intro a; simp only [List.map_cons, sumDurations, ih]; rfl

theorem iso_unplaced_elst (t : PMP4.Track) : marshalELST { t with samples := t.samples.map unplaced } = marshalELST t ∧
    PMP4.presentationDuration { t with samples := t.samples.map unplaced } = PMP4.presentationDuration t ∧
    mediaDuration { t with samples := t.samples.map unplaced } = mediaDuration t := by
  refine ⟨?_, ?_, ?_⟩
  · unfold marshalELST
    simp only [iso_sumDurations]
  · unfold PMP4.presentationDuration
    simp only [iso_sumDurations]
  · unfold mediaDuration
    simp only [iso_sumDurations]

theorem iso_head (file : Bytes) (d : Nat) (x : PMP4File.Track × FileParts) (t : PMP4File.Track) (h : IsoPlaced file d x t) :
    IsoHead t.toTrack (isoTrack x.1.toTrack x.2 (shiftChunks d (marshalSTCO x.1.samples))) := by
  have hlen : x.1.samples.length < 2 ^ 32 := by
    have := h.writable.count
    have : maxSamples < 2 ^ 32 := by decide
    generalize maxSamples = m at *; omega
  obtain ⟨a1, a2, a3⟩ := iso_unplaced_elst x.1.toTrack
  obtain ⟨b1, b2, b3⟩ := iso_unplaced_elst t.toTrack
  rw [h.same] at a1 a2 a3
  refine ⟨?_, ⟨x.2.elst, ?_, rfl⟩, ?_, ?_, ?_, ?_⟩
  · have := congrArg PMP4.Track.timeScale h.same; exact this
  · rw [← b1, a1]; exact h.written.elst
  · rw [← b2, a2]; exact h.written.duration
  · rw [← b3, a3]; rfl
  · obtain ⟨r, e, h2, _⟩ := C45_stts x.1.samples hlen
    rw [h.written.stts] at e; cases e
    rw [← iso_durations x.1.samples t.samples (congrArg PMP4.Track.samples h.same)]
    exact h2
  · have := congrArg PMP4.Track.id h.same; exact this

/-- The tracks of the movie, from which C87 and C88 follow. -/
theorem iso_heads (ts : List PMP4File.Track) (file : Bytes) (hg : ∀ t ∈ ts, FileGood t) (h : PMP4File.marshal ts = .ok file)
    (hl : file.length < 2 ^ 32) (m : Movie) (hm : readMovie file = some m) :
    m.timeScale = 1000 ∧ m.nextTrackID = ts.length + 1 ∧ m.duration = (m.tracks.map (·.duration)).foldl max 0 ∧ m.tracks.length = ts.length ∧
      ∀ (i : Nat) t u, ts[i]? = some t → m.tracks[i]? = some u → IsoHead t.toTrack u := by
  obtain ⟨xs, pre, data, hf, hm', hlen, hx⟩ := iso_movie ts file hg h hl
  rw [hm] at hm'
  cases hm'
  refine ⟨rfl, ?_, ?_, ?_, fun i t u ht hu => ?_⟩
  · unfold isoMovie; rw [hlen]
  · unfold isoMovie
    dsimp only
    rw [List.map_map]
    rfl
  · unfold isoMovie; rw [List.length_map, hlen]
  · unfold isoMovie at hu
    rw [List.getElem?_map] at hu
    obtain ⟨x, hxi, rfl⟩ := Option.map_eq_some_iff.1 hu
    exact iso_head file _ x t (hx i x t hxi ht)

/-- Total duration of the samples that are given. -/
def totalGiven (t : PMP4.Track) : Nat := (t.samples.map (·.duration)).sum

/-- The presentation fits the fields of the edit list. -/
structure EditsFit (t : PMP4.Track) : Prop where
  timeScale : t.timeScale ≠ 0
  timeOffset : -(2 ^ 31) < t.timeOffset ∧ t.timeOffset < 2 ^ 31
  total : totalGiven t < 2 ^ 32
  fits : (totalGiven t + t.timeOffset.natAbs) * 1000 < 2 ^ 32 * t.timeScale

/-- The edits, without overflows. -/
theorem iso_edits_given (t : PMP4.Track) (h : EditsFit t) : ∃ a b : Nat,
    if 0 < t.timeOffset then marshalELST t = .ok [⟨a, -1⟩, ⟨b, 0⟩] ∧ (a * t.timeScale : Int) ≤ t.timeOffset * 1000 ∧
        t.timeOffset * 1000 < a * t.timeScale + t.timeScale ∧ (b * t.timeScale : Int) ≤ totalGiven t * 1000 ∧
        (totalGiven t * 1000 : Int) < b * t.timeScale + t.timeScale
      else marshalELST t = .ok [⟨b, -t.timeOffset⟩] ∧ (b * t.timeScale : Int) ≤ (totalGiven t - t.timeOffset) * 1000 ∧
        (totalGiven t - t.timeOffset) * 1000 < (b * t.timeScale + t.timeScale : Int) := by
  have hd : sumDurations 0 t.samples = totalGiven t := by
    have := h.total
    unfold totalGiven at this ⊢
    rw [iso_sum _ 0 (by omega), Nat.zero_add]
  obtain ⟨h1, h2, h3, h4⟩ := h
  have hpos : 0 < t.timeScale := by omega
  have key : ∀ n : Nat, n * 1000 < 2 ^ 32 * t.timeScale → n * 1000 / t.timeScale % 2 ^ 32 * t.timeScale ≤ n * 1000 ∧
      n * 1000 < n * 1000 / t.timeScale % 2 ^ 32 * t.timeScale + t.timeScale := by
    intro n hn
    have : n * 1000 / t.timeScale < 2 ^ 32 := by rw [Nat.div_lt_iff_lt_mul hpos]; exact hn
    rw [Nat.mod_eq_of_lt this]
    have e := Nat.div_add_mod (n * 1000) t.timeScale
    have l := Nat.mod_lt (n * 1000) hpos
    rw [Nat.mul_comm] at e
    omega
  by_cases hp : 0 < t.timeOffset
  · obtain ⟨o, ho⟩ := Int.eq_ofNat_of_zero_le (Int.le_of_lt hp)
    refine ⟨o * 1000 / t.timeScale % 2 ^ 32, totalGiven t * 1000 / t.timeScale % 2 ^ 32, ?_⟩
    rw [if_pos hp, pmp4_elst_late t o _ h1 ho (by omega) (by omega) hd h3, ho]
    rw [ho, Int.natAbs_natCast] at h4
    obtain ⟨k1, k2⟩ := key o (Nat.lt_of_le_of_lt (Nat.mul_le_mul_right _ (Nat.le_add_left _ _)) h4)
    obtain ⟨k3, k4⟩ := key (totalGiven t) (Nat.lt_of_le_of_lt (Nat.mul_le_mul_right _ (Nat.le_add_right _ _)) h4)
    refine ⟨rfl, ?_, ?_, ?_, ?_⟩
    · have := Int.ofNat_le.2 k1; simp only [Int.natCast_mul] at this ⊢; exact this
    · have := Int.ofNat_lt.2 k2; simp only [Int.natCast_mul, Int.natCast_add] at this ⊢; exact this
    · have := Int.ofNat_le.2 k3; simp only [Int.natCast_mul] at this ⊢; exact this
    · have := Int.ofNat_lt.2 k4; simp only [Int.natCast_mul, Int.natCast_add] at this ⊢; exact this
  · obtain ⟨o, ho⟩ : ∃ o : Nat, t.timeOffset = -(o : Int) := ⟨t.timeOffset.natAbs, by omega⟩
    refine ⟨0, (totalGiven t + o) * 1000 / t.timeScale % 2 ^ 32, ?_⟩
    rw [if_neg hp, pmp4_elst_early t o _ h1 ho (by omega) hd h3, ho]
    rw [ho, Int.natAbs_neg, Int.natAbs_natCast] at h4
    obtain ⟨k1, k2⟩ := key (totalGiven t + o) h4
    refine ⟨by rw [Int.neg_neg], ?_, ?_⟩
    · have := Int.ofNat_le.2 k1
      rw [Int.sub_neg]
      simp only [Int.natCast_mul, Int.natCast_add] at this ⊢; exact this
    · have := Int.ofNat_lt.2 k2
      rw [Int.sub_neg]
      simp only [Int.natCast_mul, Int.natCast_add] at this ⊢; exact this

/-- What is presented, by cases. -/
theorem iso_presentedAt (m : Movie) (t : PMP4.Track) (u : Spec.ISO.Track) (h1 : m.timeScale = 1000) (h : IsoHead t u) (hf : EditsFit t) (c : Int) :
    ∃ a b : Nat, if 0 < t.timeOffset then
        u.presentedAt m c = (if 0 ≤ c ∧ c * 1000 < b * t.timeScale then some (a * t.timeScale + c * 1000) else none) ∧
        (a * t.timeScale : Int) ≤ t.timeOffset * 1000 ∧ t.timeOffset * 1000 < a * t.timeScale + t.timeScale ∧
        (b * t.timeScale : Int) ≤ totalGiven t * 1000 ∧ (totalGiven t * 1000 : Int) < b * t.timeScale + t.timeScale
      else u.presentedAt m c = (if -t.timeOffset ≤ c ∧ (c + t.timeOffset) * 1000 < b * t.timeScale then some ((c + t.timeOffset) * 1000) else none) ∧
        (b * t.timeScale : Int) ≤ (totalGiven t - t.timeOffset) * 1000 ∧
        (totalGiven t - t.timeOffset) * 1000 < (b * t.timeScale + t.timeScale : Int) := by
  obtain ⟨a, b, hab⟩ := iso_edits_given t hf
  refine ⟨a, b, ?_⟩
  obtain ⟨l, hl, he⟩ := h.edits
  by_cases hp : 0 < t.timeOffset
  · rw [if_pos hp] at hab ⊢
    obtain ⟨k1, k2⟩ := hab
    refine ⟨?_, k2⟩
    rw [k1] at hl
    cases hl
    unfold Spec.ISO.Track.presentedAt
    rw [he]
    simp only [List.map_cons, List.map_nil, presented, h1, h.timeScale]
    rw [if_neg (by omega)]
    simp only [Int.sub_zero, Nat.zero_add, ne_eq, true_and, show ¬ (0 : Int) = -1 by decide, not_false_eq_true]
    rfl
  · rw [if_neg hp] at hab ⊢
    obtain ⟨k1, k2⟩ := hab
    refine ⟨?_, k2⟩
    rw [k1] at hl
    cases hl
    unfold Spec.ISO.Track.presentedAt
    rw [he]
    simp only [List.map_cons, List.map_nil, presented, h1, h.timeScale]
    rw [Int.sub_neg]
    simp only [ne_eq, true_and, show ¬ -t.timeOffset = -1 by omega, not_false_eq_true]
    simp

/-- A movie that was written, and one of its tracks. -/
structure WrittenMovie (ts : List PMP4File.Track) (file : Bytes) (m : Movie) (i : Nat) (t : PMP4File.Track) (u : Spec.ISO.Track) : Prop where
  good : ∀ t ∈ ts, FileGood t
  written : PMP4File.marshal ts = .ok file
  short : file.length < 2 ^ 32
  movie : readMovie file = some m
  given : ts[i]? = some t
  track : m.tracks[i]? = some u

theorem iso_written {ts : List PMP4File.Track} {file : Bytes} {m : Movie} {i : Nat} {t : PMP4File.Track} {u : Spec.ISO.Track}
    (h : WrittenMovie ts file m i t u) : m.timeScale = 1000 ∧ IsoHead t.toTrack u := by
  obtain ⟨h1, _, _, _, h2⟩ := iso_heads ts file h.good h.written h.short m h.movie
  exact ⟨h1, h2 i t u h.given h.track⟩

/-- **C87.** What is presented is presented at the time that was given, which is the composition time plus the time offset, less than one
millisecond early and never late; exactly, when the time offset is not positive. Times are in units of `1 / (1000 * timeScale)` seconds. -/
theorem C87_times_partial {ts : List PMP4File.Track} {file : Bytes} {m : Movie} {i : Nat} {t : PMP4File.Track} {u : Spec.ISO.Track}
    (h : WrittenMovie ts file m i t u) (hf : EditsFit t.toTrack) (c p : Int) (hp : u.presentedAt m c = some p) :
    p ≤ (c + t.timeOffset) * 1000 ∧ (c + t.timeOffset) * 1000 < p + t.timeScale ∧ (t.timeOffset ≤ 0 → p = (c + t.timeOffset) * 1000) ∧ 0 ≤ p := by
  obtain ⟨h1, h2⟩ := iso_written h
  obtain ⟨a, b, k⟩ := iso_presentedAt m t.toTrack u h1 h2 hf c
  have hts : 0 < t.timeScale := Nat.pos_of_ne_zero hf.timeScale
  rw [hp] at k
  by_cases ho : 0 < t.timeOffset
  · rw [if_pos ho] at k
    obtain ⟨k1, k2, k3, k4⟩ := k
    have hnn : (0 : Int) ≤ a * t.timeScale := Int.mul_nonneg (Int.natCast_nonneg _) (Int.natCast_nonneg _)
    generalize (a * t.timeScale : Int) = A at *
    split at k1
    · cases k1
      omega
    · cases k1
  · rw [if_neg ho] at k
    obtain ⟨k1, k2, k3⟩ := k
    split at k1
    · cases k1
      omega
    · cases k1

/-- **C87.** Media that is not before the presentation starts, and that comes at least one millisecond before the end of the media, is
presented. -/
theorem C87_shown_partial {ts : List PMP4File.Track} {file : Bytes} {m : Movie} {i : Nat} {t : PMP4File.Track} {u : Spec.ISO.Track}
    (h : WrittenMovie ts file m i t u) (hf : EditsFit t.toTrack) (c : Int) (h0 : 0 ≤ c) (h1 : 0 ≤ c + t.timeOffset)
    (he : c * 1000 + t.timeScale ≤ totalGiven t.toTrack * 1000) : (u.presentedAt m c).isSome := by
  obtain ⟨g1, g2⟩ := iso_written h
  obtain ⟨a, b, k⟩ := iso_presentedAt m t.toTrack u g1 g2 hf c
  by_cases ho : 0 < t.timeOffset
  · rw [if_pos ho] at k
    obtain ⟨k1, k2, k3, k4, k5⟩ := k
    rw [k1, if_pos ⟨h0, by generalize (b * t.timeScale : Int) = A at *; omega⟩]
    rfl
  · rw [if_neg ho] at k
    obtain ⟨k1, k2, k3⟩ := k
    rw [k1, if_pos ⟨by omega, by generalize (b * t.timeScale : Int) = A at *; omega⟩]
    rfl

/-- Media before the start of the presentation is not presented. -/
theorem C87_early_partial {ts : List PMP4File.Track} {file : Bytes} {m : Movie} {i : Nat} {t : PMP4File.Track} {u : Spec.ISO.Track}
    (h : WrittenMovie ts file m i t u) (hf : EditsFit t.toTrack) (c : Int) (h1 : c < 0 ∨ c + t.timeOffset < 0) : u.presentedAt m c = none := by
  obtain ⟨g1, g2⟩ := iso_written h
  obtain ⟨a, b, k⟩ := iso_presentedAt m t.toTrack u g1 g2 hf c
  by_cases ho : 0 < t.timeOffset
  · rw [if_pos ho] at k
    rw [k.1, if_neg (by omega)]
  · rw [if_neg ho] at k
    rw [k.1, if_neg (by omega)]

/-- **C87** is false: when the time offset is not negative, samples whose composition time is the sum of the durations or more, as the last
samples of streams with reordered frames, are never presented, because the edit ends with the decoding times. -/
theorem C87_late_false {ts : List PMP4File.Track} {file : Bytes} {m : Movie} {i : Nat} {t : PMP4File.Track} {u : Spec.ISO.Track}
    (h : WrittenMovie ts file m i t u) (hf : EditsFit t.toTrack) (ho : 0 ≤ t.timeOffset) (c : Int) (hc : totalGiven t.toTrack ≤ c) :
    u.presentedAt m c = none := by
  obtain ⟨g1, g2⟩ := iso_written h
  obtain ⟨a, b, k⟩ := iso_presentedAt m t.toTrack u g1 g2 hf c
  by_cases ho : 0 < t.timeOffset
  · rw [if_pos ho] at k
    rw [k.1, if_neg (by generalize (b * t.timeScale : Int) = A at *; omega)]
  · rw [if_neg ho] at k
    have : t.timeOffset = 0 := by omega
    rw [this] at k
    rw [k.1, if_neg (by generalize (b * t.timeScale : Int) = A at *; omega)]

/-! ## Headers -/

theorem iso_foldl_le (l : List Nat) : ∀ d, d ≤ l.foldl max d ∧ (∀ x ∈ l, x ≤ l.foldl max d) ∧ (l.foldl max d = d ∨ l.foldl max d ∈ l) := by
  induction l with
  | nil => intro d; exact ⟨Nat.le_refl _, fun x hx => (by cases hx), Or.inl rfl⟩
  | cons x l ih =>
    intro d
    rw [List.foldl_cons]
    obtain ⟨h1, h2, h3⟩ := ih (max d x)
    refine ⟨by omega, fun y hy => ?_, ?_⟩
    · rcases List.mem_cons.1 hy with rfl | hy
      · omega
      · exact h2 y hy
    · rcases h3 with h3 | h3
      · rcases Nat.le_total d x with hx | hx
        · rw [Nat.max_eq_right hx] at h3 ⊢
          rw [h3]; exact Or.inr List.mem_cons_self
        · rw [Nat.max_eq_left hx] at h3 ⊢
          exact Or.inl h3
      · exact Or.inr (List.mem_cons_of_mem _ h3)

/-- **C88.** The duration of the movie is that of its longest track. -/
theorem C88_longest_partial (ts : List PMP4File.Track) (file : Bytes) (hg : ∀ t ∈ ts, FileGood t) (h : PMP4File.marshal ts = .ok file)
    (hl : file.length < 2 ^ 32) (m : Movie) (hm : readMovie file = some m) :
    (∀ u ∈ m.tracks, u.duration ≤ m.duration) ∧ (m.tracks ≠ [] → ∃ u ∈ m.tracks, u.duration = m.duration) := by
  obtain ⟨_, _, hd, _⟩ := iso_heads ts file hg h hl m hm
  obtain ⟨_, h2, h3⟩ := iso_foldl_le (m.tracks.map (·.duration)) 0
  rw [← hd] at h2 h3
  refine ⟨fun u hu => h2 _ (List.mem_map.2 ⟨u, hu, rfl⟩), fun hne => ?_⟩
  rcases h3 with h3 | h3
  · cases ht : m.tracks with
    | nil => exact absurd ht hne
    | cons u l =>
      refine ⟨u, List.mem_cons_self, ?_⟩
      have := h2 u.duration (List.mem_map.2 ⟨u, by rw [ht]; exact List.mem_cons_self, rfl⟩)
      omega
  · obtain ⟨u, hu, e⟩ := List.mem_map.1 h3
    exact ⟨u, hu, e⟩

/-- **C88.** The duration of a track is that of its samples and of its time offset, rounded down to a millisecond, when it starts at zero or
later. -/
theorem C88_duration_partial {ts : List PMP4File.Track} {file : Bytes} {m : Movie} {i : Nat} {t : PMP4File.Track} {u : Spec.ISO.Track}
    (h : WrittenMovie ts file m i t u) (hf : EditsFit t.toTrack) (ho : 0 ≤ t.timeOffset) :
    u.duration * t.timeScale ≤ (totalGiven t.toTrack + t.timeOffset.toNat) * 1000 ∧
      (totalGiven t.toTrack + t.timeOffset.toNat) * 1000 < u.duration * t.timeScale + t.timeScale := by
  obtain ⟨_, g2⟩ := iso_written h
  obtain ⟨o, e⟩ := Int.eq_ofNat_of_zero_le ho
  have hd : sumDurations 0 t.samples = totalGiven t.toTrack := by
    have := hf.total
    unfold totalGiven at this ⊢
    rw [iso_sum _ 0 (by omega), Nat.zero_add]
  have hpd := pmp4_presentation t.toTrack o _ hf.timeScale e (by have := hf.timeOffset; omega) hd hf.total
  rw [g2.duration] at hpd
  have hfit := hf.fits
  rw [e] at hfit ⊢
  rw [Int.natAbs_natCast] at hfit
  have hpos : 0 < t.timeScale := Nat.pos_of_ne_zero hf.timeScale
  have hlt : (totalGiven t.toTrack + o) * 1000 / t.timeScale < 2 ^ 32 := by rw [Nat.div_lt_iff_lt_mul hpos]; exact hfit
  rw [Nat.mod_eq_of_lt hlt] at hpd
  injection hpd with hpd
  rw [hpd, show ((o : Int)).toNat = o from rfl]
  have e := Nat.div_add_mod ((totalGiven t.toTrack + o) * 1000) t.timeScale
  have l := Nat.mod_lt ((totalGiven t.toTrack + o) * 1000) hpos
  rw [Nat.mul_comm] at e
  generalize (totalGiven t.toTrack + o) * 1000 / t.timeScale * t.timeScale = X at *
  omega

/-- **C88.** The duration of the media, in `mdhd`, is that of the samples when the time offset is zero, and only then: the time offset, that is
not part of the media (ISO 14496-12 8.4.2), is added to it. -/
theorem C88_media_partial {ts : List PMP4File.Track} {file : Bytes} {m : Movie} {i : Nat} {t : PMP4File.Track} {u : Spec.ISO.Track}
    (h : WrittenMovie ts file m i t u) (hs : totalGiven t.toTrack < 2 ^ 32) :
    u.mediaDuration = (expand u.stts).sum ↔ t.timeOffset = 0 := by
  obtain ⟨_, g2⟩ := iso_written h
  have hw := (h.good t (List.mem_of_getElem? h.given)).writable.timeOffset
  have hd : sumDurations 0 t.samples = totalGiven t.toTrack := by
    unfold totalGiven at hs ⊢
    rw [iso_sum _ 0 (by omega), Nat.zero_add]
  rw [g2.stts, g2.media]
  unfold mediaDuration
  rw [hd]
  show _ = totalGiven t.toTrack ↔ _
  have : t.toTrack.timeOffset = t.timeOffset := rfl
  generalize totalGiven t.toTrack = n at *
  constructor <;> intro h <;> omega

/-- **C88.** When tracks are numbered from 1 on, the identifier of the next track is larger than all of them. -/
theorem C88_next_partial (ts : List PMP4File.Track) (file : Bytes) (hg : ∀ t ∈ ts, FileGood t) (h : PMP4File.marshal ts = .ok file)
    (hl : file.length < 2 ^ 32) (m : Movie) (hm : readMovie file = some m) :
    (∀ u ∈ m.tracks, u.id < m.nextTrackID) ↔ ∀ t ∈ ts, t.id ≤ ts.length := by
  obtain ⟨_, hn, _, hlen, ht⟩ := iso_heads ts file hg h hl m hm
  rw [hn]
  constructor
  · intro h t htm
    obtain ⟨i, hi, rfl⟩ := List.mem_iff_getElem.1 htm
    have e := ht i ts[i] (m.tracks[i]'(by omega)) (List.getElem?_eq_getElem hi) (List.getElem?_eq_getElem (by omega))
    have := h _ (List.getElem_mem (by omega : i < m.tracks.length))
    rw [e.id] at this
    exact Nat.le_of_lt_succ this
  · intro h u hum
    obtain ⟨i, hi, rfl⟩ := List.mem_iff_getElem.1 hum
    have e := ht i (ts[i]'(by omega)) m.tracks[i] (List.getElem?_eq_getElem (by omega)) (List.getElem?_eq_getElem hi)
    rw [e.id]
    exact Nat.lt_succ_of_le (h _ (List.getElem_mem (by omega : i < ts.length)))

/-! ## Examples -/

theorem iso_example_good : ∀ t ∈ fileExample, FileGood t := by
  have hm : 2 ≤ maxSamples ∧ 3 ≤ maxSamples := by decide
  intro t ht
  simp only [fileExample, List.mem_cons, List.not_mem_nil, or_false] at ht
  rcases ht with rfl | rfl
  · exact ⟨⟨by decide, by decide, by decide, hm.1, by decide, by decide⟩, by decide, by decide, fun c hc => by cases hc; exact ⟨by decide, by decide⟩⟩
  · exact ⟨⟨by decide, by decide, by decide, hm.2, by decide, by decide⟩, by decide, by decide, fun c hc => by cases hc; exact ⟨by decide, by decide⟩⟩

theorem iso_file_of (ts : List PMP4File.Track)
    (h : (PMP4File.marshal ts).bind (fun f => if f.length < 2 ^ 32 then .ok () else .err "") = .ok ()) :
    ∃ file, PMP4File.marshal ts = .ok file ∧ file.length < 2 ^ 32 := by
  obtain ⟨f, hf, h⟩ := Res.bind_eq_ok.1 h
  refine ⟨f, hf, ?_⟩
  by_cases hl : f.length < 2 ^ 32
  · exact hl
  · rw [if_neg hl] at h; cases h

/-- The second track of the example, which starts 20 ms late. -/
example : ∃ file m t u, WrittenMovie fileExample file m 1 t u ∧ EditsFit t.toTrack ∧ 0 < t.timeOffset := by
  obtain ⟨file, h1, h2⟩ := iso_file_of fileExample (by decide +kernel)
  obtain ⟨m, h3, _, _, _, _, h4, _⟩ := C86_movie _ file iso_example_good h1 h2
  have : 1 < m.tracks.length := by rw [h4]; decide
  exact ⟨file, m, _, _, ⟨iso_example_good, h1, h2, h3, rfl, List.getElem?_eq_getElem this⟩, ⟨by decide, by decide, by decide, by decide⟩, by decide⟩

/-- Frames that are reordered: the second one is presented last. -/
def reorderedTrack : PMP4File.Track :=
  ⟨⟨5, 90000, 0, [⟨3000, 3000, false, 1, [1], 0⟩, ⟨3000, 6000, true, 1, [2], 0⟩, ⟨3000, 0, true, 1, [3], 0⟩]⟩, some (.mjpeg 640 480)⟩

def reorderedExample : List PMP4File.Track := [reorderedTrack]

/-- The first track of `fileExample`. -/
def earlyExample : PMP4File.Track :=
  ⟨⟨1, 90000, -90000, [⟨90000, 45000, false, 2, [1, 2], 0⟩, ⟨90000, -45000, true, 3, [3, 4, 5], 0⟩]⟩, some (.mjpeg 640 480)⟩

theorem iso_reordered_good : ∀ t ∈ reorderedExample, FileGood t := by
  have hm : 3 ≤ maxSamples := by decide
  intro t ht
  simp only [reorderedExample, List.mem_cons, List.not_mem_nil, or_false] at ht
  rcases ht with rfl
  exact ⟨⟨by decide, by decide, by decide, hm, by decide, by decide⟩, by decide, by decide, fun c hc => by cases hc; exact ⟨by decide, by decide⟩⟩

/-- **C87** is false: a sample of this movie, that follows another one that is presented, is never presented. **C88** is false: the track has
the identifier 5, and that of the next track is 2. -/
theorem C87_false : ∃ file m u x, WrittenMovie reorderedExample file m 0 reorderedTrack u ∧ x ∈ u.samples ∧ x.composition = 9000 ∧
    u.presentedAt m x.composition = none := by
  obtain ⟨file, h1, h2⟩ := iso_file_of reorderedExample (by decide +kernel)
  obtain ⟨m, h3, _, _, _, _, h4, h5⟩ := C86_movie _ file iso_reordered_good h1 h2
  have : 0 < m.tracks.length := by rw [h4]; decide
  have w : WrittenMovie reorderedExample file m 0 reorderedTrack m.tracks[0] :=
    ⟨iso_reordered_good, h1, h2, h3, rfl, List.getElem?_eq_getElem this⟩
  have hs := (h5 0 _ _ w.given w.track).samples
  have hmem : ((3000, 9000, false, [2]) : Int × Int × Bool × Bytes) ∈ m.tracks[0].samples.map
      (fun x => (x.decoding, x.composition, x.sync, x.bytes file)) := by rw [hs]; decide
  obtain ⟨x, hx, e⟩ := List.mem_map.1 hmem
  simp only [Prod.mk.injEq] at e
  refine ⟨file, m, _, x, w, hx, e.2.1, ?_⟩
  rw [e.2.1]
  exact C87_late_false w ⟨by decide, by decide, by decide, by decide⟩ (by decide) _ (by decide)

theorem C88_next_false : ∃ file m u, WrittenMovie reorderedExample file m 0 reorderedTrack u ∧ u.id = 5 ∧ m.nextTrackID = 2 := by
  obtain ⟨file, h1, h2⟩ := iso_file_of reorderedExample (by decide +kernel)
  obtain ⟨m, h3, _, _, _, _, h4, h5⟩ := C86_movie _ file iso_reordered_good h1 h2
  have : 0 < m.tracks.length := by rw [h4]; decide
  have w : WrittenMovie reorderedExample file m 0 reorderedTrack m.tracks[0] :=
    ⟨iso_reordered_good, h1, h2, h3, rfl, List.getElem?_eq_getElem this⟩
  exact ⟨file, m, _, w, (h5 0 _ _ w.given w.track).id, (iso_heads _ file iso_reordered_good h1 h2 m h3).2.1⟩

/-- **C88** is false: the media of the first track of the example lasts two seconds, and its header says one. -/
theorem C88_media_false : ∃ file m u, WrittenMovie fileExample file m 0 earlyExample u ∧ (expand u.stts).sum = 180000 ∧ u.mediaDuration = 90000 := by
  obtain ⟨file, h1, h2⟩ := iso_file_of fileExample (by decide +kernel)
  obtain ⟨m, h3, _, _, _, _, h4, _⟩ := C86_movie _ file iso_example_good h1 h2
  have : 0 < m.tracks.length := by rw [h4]; decide
  have w : WrittenMovie fileExample file m 0 earlyExample m.tracks[0] := ⟨iso_example_good, h1, h2, h3, rfl, List.getElem?_eq_getElem this⟩
  obtain ⟨_, g⟩ := iso_written w
  refine ⟨file, m, _, w, ?_, ?_⟩
  · rw [g.stts]; decide
  · rw [g.media]; decide

/-- The reader, run on the file of the example. -/
def isoReadExample : Option (List (List (Int × Int × Bool × Bytes)) × List (List (Option Int))) :=
  match PMP4File.marshal fileExample with
  | .ok file => (readMovie file).map fun m => (m.tracks.map fun u => u.samples.map fun x => (x.decoding, x.composition, x.sync, x.bytes file),
      m.tracks.map fun u => u.samples.map fun x => u.presentedAt m x.composition)
  | _ => none

#guard isoReadExample == some ([[(0, 45000, true, [1, 2]), (90000, 45000, false, [3, 4, 5])], [(0, 0, true, [6]), (960, 960, true, []),
    (1920, 1920, true, [7])]], [[none, none], [some 960000, some 1920000, some 2880000]])

end Verif.Props
