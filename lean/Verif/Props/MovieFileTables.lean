import Verif.Spec.MovieFile
import Verif.Props.PMP4FileISO
import Verif.Props.FMP4InitAny

/-!
# C93: sample tables of any writer

The bytes of the tables are decoded as in the standard, and what `Presentation.Unmarshal` makes of them are the samples of the standard.
-/

namespace Verif.Props
open MP4Box PMP4File
open PMP4 (Run StscEntry RSample readBox maxSamples)
open Records
open Spec (bitsOf bitsOfNat natOfBits)
open Spec.Records (Carries field)
open Spec.ISO (rows pieces ensure readTimes readOffsets readWords readChunks readSizes ChunkRun)
open Spec.MovieFile (Tables)
open SampleTables
open Bits (toInt32 wrapInt32)

/-! ## Fields -/

/-- The fields at a position of a list of bytes. -/
def movieFields (b : Bytes) : List Nat → Nat → Spec.Records.Fields
  | [], _ => []
  | w :: ws, pos => (w, field b pos w) :: movieFields b ws (pos + w)

theorem movie_widths (b : Bytes) (ws : List Nat) : ∀ pos, widths (movieFields b ws pos) = ws := by
  induction ws with
  | nil => intro _; rfl
  | cons w ws ih => intro pos; show w :: widths (movieFields b ws (pos + w)) = _; rw [ih]

theorem movie_bits (b : Bytes) (ws : List Nat) : ∀ pos, pos + ws.sum = 8 * b.length →
    (∀ f ∈ movieFields b ws pos, f.2 < 2 ^ f.1) ∧ (bitsOf b).drop pos = (movieFields b ws pos).flatMap fun f => bitsOfNat f.1 f.2 := by
  induction ws with
  | nil =>
    intro pos h
    refine ⟨fun f hf => (List.not_mem_nil hf).elim, ?_⟩
    show _ = []
    rw [List.drop_eq_nil_iff, Spec.length_bitsOf]
    simp at h; omega
  | cons w ws ih =>
    intro pos h
    rw [List.sum_cons] at h
    obtain ⟨h1, h2⟩ := ih (pos + w) (by omega)
    have hl : (((bitsOf b).drop pos).take w).length = w := by
      rw [List.length_take, List.length_drop, Spec.length_bitsOf]; omega
    refine ⟨fun f hf => ?_, ?_⟩
    · rcases List.mem_cons.1 hf with rfl | hf
      · have := Spec.natOfBits_lt (((bitsOf b).drop pos).take w)
        rw [hl] at this
        exact this
      · exact h1 f hf
    · show _ = bitsOfNat w (field b pos w) ++ (movieFields b ws (pos + w)).flatMap fun f => bitsOfNat f.1 f.2
      rw [← h2]
      unfold field
      have e := Spec.bitsOfNat_natOfBits (((bitsOf b).drop pos).take w)
      rw [hl] at e
      rw [e, ← List.drop_drop, List.take_append_drop]

theorem movie_carries (b : Bytes) (ws : List Nat) (h : ws.sum = 8 * b.length) : Carries b (movieFields b ws 0) := by
  have := movie_bits b ws 0 (by omega)
  exact ⟨this.1, by simpa using this.2⟩

theorem movie_unpack (x y : Bytes) (ws : List Nat) (h : ws.sum = 8 * x.length) :
    unpack ws (x ++ y) = .ok ((movieFields x ws 0).map (·.2), y) :=
  taken_read ws y (movie_carries x ws h) (movie_widths x ws 0) (by rw [movie_widths]; omega)

theorem movie_field_take (b : Bytes) (k pos w : Nat) (h : pos + w ≤ 8 * k) : field (b.take k) pos w = field b pos w := by
  unfold field
  congr 1
  by_cases hk : k ≤ b.length
  · have e : bitsOf b = bitsOf (b.take k) ++ bitsOf (b.drop k) := by rw [← Spec.bitsOf_append, List.take_append_drop]
    have hl : (bitsOf (b.take k)).length = 8 * k := by rw [Spec.length_bitsOf, List.length_take, Nat.min_eq_left hk]
    rw [e, List.drop_append_of_le_length (by omega), List.take_append_of_le_length (by rw [List.length_drop]; omega)]
  · rw [List.take_of_length_le (l := b) (by omega)]

/-! ## Tables -/

theorem movie_entries (ws : List Nat) (size : Nat) (hs : ws.sum = 8 * size) (n : Nat) : ∀ b : Bytes, b.length = size * n →
    decodeEntries ws n b = .ok ((pieces size n b).map fun r => (movieFields r ws 0).map (·.2)) := by
  induction n with
  | zero => intro b _; rfl
  | succ n ih =>
    intro b hb
    rw [Nat.mul_succ] at hb
    have hl : (b.take size).length = size := by rw [List.length_take]; omega
    unfold decodeEntries pieces
    have := movie_unpack (b.take size) (b.drop size) ws (by rw [hl]; exact hs)
    rw [List.take_append_drop] at this
    rw [this, Res.bind_ok]
    show (decodeEntries ws n (b.drop size) >>= _) = _
    rw [ih _ (by rw [List.length_drop]; omega), Res.bind_ok]
    rfl

theorem movie_rows (ws : List Nat) (size : Nat) (hs : ws.sum = 8 * size) (b : Bytes) (l : List Bytes) (h : rows size b = some l) :
    decodeTable ws b = .ok (field b 0 8, l.map fun r => (movieFields r ws 0).map (·.2)) := by
  unfold rows ensure at h
  by_cases hb : b.length = 8 + size * field b 32 32
  · rw [if_pos hb] at h
    injection h with h
    subst h
    have hl : (b.take 8).length = 8 := by rw [List.length_take]; omega
    unfold decodeTable
    have := movie_unpack (b.take 8) (b.drop 8) [8, 24, 32] (by rw [hl]; rfl)
    rw [List.take_append_drop] at this
    rw [this, Res.bind_ok]
    show (decodeEntries ws (field (b.take 8) 32 32) (b.drop 8) >>= _) = _
    rw [movie_field_take _ _ _ _ (by decide), movie_entries ws size hs _ _ (by rw [List.length_drop]; omega), Res.bind_ok]
    show Res.ok (field (b.take 8) 0 8, _) = _
    rw [movie_field_take _ _ _ _ (by decide)]
  · rw [if_neg hb] at h; cases h

theorem movie_opt {α β : Type} {x : Option α} {f : α → Option β} {b : β} (h : (x >>= f) = some b) : ∃ a, x = some a ∧ f a = some b := by
  cases x with
  | none => cases h
  | some a => exact ⟨a, rfl, h⟩

/-- The entries as they are in the reader. -/
def movieRuns {α : Type} (l : List (Nat × α)) : List (Run α) := l.map fun e => ⟨e.1, e.2⟩

/-- The runs of chunks as they are in the reader. -/
def movieChunks (l : List ChunkRun) : List StscEntry := l.map fun e => ⟨e.firstChunk, e.samplesPerChunk⟩

theorem movie_stts (b : Bytes) (l : List (Nat × Nat)) (h : readTimes b = some l) : decodeStts b = .ok (movieRuns l) := by
  obtain ⟨r, hr, h⟩ := movie_opt h
  injection h with h
  subst h
  unfold decodeStts
  rw [movie_rows [32, 32] 8 rfl b r hr, Res.bind_ok]
  unfold movieRuns
  dsimp only
  rw [List.map_map, List.map_map]
  rfl

theorem movie_signed (n : Nat) : Spec.ISO.signed n = toInt32 n ∨ 2 ^ 32 ≤ n := by
  by_cases h : n < 2 ^ 32
  · left
    unfold Spec.ISO.signed toInt32
    rw [Nat.mod_eq_of_lt h]
  · exact .inr (by omega)

theorem movie_ctts (b : Bytes) (l : List (Nat × Int)) (h : readOffsets b = some l) : decodeCtts b = .ok (movieRuns l) := by
  obtain ⟨r, hr, h⟩ := movie_opt h
  injection h with h
  subst h
  unfold decodeCtts
  rw [movie_rows [32, 32] 8 rfl b r hr, Res.bind_ok]
  unfold movieRuns
  dsimp only
  rw [List.map_map, List.map_map]
  show Res.ok _ = Res.ok _
  refine congrArg Res.ok (List.map_congr_left fun x _ => ?_)
  show (⟨field x 0 32, if field b 0 8 = 0 then (field x 32 32 : Int) else toInt32 (field x 32 32)⟩ : Run Int) =
    ⟨field x 0 32, if field b 0 8 = 0 then (field x 32 32 : Int) else Spec.ISO.signed (field x 32 32)⟩
  have : field x 32 32 < 2 ^ 32 := by
    unfold field
    refine Nat.lt_of_lt_of_le (Spec.natOfBits_lt _) (Nat.pow_le_pow_right (by decide) ?_)
    rw [List.length_take]; omega
  rw [(movie_signed (field x 32 32)).resolve_right (by omega)]

theorem movie_words (b : Bytes) (l : List Nat) (h : readWords b = some l) : decodeWords b = .ok l := by
  obtain ⟨r, hr, h⟩ := movie_opt h
  injection h with h
  subst h
  unfold decodeWords
  rw [movie_rows [32] 4 rfl b r hr, Res.bind_ok]
  dsimp only
  rw [List.map_map]
  rfl

theorem movie_stsc (b : Bytes) (l : List ChunkRun) (h : readChunks b = some l) : decodeStsc b = .ok (movieChunks l) := by
  obtain ⟨r, hr, h⟩ := movie_opt h
  injection h with h
  subst h
  unfold decodeStsc
  rw [movie_rows [32, 32, 32] 12 rfl b r hr, Res.bind_ok]
  unfold movieChunks
  dsimp only
  rw [List.map_map, List.map_map]
  rfl

/-- Sizes are read when they are in a list: `sample_size` is 0. -/
theorem movie_stsz (b : Bytes) (l : List Nat) (h : readSizes b = some l) (h0 : field b 32 32 = 0) : decodeStsz b = .ok l := by
  unfold readSizes at h
  dsimp only at h
  rw [if_neg (by simpa using h0)] at h
  unfold ensure at h
  by_cases hb : b.length = 12 + 4 * field b 64 32
  · rw [if_pos hb] at h
    injection h with h
    subst h
    have hl : (b.take 12).length = 12 := by rw [List.length_take]; omega
    unfold decodeStsz
    have := movie_unpack (b.take 12) (b.drop 12) [8, 24, 32, 32] (by rw [hl]; rfl)
    rw [List.take_append_drop] at this
    rw [this, Res.bind_ok]
    show (decodeEntries [32] (if field (b.take 12) 32 32 = 0 then field (b.take 12) 64 32 else 0) (b.drop 12) >>= _) = _
    rw [movie_field_take _ _ _ _ (by decide), movie_field_take _ _ _ _ (by decide), if_pos h0,
      movie_entries [32] 4 rfl _ _ (by rw [List.length_drop]; omega), Res.bind_ok]
    rw [List.map_map]
    rfl
  · rw [if_neg hb] at h; cases h

/-! ## Samples -/

/-- A sample in the reader, when the tables that are named were read. -/
def movieSample (t : Tables) (ctts stss stco : Bool) (i : Nat) : RSample :=
  { duration := t.duration i
    ptsOffset := if ctts then t.compositionOffset i else 0
    isNonSync := if stss then !t.sync i else false
    payloadSize := if stco then (t.locations.getD i (0, 0)).2 else 0
    location := if stco then some (t.locations.getD i (0, 0)) else none }

def movieSamples (t : Tables) (ctts stss stco : Bool) : List RSample := (List.range t.sizes.length).map (movieSample t ctts stss stco)

theorem movie_length (t : Tables) (a b c : Bool) : (movieSamples t a b c).length = t.sizes.length := by simp [movieSamples]

theorem movie_get (t : Tables) (a b c : Bool) (i : Nat) (h : i < (movieSamples t a b c).length) : (movieSamples t a b c)[i] = movieSample t a b c i := by
  simp [movieSamples]

theorem movie_runPairs {α : Type} (l : List (Nat × α)) : runPairs (movieRuns l) = l := by
  unfold runPairs movieRuns
  rw [List.map_map]
  exact List.map_id' _

/-- The time offset: the duration in the header of the media minus the durations of the samples. -/
def movieOffset (t : Tables) (duration : Nat) : Int := wrapInt32 (duration - (expand t.stts).sum)

theorem movie_sum (ds : List Nat) : ∀ acc, PMP4.sumRead acc (ds.map fun d => { duration := d }) % 2 ^ 32 = (acc + ds.sum) % 2 ^ 32 := by
  induction ds with
  | nil => intro acc; simp [PMP4.sumRead]
  | cons d ds ih =>
    intro acc
    rw [List.map_cons]
    unfold PMP4.sumRead
    rw [ih, List.sum_cons]
    dsimp only
    omega

theorem movie_wrap (a b : Nat) : wrapInt32 (toInt32 a - toInt32 b) = wrapInt32 (a - b) := by
  unfold wrapInt32 toInt32
  split <;> split <;> congr 1 <;> omega

theorem movie_read_stts (t : Tables) (d : Nat) (hc : t.Consistent) (hm : t.sizes.length ≤ maxSamples) :
    readBox { trackDuration := d } (.stts (movieRuns t.stts)) =
      .ok { props := true, trackDuration := d, timeOffset := movieOffset t d, samples := movieSamples t false false false } := by
  have h1 := pmp4_read_stts (movieRuns t.stts) [] (by rw [movie_runPairs, hc.times]; simpa using hm)
  rw [movie_runPairs, List.nil_append] at h1
  show (PMP4.readSTTS (movieRuns t.stts) [] >>= _) = _
  rw [h1, Res.bind_ok]
  have h2 : (expand t.stts).map (fun d => ({ duration := d } : RSample)) = movieSamples t false false false := by
    refine List.ext_getElem (by rw [List.length_map, movie_length, hc.times]) fun i g1 g2 => ?_
    rw [movie_get, List.getElem_map]
    rw [List.length_map] at g1
    unfold movieSample Tables.duration
    rw [List.getD_eq_getElem?_getD, List.getElem?_eq_getElem g1]
    rfl
  have h3 := movie_sum (expand t.stts) 0
  rw [h2] at h3 ⊢
  congr 2
  unfold movieOffset
  rw [movie_wrap]
  unfold wrapInt32
  rw [Nat.zero_add] at h3
  dsimp only
  congr 1
  omega

/-- The reader after the table of durations, when the tables that are named were read. -/
def movieReader (t : Tables) (d : Nat) (ctts stss stsc stsz stco : Bool) : PMP4.Reader :=
  { props := true, trackDuration := d, timeOffset := movieOffset t d, samples := movieSamples t ctts stss stco,
    chunks := if stsc then t.chunks else [], sizes := if stsz then t.sizes else [] }

/-- Composition offsets fit `int32`. -/
def MovieOffsetsFit (t : Tables) : Prop := ∀ l, t.ctts = some l → ∀ e ∈ l, -(2 ^ 31) ≤ e.2 ∧ e.2 < 2 ^ 31

theorem movie_expand_mem {α : Type} {l : List (Nat × α)} {v : α} (h : v ∈ expand l) : ∃ e ∈ l, e.2 = v := by
  unfold expand at h
  obtain ⟨e, he, h⟩ := List.mem_flatMap.1 h
  exact ⟨e, he, (List.eq_of_mem_replicate h).symm⟩

theorem movie_read_ctts (t : Tables) (d : Nat) (b c e f g : Bool) (l : List (Nat × Int)) (hc : t.Consistent) (hf : MovieOffsetsFit t)
    (hl : t.ctts = some l) :
    readBox (movieReader t d f b c e g) (.ctts (movieRuns l)) = .ok (movieReader t d true b c e g) := by
  have h1 := pmp4_read_ctts (movieRuns l) [] (movieSamples t f b g) (by rw [movie_runPairs, movie_length, hc.offsets l hl])
  rw [movie_runPairs, List.nil_append, List.nil_append] at h1
  show (PMP4.readCTTS (movieRuns l) 0 (movieSamples t f b g) >>= _) = _
  rw [show PMP4.readCTTS (movieRuns l) 0 (movieSamples t f b g) = _ from h1, Res.bind_ok]
  have h2 : List.zipWith (fun (sa : RSample) (v : Int) => { sa with ptsOffset := wrapInt32 v }) (movieSamples t f b g) (expand l) =
      movieSamples t true b g := by
    refine List.ext_getElem (by rw [List.length_zipWith, movie_length, movie_length, hc.offsets l hl, Nat.min_self]) fun i g1 g2 => ?_
    rw [movie_get, List.getElem_zipWith, movie_get]
    rw [movie_length] at g2
    have g3 : i < (expand l).length := by rw [hc.offsets l hl]; exact g2
    obtain ⟨x, hx, hv⟩ := movie_expand_mem (List.getElem_mem g3)
    have := hf l hl x hx
    have hw : wrapInt32 (expand l)[i] = (expand l)[i] := by unfold wrapInt32; omega
    unfold movieSample Tables.compositionOffset
    rw [hl, hw]
    dsimp only
    rw [if_pos rfl, List.getD_eq_getElem?_getD (l := expand l), List.getElem?_eq_getElem g3]
    rfl
  rw [h2]
  rfl

theorem movie_sync (l : List Nat) : ∀ s : List RSample, s.length < 2 ^ 32 → (∀ n ∈ l, 1 ≤ n ∧ n ≤ s.length) →
    ∃ s', PMP4.readSTSS l s = .ok s' ∧ s'.length = s.length ∧
      ∀ i (h : i < s.length) (h' : i < s'.length), s'[i] = if l.contains (i + 1) then { s[i] with isNonSync := false } else s[i] := by
  induction l with
  | nil => intro s _ _; exact ⟨s, rfl, rfl, fun i _ _ => by simp⟩
  | cons n l ih =>
    intro s hs hl
    have hn := hl n (by simp)
    have hi : (n + 2 ^ 32 - 1) % 2 ^ 32 = n - 1 := by omega
    have hlt : n - 1 < s.length := by omega
    obtain ⟨s', h1, h2, h3⟩ := ih (s.set (n - 1) { s[n - 1] with isNonSync := false }) (by rw [List.length_set]; exact hs)
      (fun m hm => by rw [List.length_set]; exact hl m (List.mem_cons_of_mem _ hm))
    rw [List.length_set] at h2
    refine ⟨s', ?_, h2, fun i hi1 hi2 => ?_⟩
    · unfold PMP4.readSTSS
      dsimp only
      rw [hi, if_neg (by omega), idx_of_lt hlt, Res.bind_ok, h1]
    · rw [h3 i (by rw [List.length_set]; exact hi1) hi2, List.getElem_set, List.contains_cons]
      by_cases hin : n - 1 = i
      · subst hin
        have : (n - 1 + 1 == n) = true := by rw [beq_iff_eq]; omega
        rw [if_pos rfl, this, Bool.true_or, if_pos rfl]
        split <;> rfl
      · have : (i + 1 == n) = false := by rw [beq_eq_false_iff_ne]; omega
        rw [if_neg hin, this, Bool.false_or]

theorem movie_read_stss (t : Tables) (d : Nat) (a c e f g : Bool) (l : List Nat) (hc : t.Consistent) (hm : t.sizes.length ≤ maxSamples)
    (hl : t.stss = some l) : readBox (movieReader t d a f c e g) (.stss l) = .ok (movieReader t d a true c e g) := by
  have hms : maxSamples < 2 ^ 32 := by decide
  obtain ⟨s', h1, h2, h3⟩ := movie_sync l ((movieSamples t a f g).map fun sa => { sa with isNonSync := true })
    (by rw [List.length_map, movie_length]; omega) (fun n hn => by rw [List.length_map, movie_length]; exact hc.syncs l hl n hn)
  show (PMP4.readSTSS l ((movieSamples t a f g).map fun sa => { sa with isNonSync := true }) >>= _) = _
  rw [h1, Res.bind_ok]
  have h4 : s' = movieSamples t a true g := by
    rw [List.length_map, movie_length] at h2
    refine List.ext_getElem (by rw [h2, movie_length]) fun i g1 g2 => ?_
    rw [h3 i (by rw [List.length_map, movie_length]; omega) g1, movie_get, List.getElem_map, movie_get]
    unfold movieSample Tables.sync
    rw [hl]
    dsimp only
    cases l.contains (i + 1) <;> rfl
  rw [h4]
  rfl

theorem movie_describes (n : Nat) (l : List ChunkRun) : ∀ (f cur : Nat), (∀ e, l.head? = some e → e.firstChunk = f) →
    l.Pairwise (fun a b => a.firstChunk < b.firstChunk) → (∀ e ∈ l, e.firstChunk ≤ n) → (l = [] → n + 1 = f) →
    Describes f (movieChunks l) ((List.range (n + 1 - f)).map fun i =>
      (l.map fun e => (e.firstChunk, e.samplesPerChunk)).foldl (fun cur e => if e.1 ≤ f + i then e.2 else cur) cur) := by
  induction l with
  | nil =>
    intro f cur _ _ _ h
    rw [h rfl, Nat.sub_self]
    exact .nil f
  | cons e l ih =>
    intro f cur h1 h2 h3 _
    have he := h1 e rfl
    obtain ⟨h2a, h2b⟩ := List.pairwise_cons.1 h2
    have hn := h3 e (by simp)
    -- the first entry applies to all of these chunks
    have hfirst : ∀ i, ((e :: l).map fun e => (e.firstChunk, e.samplesPerChunk)).foldl (fun cur e => if e.1 ≤ f + i then e.2 else cur) cur =
        (l.map fun e => (e.firstChunk, e.samplesPerChunk)).foldl (fun cur e => if e.1 ≤ f + i then e.2 else cur) e.samplesPerChunk := by
      intro i
      rw [List.map_cons, List.foldl_cons]
      dsimp only
      rw [if_pos (by omega)]
    -- entries of later chunks do not apply
    have hlater : ∀ (m : List ChunkRun) (i s : Nat), (∀ x ∈ m, f + i < x.firstChunk) →
        (m.map fun e => (e.firstChunk, e.samplesPerChunk)).foldl (fun cur e => if e.1 ≤ f + i then e.2 else cur) s = s := by
      intro m
      induction m with
      | nil => intro i s _; rfl
      | cons x m ihm =>
        intro i s hx
        rw [List.map_cons, List.foldl_cons]
        dsimp only
        rw [if_neg (by have := hx x (by simp); omega)]
        exact ihm i s fun y hy => hx y (List.mem_cons_of_mem _ hy)
    obtain ⟨k, hk, hk1, hk2, hk3⟩ : ∃ k, 0 < k ∧ f + k ≤ n + 1 ∧ (∀ x ∈ l, f + k ≤ x.firstChunk) ∧
        ((∀ x, l.head? = some x → x.firstChunk = f + k) ∧ (l = [] → n + 1 = f + k)) := by
      cases l with
      | nil => exact ⟨n + 1 - f, by omega, by omega, fun x hx => (by cases hx), fun x hx => (by cases hx), fun _ => by omega⟩
      | cons x l =>
        have hx := h2a x (by simp)
        have hx2 := h3 x (by simp)
        refine ⟨x.firstChunk - f, by omega, by omega, fun y hy => ?_, fun y hy => ?_, fun h => by cases h⟩
        · rcases List.mem_cons.1 hy with rfl | hy
          · omega
          · have := (List.pairwise_cons.1 h2b).1 y hy; omega
        · cases hy; omega
    have hsplit : n + 1 - f = k + (n + 1 - (f + k)) := by omega
    rw [hsplit, List.range_add, List.map_append, List.map_map]
    have e1 : (List.range k).map (fun i => ((e :: l).map fun e => (e.firstChunk, e.samplesPerChunk)).foldl
        (fun cur e => if e.1 ≤ f + i then e.2 else cur) cur) = List.replicate k e.samplesPerChunk := by
      refine List.eq_replicate_iff.2 ⟨by simp, fun y hy => ?_⟩
      obtain ⟨i, hi, rfl⟩ := List.mem_map.1 hy
      rw [List.mem_range] at hi
      rw [hfirst, hlater l i _ fun x hx => by have := hk2 x hx; omega]
    rw [e1]
    have e2 : movieChunks (e :: l) = ⟨f, e.samplesPerChunk⟩ :: movieChunks l := by
      unfold movieChunks; rw [List.map_cons, he]
    rw [e2]
    refine .cons hk ?_
    have := ih (f + k) e.samplesPerChunk hk3.1 h2b (fun x hx => h3 x (List.mem_cons_of_mem _ hx)) hk3.2
    refine (congrArg (Describes (f + k) (movieChunks l)) (List.map_congr_left fun i _ => ?_)).mp this
    show _ = ((e :: l).map fun e => (e.firstChunk, e.samplesPerChunk)).foldl (fun cur e => if e.1 ≤ f + (k + i) then e.2 else cur) cur
    rw [hfirst, Nat.add_assoc]

theorem movie_chunks (t : Tables) (hc : t.Consistent) : Describes 1 (movieChunks t.stsc) t.chunks := by
  have := movie_describes t.stco.length t.stsc 1 0 hc.first hc.increasing (fun e he => (hc.last e he).1)
    (fun h => by rw [hc.described h]; rfl)
  rw [Nat.add_sub_cancel] at this
  unfold Tables.chunks samplesInChunk
  refine (congrArg (Describes 1 (movieChunks t.stsc)) (List.map_congr_left fun i _ => ?_)).mp this
  rw [Nat.add_comm 1 i]

theorem movie_describes_mem {f : Nat} {l : List StscEntry} {c : List Nat} (h : Describes f l c) : ∀ x ∈ c, ∃ e ∈ l, e.samplesPerChunk = x := by
  induction h with
  | nil => intro x hx; cases hx
  | @cons f k s l c hk h ih =>
    intro x hx
    rcases List.mem_append.1 hx with hx | hx
    · exact ⟨⟨f, s⟩, by simp, (List.eq_of_mem_replicate hx).symm⟩
    · obtain ⟨e, he, h⟩ := ih x hx
      exact ⟨e, List.mem_cons_of_mem _ he, h⟩

theorem movie_chunks_pos (t : Tables) (hc : t.Consistent) : ∀ x ∈ t.chunks, 0 < x := by
  intro x hx
  obtain ⟨e, he, rfl⟩ := movie_describes_mem (movie_chunks t hc) x hx
  unfold movieChunks at he
  obtain ⟨y, hy, rfl⟩ := List.mem_map.1 he
  exact (hc.last y hy).2

theorem movie_chunks_length (t : Tables) : t.chunks.length = t.stco.length := by simp [Tables.chunks]

theorem movie_read_stsc (t : Tables) (d : Nat) (a b e g : Bool) (hc : t.Consistent) (hm : t.sizes.length ≤ maxSamples) :
    readBox (movieReader t d a b false e g) (.stsc (movieChunks t.stsc)) = .ok (movieReader t d a b true e g) := by
  have hms : maxSamples + 1 < 2 ^ 32 := by decide
  have hlen := pmp4_length_le_sum t.chunks (movie_chunks_pos t hc)
  rw [hc.chunks] at hlen
  show (PMP4.readSTSC (movieSamples t a b g).length (movieChunks t.stsc) 0 [] >>= _) = _
  rw [movie_length, pmp4_read_stsc t.sizes.length (movieChunks t.stsc) 1 t.chunks 0 [] (movie_chunks t hc) (movie_chunks_pos t hc)
    (by rw [hc.chunks, Nat.zero_add]) (by omega) (by simp only [List.length_nil]; omega), Res.bind_ok]
  rfl

theorem movie_read_stsz (t : Tables) (d : Nat) (a b c f g : Bool) :
    readBox (movieReader t d a b c f g) (.stsz t.sizes) = .ok (movieReader t d a b c true g) := rfl

/-- Chunks end below 4 GiB. -/
def MovieLow (t : Tables) : Prop := ∀ x ∈ t.locations, x.1 + x.2 < 2 ^ 32

theorem movie_locations (c : List (Nat × Nat)) : ∀ sizes : List Nat, (c.map (·.1)).sum = sizes.length → (locations c sizes).length = sizes.length := by
  induction c with
  | nil =>
    intro sizes h
    simp only [List.map_nil, List.sum_nil] at h
    rw [← h]; rfl
  | cons x c ih =>
    obtain ⟨n, off⟩ := x
    intro sizes h
    rw [List.map_cons, List.sum_cons] at h
    dsimp only at h
    unfold locations
    rw [List.length_append, pmp4_chunkLocations_length, ih _ (by rw [List.length_drop]; omega), List.length_take, List.length_drop]
    omega

theorem movie_locations_length (t : Tables) (hc : t.Consistent) : t.locations.length = t.sizes.length := by
  refine movie_locations _ _ ?_
  show ((List.zip t.chunks t.stco).map (·.1)).sum = _
  rw [List.map_fst_zip (by rw [movie_chunks_length]; exact Nat.le_refl _), hc.chunks]

theorem movie_read_stco (t : Tables) (d : Nat) (a b f : Bool) (hc : t.Consistent) (hl : MovieLow t) (hw : ∀ o ∈ t.stco, o < 2 ^ 32) :
    readBox (movieReader t d a b true true f) (.stco t.stco) = .ok (movieReader t d a b true true true) := by
  have h1 := pmp4_chunkOffsets t.chunks t.stco 0 (by rw [movie_chunks_length, Nat.zero_add])
  have h2 := pmp4_locate_all (List.zip t.chunks t.stco) [] t.sizes [] (movieSamples t a b f) rfl (movie_length _ _ _ _)
    (by rw [List.map_fst_zip (by rw [movie_chunks_length]; exact Nat.le_refl _), hc.chunks])
    (fun x hx => hw _ (List.of_mem_zip hx).2) hl
  rw [List.nil_append, List.nil_append, List.nil_append] at h2
  have h3 : List.zipWith setLocation (movieSamples t a b f) t.locations = movieSamples t a b true := by
    refine List.ext_getElem (by rw [List.length_zipWith, movie_length, movie_length, movie_locations_length t hc, Nat.min_self]) fun i g1 g2 => ?_
    rw [movie_length] at g2
    have g3 : i < t.locations.length := by rw [movie_locations_length t hc]; exact g2
    rw [movie_get, List.getElem_zipWith, movie_get]
    unfold movieSample setLocation
    rw [List.getD_eq_getElem?_getD, List.getElem?_eq_getElem g3]
    rfl
  show (if t.stco.length ≠ t.chunks.length then (Res.err "invalid stco" : Res PMP4.Reader) else (PMP4.chunkOffsets t.chunks t.stco 0 >>= fun chunks =>
    if t.sizes.length ≠ (movieSamples t a b f).length then Res.err "invalid stsz" else (PMP4.locate t.sizes chunks 0 (movieSamples t a b f) >>=
      fun s => Res.ok { movieReader t d a b true true f with samples := s }))) = _
  rw [if_neg (by rw [movie_chunks_length]; simp), h1, Res.bind_ok, if_neg (by rw [movie_length]; simp), List.drop_zero,
    show PMP4.locate t.sizes (List.zip t.chunks t.stco) 0 (movieSamples t a b f) = _ from h2, Res.bind_ok]
  show Res.ok { movieReader t d a b true true f with samples := List.zipWith setLocation (movieSamples t a b f) t.locations } = _
  rw [h3]
  rfl

end Verif.Props
