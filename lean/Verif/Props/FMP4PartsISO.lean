import Verif.Lemmas.ISOFile
import Verif.Spec.ISOFragments
import Verif.Props.FMP4RoundTrip

/-!
# C90: what movie fragments that are written mean

The bytes of parts are read by the reader of Spec/ISOFragments.lean, which was written from ISO 14496-12.
-/

namespace Verif.Props
open FMP4 MP4Writer ISOLemmas Records
open Spec (beBytes bitsOf)
open Spec.FMP4 (box fullBox beSigned runFlags runRow run traf moof mdat trackData)
open Spec.ISO (boxes only named all ensure pieces words word flag signed readRunSamples readRun readHeader readTime readTrackFragment readFragment
  readFragments RunSample FragmentRun FragmentHeader TrackFragment Fragment FragmentSample Defaults runSamples runsSamples tracksSamples effective)
open Spec.Records (field fourcc)
open ByteR (beBytes_length)
open SampleTables (region)

/-! ## Numbers -/

/-- A field of whole bytes. -/
theorem fiso_field (pre rest : Bytes) (k v : Nat) (h : v < 2 ^ (8 * k)) : field (pre ++ (beBytes k v ++ rest)) (8 * pre.length) (8 * k) = v := by
  refine field_eq (pre := bitsOf pre) (post := bitsOf rest) ?_ h (Spec.length_bitsOf pre)
  rw [Spec.bitsOf_append, Spec.bitsOf_append, bitsOf_beBytes]

theorem fiso_words (l : List Nat) (h : ∀ v ∈ l, v < 2 ^ 32) : words (l.flatMap (beBytes 4)) = l := by
  induction l with
  | nil => rfl
  | cons v l ih =>
    have hl : ((v :: l).flatMap (beBytes 4)).length / 4 = (l.flatMap (beBytes 4)).length / 4 + 1 := by
      rw [List.flatMap_cons, List.length_append, beBytes_length]; omega
    unfold words at ih ⊢
    rw [hl, List.flatMap_cons]
    show field ((beBytes 4 v ++ _).take 4) 0 32 :: ((pieces 4 _ ((beBytes 4 v ++ _).drop 4)).map fun r => field r 0 32) = _
    rw [List.take_left' (beBytes_length 4 v), List.drop_left' (beBytes_length 4 v), ih fun x hx => h x (List.mem_cons_of_mem _ hx)]
    have := fiso_field [] [] 4 v (h v List.mem_cons_self)
    simp only [List.append_nil, List.nil_append] at this
    exact congrArg (· :: l) this

theorem fiso_words_length (l : List Nat) : (l.flatMap (beBytes 4)).length = 4 * l.length := by
  induction l with
  | nil => rfl
  | cons v l ih => rw [List.flatMap_cons, List.length_append, ih, beBytes_length, List.length_cons]; omega

theorem fiso_signed (v : Int) (h1 : -2 ^ 31 ≤ v) (h2 : v < 2 ^ 31) : signed (v % 2 ^ 32).toNat = v := by
  unfold signed
  split <;> omega

/-- Version, flags, a number, and more numbers. -/
theorem fiso_full (version flags n : Nat) (l : List Nat) (h1 : version < 256) (h2 : flags < 2 ^ 24) (h3 : n < 2 ^ 32) (h4 : ∀ v ∈ l, v < 2 ^ 32)
    (b : Bytes) (hb : b = beBytes 1 version ++ beBytes 3 flags ++ (beBytes 4 n ++ l.flatMap (beBytes 4))) :
    8 ≤ b.length ∧ b.length % 4 = 0 ∧ field b 0 8 = version ∧ field b 8 24 = flags ∧ field b 32 32 = n ∧ words (b.drop 8) = l := by
  have hl : b.length = 8 + 4 * l.length := by
    rw [hb]; simp only [List.length_append, beBytes_length, fiso_words_length]; omega
  have e0 := fiso_field [] (beBytes 3 flags ++ (beBytes 4 n ++ l.flatMap (beBytes 4))) 1 version h1
  have e1 := fiso_field (beBytes 1 version) (beBytes 4 n ++ l.flatMap (beBytes 4)) 3 flags h2
  have e2 := fiso_field (beBytes 1 version ++ beBytes 3 flags) (l.flatMap (beBytes 4)) 4 n h3
  simp only [List.length_append, beBytes_length, List.nil_append, ← List.append_assoc] at e0 e1 e2 hb
  rw [← hb] at e0 e1 e2
  refine ⟨by omega, by omega, e0, e1, e2, ?_⟩
  rw [hb, List.drop_left' (by simp [beBytes_length]), fiso_words l h4]

/-! ## Runs -/

/-- The flags of a run. -/
theorem fiso_flags (samples : List Sample) : runFlags samples < 2 ^ 24 ∧ flag (runFlags samples) 0 = true ∧ flag (runFlags samples) 2 = false ∧
    flag (runFlags samples) 8 = true ∧ flag (runFlags samples) 9 = true ∧ flag (runFlags samples) 10 = samples.any (·.isNonSync) ∧
    flag (runFlags samples) 11 = samples.any (·.ptsOffset ≠ 0) := by
  unfold runFlags
  generalize samples.any (·.isNonSync) = a
  generalize samples.any (·.ptsOffset ≠ 0) = b
  cases a <;> cases b <;> decide

/-- The numbers of a sample of a run. -/
def rowWords (a b : Bool) (sa : Sample) : List Nat :=
  [sa.duration, sa.payload.length] ++ ((if a then [if sa.isNonSync then 0x10000 else 0] else []) ++ if b then [(sa.ptsOffset % 2 ^ 32).toNat] else [])

theorem fiso_row (a b : Bool) (sa : Sample) : runRow a b sa = (rowWords a b sa).flatMap (beBytes 4) := by
  unfold runRow rowWords beSigned
  cases a <;> cases b <;> simp [List.flatMap_cons]

theorem fiso_rows (a b : Bool) (l : List Sample) : l.flatMap (runRow a b) = (l.flatMap (rowWords a b)).flatMap (beBytes 4) := by
  induction l with
  | nil => rfl
  | cons sa l ih => rw [List.flatMap_cons, List.flatMap_cons, List.flatMap_append, ih, fiso_row]

theorem fiso_rowWords (a b : Bool) (sa : Sample) (h : FitsSample sa) : ∀ v ∈ rowWords a b sa, v < 2 ^ 32 := by
  obtain ⟨h1, h2, h3, h4⟩ := h
  intro v hv
  unfold rowWords at hv
  have hs : (if sa.isNonSync then 0x10000 else 0) ≤ 0x10000 := by split <;> omega
  cases a <;> cases b <;>
    simp only [if_true, if_false, Bool.false_eq_true, List.cons_append, List.nil_append, List.append_nil, List.mem_cons, List.not_mem_nil, or_false] at hv <;>
    omega

/-- What is read of a sample. -/
def rowOf (a b : Bool) (sa : Sample) : RunSample :=
  ⟨some sa.duration, some sa.payload.length, if a then some (if sa.isNonSync then 0x10000 else 0) else none, if b then sa.ptsOffset else 0⟩

theorem fiso_runSamples (a b : Bool) (flags : Nat) (h8 : flag flags 8 = true) (h9 : flag flags 9 = true) (h10 : flag flags 10 = a)
    (h11 : flag flags 11 = b) (l : List Sample) : (∀ sa ∈ l, FitsSample sa) →
    readRunSamples 1 flags l.length (l.flatMap (rowWords a b)) = some (l.map (rowOf a b)) := by
  induction l with
  | nil => intro _; rfl
  | cons sa l ih =>
    intro h
    obtain ⟨g1, g2, g3, g4⟩ := h sa List.mem_cons_self
    have ih := ih fun x hx => h x (List.mem_cons_of_mem _ hx)
    rw [List.flatMap_cons, List.map_cons, List.length_cons]
    generalize l.flatMap (rowWords a b) = ws at *
    generalize l.map (rowOf a b) = rs at *
    unfold readRunSamples rowWords
    rw [h8, h9, h10, h11]
    have e := fiso_signed sa.ptsOffset g2 g3
    have e0 : signed 0 = 0 := rfl
    cases a <;> cases b <;>
      simp only [word, if_true, if_false, Bool.false_eq_true, List.cons_append, List.nil_append, List.append_nil, some_bind, ih, rowOf, Option.getD,
        e, e0, Nat.one_ne_zero]

/-- A run is read. -/
theorem fiso_run (samples : List Sample) (d : Int) (hl : samples.length < 2 ^ 32) (hd : -2 ^ 31 ≤ d ∧ d < 2 ^ 31) (h : ∀ sa ∈ samples, FitsSample sa)
    (b : Bytes) (hb : b = beBytes 1 1 ++ beBytes 3 (runFlags samples) ++ (beBytes 4 samples.length ++ beSigned d ++
      samples.flatMap (runRow (samples.any (·.isNonSync)) (samples.any (·.ptsOffset ≠ 0))))) :
    readRun b = some ⟨some d, none, samples.map (rowOf (samples.any (·.isNonSync)) (samples.any (·.ptsOffset ≠ 0)))⟩ := by
  obtain ⟨f0, f1, f2, f3, f4, f5, f6⟩ := fiso_flags samples
  have hw : ∀ v ∈ (d % 2 ^ 32).toNat :: samples.flatMap (rowWords (samples.any (·.isNonSync)) (samples.any (·.ptsOffset ≠ 0))), v < 2 ^ 32 := by
    intro v hv
    rcases List.mem_cons.1 hv with rfl | hv
    · omega
    · obtain ⟨sa, hs, hv⟩ := List.mem_flatMap.1 hv
      exact fiso_rowWords _ _ sa (h sa hs) v hv
  obtain ⟨w1, w2, w3, w4, w5, w6⟩ := fiso_full 1 (runFlags samples) samples.length _ (by decide) f0 hl hw b (by
    rw [hb, List.flatMap_cons, ← fiso_rows]
    unfold beSigned
    simp only [List.append_assoc])
  have hr := fiso_runSamples _ _ _ f3 f4 f5 f6 samples h
  unfold readRun
  rw [ensure_bind _ ⟨w1, w2⟩, w3, w4, w5, w6]
  dsimp only
  rw [f1, f2]
  have e1 : ∀ (v : Nat) (l : List Nat), word true (v :: l) = some (some v, l) := fun _ _ => rfl
  have e2 : ∀ (l : List Nat), word false l = some (none, l) := fun _ => rfl
  rw [e1, some_bind]
  dsimp only
  rw [e2, some_bind]
  dsimp only
  rw [hr, some_bind]
  dsimp only [Option.map_some]
  rw [fiso_signed d hd.1 hd.2]

/-! ## Tracks -/

/-- What is read of a track whose data is at `d`. -/
def trackOf (t : PartTrack) (d : Int) : TrackFragment :=
  { id := t.id, base := none, baseIsMoof := true, description := none, duration := none, size := none, flags := none, time := t.baseTime,
    runs := [⟨some d, none, t.samples.map (rowOf (t.samples.any (·.isNonSync)) (t.samples.any (·.ptsOffset ≠ 0)))⟩] }

/-- A track that can be written. -/
def FitsTrack32 (t : PartTrack) : Prop := t.id < 2 ^ 32 ∧ t.baseTime < 2 ^ 64 ∧ t.samples.length < 2 ^ 32 ∧ ∀ sa ∈ t.samples, FitsSample sa

theorem fiso_header (id : Nat) (h : id < 2 ^ 32) :
    readHeader (beBytes 1 0 ++ beBytes 3 0x20000 ++ beBytes 4 id) = some ⟨id, none, true, none, none, none, none⟩ := by
  obtain ⟨w1, w2, w3, w4, w5, w6⟩ := fiso_full 0 0x20000 id [] (by decide) (by decide) h (fun _ h => by cases h)
    (beBytes 1 0 ++ beBytes 3 0x20000 ++ beBytes 4 id) (by simp)
  generalize beBytes 1 0 ++ beBytes 3 0x20000 ++ beBytes 4 id = b at *
  unfold readHeader
  rw [ensure_bind _ ⟨w1, w2⟩, w4, w5, w6]
  rfl

theorem fiso_time (v : Nat) (h : v < 2 ^ 64) : readTime (beBytes 1 1 ++ beBytes 3 0 ++ beBytes 8 v) = some v := by
  have e0 := fiso_field [] (beBytes 3 0 ++ beBytes 8 v) 1 1 (by decide)
  have e2 := fiso_field (beBytes 1 1 ++ beBytes 3 0) [] 8 v h
  simp only [List.nil_append, List.append_nil, List.length_append, beBytes_length, ← List.append_assoc] at e0 e2
  have hl : (beBytes 1 1 ++ beBytes 3 0 ++ beBytes 8 v).length = 12 := by simp [beBytes_length]
  generalize beBytes 1 1 ++ beBytes 3 0 ++ beBytes 8 v = b at *
  unfold readTime
  have e0 : field b 0 8 = 1 := e0
  rw [e0, if_neg (by decide), ensure_bind _ hl]
  exact congrArg some e2

theorem fiso_boxes (l : List (Bytes × Bytes)) (b : Bytes) (hb : b = l.flatMap fun x => box x.1 x.2) (h4 : ∀ x ∈ l, x.1.length = 4)
    (h : b.length < 2 ^ 32) : boxes b = some l := by
  subst hb
  refine boxes_flat l _ rfl fun x hx => ⟨h4 x hx, ?_⟩
  have : (box x.1 x.2).length ≤ (l.flatMap fun x => box x.1 x.2).length := by
    clear h
    induction l with
    | nil => cases hx
    | cons y l ih =>
      rw [List.flatMap_cons, List.length_append]
      rcases List.mem_cons.1 hx with rfl | hx
      · omega
      · have := ih (fun z hz => h4 z (List.mem_cons_of_mem _ hz)) hx
        omega
  rw [box_len _ _ (h4 x hx)] at this
  omega

/-- The payload of `traf`. -/
def trafBody (t : PartTrack) (d : Int) : Bytes :=
  fullBox [0x74, 0x66, 0x68, 0x64] 0 0x20000 (beBytes 4 t.id) ++ fullBox [0x74, 0x66, 0x64, 0x74] 1 0 (beBytes 8 t.baseTime) ++ run t.samples d

theorem fiso_track (t : PartTrack) (d : Int) (hd : -2 ^ 31 ≤ d ∧ d < 2 ^ 31) (h : FitsTrack32 t) (hl : (trafBody t d).length < 2 ^ 32) :
    readTrackFragment (trafBody t d) = some (trackOf t d) := by
  obtain ⟨h1, h2, h3, h4⟩ := h
  have hb := fiso_boxes [([0x74, 0x66, 0x68, 0x64], beBytes 1 0 ++ beBytes 3 0x20000 ++ beBytes 4 t.id),
    ([0x74, 0x66, 0x64, 0x74], beBytes 1 1 ++ beBytes 3 0 ++ beBytes 8 t.baseTime),
    ([0x74, 0x72, 0x75, 0x6E], beBytes 1 1 ++ beBytes 3 (runFlags t.samples) ++ (beBytes 4 t.samples.length ++ beSigned d ++
      t.samples.flatMap (runRow (t.samples.any (·.isNonSync)) (t.samples.any (·.ptsOffset ≠ 0)))))] (trafBody t d)
    (by unfold trafBody run fullBox; simp only [List.flatMap_cons, List.flatMap_nil, List.append_nil, List.append_assoc])
    (by simp only [List.forall_mem_cons]; exact ⟨rfl, rfl, rfl, fun _ h => by cases h⟩) hl
  have hr := fiso_run t.samples d h3 hd h4 _ rfl
  have hh := fiso_header t.id h1
  have ht := fiso_time t.baseTime h2
  unfold trackOf
  generalize trafBody t d = b at *
  generalize beBytes 1 0 ++ beBytes 3 0x20000 ++ beBytes 4 t.id = x at *
  generalize beBytes 1 1 ++ beBytes 3 0 ++ beBytes 8 t.baseTime = y at *
  generalize beBytes 1 1 ++ beBytes 3 (runFlags t.samples) ++ (beBytes 4 t.samples.length ++ beSigned d ++
      t.samples.flatMap (runRow (t.samples.any (·.isNonSync)) (t.samples.any (·.ptsOffset ≠ 0)))) = z at *
  generalize t.samples.map (rowOf (t.samples.any (·.isNonSync)) (t.samples.any (·.ptsOffset ≠ 0))) = rows at *
  have o1 : ∀ x y z : Bytes, only (fourcc 't' 'f' 'h' 'd') [([0x74, 0x66, 0x68, 0x64], x), ([0x74, 0x66, 0x64, 0x74], y), ([0x74, 0x72, 0x75, 0x6E], z)] = some x :=
    fun _ _ _ => rfl
  have o2 : ∀ x y z : Bytes, only (fourcc 't' 'f' 'd' 't') [([0x74, 0x66, 0x68, 0x64], x), ([0x74, 0x66, 0x64, 0x74], y), ([0x74, 0x72, 0x75, 0x6E], z)] = some y :=
    fun _ _ _ => rfl
  have o3 : ∀ x y z : Bytes, named (fourcc 't' 'r' 'u' 'n') [([0x74, 0x66, 0x68, 0x64], x), ([0x74, 0x66, 0x64, 0x74], y), ([0x74, 0x72, 0x75, 0x6E], z)] = [z] :=
    fun _ _ _ => rfl
  have ha : ∀ (g : Bytes → Option FragmentRun) (r : FragmentRun), g z = some r → all g [z] = some [r] := by
    intro g r hg
    unfold all
    rw [hg]
    rfl
  unfold readTrackFragment
  rw [hb, some_bind, o1, some_bind, hh, some_bind, o2, some_bind, ht, some_bind, o3, ha _ _ hr, some_bind]

theorem fiso_all {α β γ : Type} (g : β → Option γ) (f : α → β) (r : α → γ) (l : List α) (h : ∀ a ∈ l, g (f a) = some (r a)) :
    all g (l.map f) = some (l.map r) := by
  induction l with
  | nil => rfl
  | cons a l ih =>
    rw [List.map_cons, List.map_cons]
    unfold all
    rw [h a List.mem_cons_self, some_bind, ih fun x hx => h x (List.mem_cons_of_mem _ hx), some_bind]

/-! ## Fragments -/

/-- Tracks with the offsets of their data. -/
def placedTracks (delta : Nat) : Nat → List PartTrack → List (PartTrack × Nat)
  | _, [] => []
  | n, t :: l => (t, n + delta) :: placedTracks delta (n + (trackData t).length) l

theorem fiso_placed (delta : Nat) (l : List PartTrack) : ∀ n,
    (List.zipWith traf l ((trueOffsets delta n l).map Int.ofNat)).flatten =
      ((placedTracks delta n l).map fun x => (([0x74, 0x72, 0x61, 0x66] : Bytes), trafBody x.1 x.2)).flatMap fun x => box x.1 x.2 := by
  induction l with
  | nil => intro n; rfl
  | cons t l ih =>
    intro n
    simp only [trueOffsets, placedTracks, List.map_cons, List.zipWith_cons_cons, List.flatten_cons, List.flatMap_cons, ih]
    rfl

theorem fiso_placed_le (delta : Nat) (l : List PartTrack) : ∀ n, ∀ x ∈ placedTracks delta n l, x.1 ∈ l ∧ x.2 ≤ n + delta + (l.flatMap trackData).length := by
  induction l with
  | nil => intro n x hx; cases hx
  | cons t l ih =>
    intro n x hx
    rw [List.flatMap_cons, List.length_append]
    rcases List.mem_cons.1 hx with rfl | hx
    · exact ⟨List.mem_cons_self, by dsimp only; omega⟩
    · obtain ⟨h1, h2⟩ := ih _ x hx
      exact ⟨List.mem_cons_of_mem _ h1, by omega⟩

/-- A part that can be written: less than 2^31 bytes, fields in range. -/
def FitsPart32 (p : Part) : Prop :=
  p.sequenceNumber < 2 ^ 32 ∧ (∀ t ∈ p.tracks, FitsTrack32 t) ∧ (moof p (p.tracks.map fun _ => 0)).length + (mdat p).length < 2 ^ 31

/-- The payload of `moof`. -/
def moofBody (p : Part) : Bytes :=
  fullBox [0x6D, 0x66, 0x68, 0x64] 0 0 (beBytes 4 p.sequenceNumber) ++
    (List.zipWith traf p.tracks ((trueOffsets (moofSize p + 8) 0 p.tracks).map Int.ofNat)).flatten

/-- The boxes of a part. -/
def partBoxes (p : Part) : List (Bytes × Bytes) := [(typMoof, moofBody p), (typMdat, p.tracks.flatMap trackData)]

theorem fiso_partBytes (p : Part) : partBytes p = (partBoxes p).flatMap fun x => box x.1 x.2 := by
  unfold partBytes partBoxes moof mdat moofBody
  simp only [List.flatMap_cons, List.flatMap_nil, List.append_nil]
  rfl

theorem fiso_moof_length (p : Part) : 8 + (moofBody p).length = moofSize p := by
  have := fmp4_moof_length p ((trueOffsets (moofSize p + 8) 0 p.tracks).map Int.ofNat) (by rw [List.length_map, fmp4_trueOffsets_length])
  rw [← this]
  unfold moof
  rw [box_length _ _ rfl]
  rfl

theorem fiso_part_length (p : Part) : (partBytes p).length = moofSize p + (8 + (p.tracks.flatMap trackData).length) := by
  rw [fiso_partBytes, ← fiso_moof_length]
  unfold partBoxes
  simp only [List.flatMap_cons, List.flatMap_nil, List.append_nil, List.length_append]
  rw [box_len _ _ rfl, box_len _ _ rfl]

theorem fiso_named {α : Type} (typ other : Bytes) (a : Bytes) (f : α → Bytes) (l : List α) (h : (other == typ) = false) :
    only other ((other, a) :: l.map fun x => (typ, f x)) = some a ∧ named typ ((other, a) :: l.map fun x => (typ, f x)) = l.map f := by
  have hne : (typ == other) = false := by
    cases e : typ == other with
    | false => rfl
    | true => rw [eq_of_beq e] at h; rw [← h]; exact (beq_self_eq_true other).symm
  have h1 : ∀ l : List α, (l.map fun x => (typ, f x)).filter (fun x => x.1 == other) = [] := by
    intro l
    induction l with
    | nil => rfl
    | cons x l ih => rw [List.map_cons, List.filter_cons, ih]; dsimp only; rw [hne]; rfl
  have h2 : ∀ l : List α, (l.map fun x => (typ, f x)).filter (fun x => x.1 == typ) = l.map fun x => (typ, f x) := by
    intro l
    induction l with
    | nil => rfl
    | cons x l ih => rw [List.map_cons, List.filter_cons, ih]; dsimp only; rw [beq_self_eq_true]; rfl
  constructor
  · unfold only named
    rw [List.filter_cons, h1]
    dsimp only
    rw [beq_self_eq_true]
    rfl
  · unfold named
    rw [List.filter_cons, h2]
    dsimp only
    rw [h, if_neg Bool.false_ne_true, List.map_map]
    rfl

/-- What is read of a part at a position. -/
def fragmentOf (position : Nat) (p : Part) : Fragment :=
  ⟨position, p.sequenceNumber, (placedTracks (moofSize p + 8) 0 p.tracks).map fun x => trackOf x.1 x.2⟩

theorem fiso_fragment (position : Nat) (p : Part) (h : FitsPart32 p) : readFragment position (moofBody p) = some (fragmentOf position p) := by
  obtain ⟨h1, h2, h3⟩ := h
  have hmdat : (mdat p).length = 8 + (p.tracks.flatMap trackData).length := by unfold mdat; rw [box_length _ _ rfl]
  have hs : moofSize p = (moof p (p.tracks.map fun _ => 0)).length := rfl
  have hml := fiso_moof_length p
  have hbody : moofBody p = ((([0x6D, 0x66, 0x68, 0x64] : Bytes), beBytes 1 0 ++ beBytes 3 0 ++ beBytes 4 p.sequenceNumber) ::
      (placedTracks (moofSize p + 8) 0 p.tracks).map fun x => (([0x74, 0x72, 0x61, 0x66] : Bytes), trafBody x.1 x.2)).flatMap fun x => box x.1 x.2 := by
    unfold moofBody
    rw [List.flatMap_cons, fiso_placed]
    rfl
  have hb0 := fiso_boxes _ (moofBody p) hbody (by
    intro x hx
    rcases List.mem_cons.1 hx with rfl | hx
    · rfl
    · obtain ⟨y, _, rfl⟩ := List.mem_map.1 hx
      rfl) (by omega)
  have htr : all readTrackFragment ((placedTracks (moofSize p + 8) 0 p.tracks).map fun x => trafBody x.1 x.2) =
      some ((placedTracks (moofSize p + 8) 0 p.tracks).map fun x => trackOf x.1 x.2) := by
    refine fiso_all _ _ _ _ fun x hx => ?_
    obtain ⟨hx1, hx2⟩ := fiso_placed_le _ _ _ x hx
    refine fiso_track x.1 x.2 (by omega) (h2 _ hx1) ?_
    have hin : (([0x74, 0x72, 0x61, 0x66] : Bytes), trafBody x.1 x.2) ∈ ((([0x6D, 0x66, 0x68, 0x64] : Bytes), beBytes 1 0 ++ beBytes 3 0 ++ beBytes 4 p.sequenceNumber) ::
      (placedTracks (moofSize p + 8) 0 p.tracks).map fun x => (([0x74, 0x72, 0x61, 0x66] : Bytes), trafBody x.1 x.2)) :=
      List.mem_cons_of_mem _ (List.mem_map_of_mem (f := fun x : PartTrack × Nat => (([0x74, 0x72, 0x61, 0x66] : Bytes), trafBody x.1 x.2)) hx)
    have hle : (trafBody x.1 x.2).length ≤ (moofBody p).length := by
      rw [hbody]
      generalize ((([0x6D, 0x66, 0x68, 0x64] : Bytes), beBytes 1 0 ++ beBytes 3 0 ++ beBytes 4 p.sequenceNumber) ::
        (placedTracks (moofSize p + 8) 0 p.tracks).map fun x => (([0x74, 0x72, 0x61, 0x66] : Bytes), trafBody x.1 x.2)) = L at hin
      clear hbody hb0
      induction L with
      | nil => cases hin
      | cons y L ih =>
        rw [List.flatMap_cons, List.length_append]
        rcases List.mem_cons.1 hin with rfl | hin
        · rw [box_len _ _ rfl]; dsimp only; omega
        · have := ih hin; omega
    omega
  obtain ⟨o1, o2⟩ := fiso_named (fourcc 't' 'r' 'a' 'f') (fourcc 'm' 'f' 'h' 'd') (beBytes 1 0 ++ beBytes 3 0 ++ beBytes 4 p.sequenceNumber)
    (fun x : PartTrack × Nat => trafBody x.1 x.2) (placedTracks (moofSize p + 8) 0 p.tracks) rfl
  obtain ⟨w1, w2, w3, w4, w5, w6⟩ := fiso_full 0 0 p.sequenceNumber [] (by decide) (by decide) h1 (fun _ h => by cases h)
    (beBytes 1 0 ++ beBytes 3 0 ++ beBytes 4 p.sequenceNumber) (by simp)
  have hl8 : (beBytes 1 0 ++ beBytes 3 0 ++ beBytes 4 p.sequenceNumber).length = 8 := by simp [beBytes_length]
  have hb : boxes (moofBody p) = some ((fourcc 'm' 'f' 'h' 'd', beBytes 1 0 ++ beBytes 3 0 ++ beBytes 4 p.sequenceNumber) ::
      (placedTracks (moofSize p + 8) 0 p.tracks).map fun x => (fourcc 't' 'r' 'a' 'f', trafBody x.1 x.2)) := hb0
  unfold fragmentOf readFragment
  clear hbody hb0 w1 w2 w3 w4 w6
  generalize (placedTracks (moofSize p + 8) 0 p.tracks).map (fun x => trackOf x.1 x.2) = ts at *
  generalize (placedTracks (moofSize p + 8) 0 p.tracks).map (fun x => trafBody x.1 x.2) = us at *
  generalize (fourcc 'm' 'f' 'h' 'd', beBytes 1 0 ++ beBytes 3 0 ++ beBytes 4 p.sequenceNumber) ::
      (placedTracks (moofSize p + 8) 0 p.tracks).map (fun x => (fourcc 't' 'r' 'a' 'f', trafBody x.1 x.2)) = L at *
  generalize beBytes 1 0 ++ beBytes 3 0 ++ beBytes 4 p.sequenceNumber = m at *
  rw [hb, some_bind, o1, some_bind, ensure_bind _ hl8, o2, htr, some_bind, w5]

/-- The fragments of parts from a position on. -/
def fragmentsOf : Nat → List Part → List Fragment
  | _, [] => []
  | position, p :: l => fragmentOf position p :: fragmentsOf (position + (partBytes p).length) l

theorem fiso_fragments (l : List Part) : ∀ position, (∀ p ∈ l, FitsPart32 p) →
    readFragments position (l.flatMap partBoxes) = some (fragmentsOf position l) := by
  induction l with
  | nil => intro _ _; rfl
  | cons p l ih =>
    intro position h
    have hf := fiso_fragment position p (h p List.mem_cons_self)
    have ih := ih (position + (partBytes p).length) fun x hx => h x (List.mem_cons_of_mem _ hx)
    rw [List.flatMap_cons]
    show readFragments position ((typMoof, moofBody p) :: (typMdat, p.tracks.flatMap trackData) :: l.flatMap partBoxes) = _
    have e : position + 8 + (moofBody p).length + 8 + (p.tracks.flatMap trackData).length = position + (partBytes p).length := by
      rw [fiso_part_length, ← fiso_moof_length]; omega
    unfold readFragments
    unfold readFragments
    dsimp only
    rw [e, ih]
    rw [some_bind, if_neg (by decide), some_bind, if_pos (by decide), hf]
    rfl

/-! ## Samples -/

/-- Samples from a time and a position on. -/
def placedSamples : Int → Nat → List Sample → List FragmentSample
  | _, _, [] => []
  | time, position, sa :: l =>
    ⟨⟨time, time + sa.ptsOffset, !sa.isNonSync, position, sa.payload.length⟩, 1⟩ ::
      placedSamples (time + sa.duration) (position + sa.payload.length) l

theorem fiso_samples (id : Nat) (a b : Bool) (l : List Sample) : ∀ (time : Int) (position : Nat), (∀ sa ∈ l, sa.isNonSync = true → a = true) →
    (∀ sa ∈ l, sa.ptsOffset ≠ 0 → b = true) →
    (runSamples ⟨id, 1, 0, 0, 0⟩ none time position (l.map (rowOf a b))).1 = placedSamples time position l := by
  induction l with
  | nil => intro _ _ _ _; rfl
  | cons sa l ih =>
    intro time position ha hb
    have ih := ih (time + sa.duration) (position + sa.payload.length) (fun x hx => ha x (List.mem_cons_of_mem _ hx))
      fun x hx => hb x (List.mem_cons_of_mem _ hx)
    have ha := ha sa List.mem_cons_self
    have hb := hb sa List.mem_cons_self
    have h1 : (rowOf a b sa).offset = sa.ptsOffset := by
      unfold rowOf
      cases b with
      | true => rfl
      | false =>
        by_cases h : sa.ptsOffset = 0
        · exact h.symm
        · exact absurd (hb h) Bool.false_ne_true
    have h2 : Spec.ISO.isSyncSample ((rowOf a b sa).flags.getD 0) = !sa.isNonSync := by
      unfold rowOf
      cases hs : sa.isNonSync with
      | true =>
        rw [ha hs]
        show Spec.ISO.isSyncSample 65536 = false
        decide
      | false =>
        cases a
        · show Spec.ISO.isSyncSample 0 = true
          decide
        · show Spec.ISO.isSyncSample 0 = true
          decide
    show (⟨⟨time, time + (rowOf a b sa).offset, Spec.ISO.isSyncSample ((rowOf a b sa).flags.getD 0), position, sa.payload.length⟩, 1⟩ : FragmentSample) ::
      (runSamples ⟨id, 1, 0, 0, 0⟩ none (time + sa.duration) (position + sa.payload.length) (l.map (rowOf a b))).1 = _
    rw [h1, h2, ih]
    rfl

/-- The samples that are given, from decoding time `d` on: decoding time, composition time, whether it is a sync sample, payload, index of the
description. -/
def fragmentGiven : Int → List Sample → List (Int × Int × Bool × Bytes × Nat)
  | _, [] => []
  | d, sa :: l => (d, d + sa.ptsOffset, !sa.isNonSync, sa.payload, 1) :: fragmentGiven (d + sa.duration) l

/-- What is seen of a sample. -/
def seenSample (file : Bytes) (s : FragmentSample) : Int × Int × Bool × Bytes × Nat :=
  (s.decoding, s.composition, s.sync, s.toSample.bytes file, s.description)

theorem fiso_seen (file : Bytes) (l : List Sample) : ∀ (time : Int) (position : Nat) (rest : Bytes), file.drop position = l.flatMap (·.payload) ++ rest →
    (placedSamples time position l).map (seenSample file) = fragmentGiven time l := by
  induction l with
  | nil => intro _ _ _ _; rfl
  | cons sa l ih =>
    intro time position rest h
    rw [List.flatMap_cons, List.append_assoc] at h
    have hr : region file position sa.payload.length = sa.payload := by unfold region; rw [h, List.take_left]
    have := ih (time + sa.duration) (position + sa.payload.length) rest (by rw [← List.drop_drop, h, List.drop_left])
    unfold placedSamples fragmentGiven
    rw [List.map_cons, this]
    unfold seenSample Spec.ISO.Sample.bytes
    dsimp only
    rw [hr]

/-- What is seen of the tracks of a fragment. -/
def seenTracks (file : Bytes) (l : List (Nat × List FragmentSample)) : List (Nat × List (Int × Int × Bool × Bytes × Nat)) :=
  l.map fun t => (t.1, t.2.map (seenSample file))

theorem fiso_tracks (defaults : List Defaults) (file : Bytes) (moof delta : Nat) (l : List PartTrack) : ∀ (n previous : Nat) (rest : Bytes),
    (∀ t ∈ l, ∃ i, defaults.find? (fun d => d.id == t.id) = some ⟨i, 1, 0, 0, 0⟩) →
    file.drop (moof + (n + delta)) = l.flatMap trackData ++ rest →
    ∃ r, tracksSamples defaults moof previous ((placedTracks delta n l).map fun x => trackOf x.1 x.2) = some r ∧
      seenTracks file r = l.map fun t => (t.id, fragmentGiven t.baseTime t.samples) := by
  induction l with
  | nil => intro _ _ _ _ _; exact ⟨[], rfl, rfl⟩
  | cons t l ih =>
    intro n previous rest hd hf
    rw [List.flatMap_cons, List.append_assoc] at hf
    obtain ⟨i, hi⟩ := hd t List.mem_cons_self
    have hrun : ∀ (o : Int) (first : Option Nat) (rows : List RunSample) (d : Defaults) (base : Nat) (time : Int) (position : Nat),
        (runsSamples d base time position [⟨some o, first, rows⟩]).1 = (runSamples d first time (base + o).toNat rows).1 := by
      intro o first rows d base time position
      show _ ++ [] = _
      rw [List.append_nil]
    obtain ⟨r, h1, h2⟩ := ih (n + (trackData t).length)
      (runsSamples (effective ⟨i, 1, 0, 0, 0⟩ (trackOf t ((n + delta : Nat) : Int)).toFragmentHeader) moof t.baseTime moof
        (trackOf t ((n + delta : Nat) : Int)).runs).2 rest
      (fun x hx => hd x (List.mem_cons_of_mem _ hx))
      (by rw [show moof + (n + (trackData t).length + delta) = moof + (n + delta) + (trackData t).length by omega, ← List.drop_drop, hf, List.drop_left])
    refine ⟨(t.id, (runsSamples (effective ⟨i, 1, 0, 0, 0⟩ (trackOf t ((n + delta : Nat) : Int)).toFragmentHeader) moof t.baseTime moof
        (trackOf t ((n + delta : Nat) : Int)).runs).1) :: r, ?_, ?_⟩
    · show tracksSamples defaults moof previous (trackOf t ((n + delta : Nat) : Int) ::
        (placedTracks delta (n + (trackData t).length) l).map fun x => trackOf x.1 x.2) = _
      unfold tracksSamples
      have e1 : (trackOf t ((n + delta : Nat) : Int)).id = t.id := rfl
      have e2 : (trackOf t ((n + delta : Nat) : Int)).base.getD (if (trackOf t ((n + delta : Nat) : Int)).baseIsMoof then moof else previous) = moof := rfl
      have e3 : (trackOf t ((n + delta : Nat) : Int)).time = t.baseTime := rfl
      rw [e1, e2, e3, hi, some_bind]
      dsimp only
      rw [h1, some_bind]
    · unfold seenTracks at h2 ⊢
      rw [List.map_cons, List.map_cons, h2]
      dsimp only
      have e1 : (trackOf t ((n + delta : Nat) : Int)).runs = [⟨some ((n + delta : Nat) : Int), none,
        t.samples.map (rowOf (t.samples.any (·.isNonSync)) (t.samples.any (·.ptsOffset ≠ 0)))⟩] := rfl
      have e2 : effective ⟨i, 1, 0, 0, 0⟩ (trackOf t ((n + delta : Nat) : Int)).toFragmentHeader = ⟨t.id, 1, 0, 0, 0⟩ := rfl
      have e3 : ((moof : Int) + ((n + delta : Nat) : Int)).toNat = moof + (n + delta) := by omega
      rw [e1, e2, hrun]
      rw [e3, fiso_samples, fiso_seen file t.samples _ _ _ hf]
      · intro sa hs hn
        exact List.any_eq_true.2 ⟨sa, hs, hn⟩
      · intro sa hs hn
        exact List.any_eq_true.2 ⟨sa, hs, decide_eq_true hn⟩

/-- What is seen of a part. -/
def givenPart (p : Part) : Nat × List (Nat × List (Int × Int × Bool × Bytes × Nat)) :=
  (p.sequenceNumber, p.tracks.map fun t => (t.id, fragmentGiven t.baseTime t.samples))

/-- Parts after other bytes. -/
theorem fiso_parts (defaults : List Defaults) (file : Bytes) (l : List Part) : ∀ (a : Bytes),
    (∀ p ∈ l, ∀ t ∈ p.tracks, ∃ i, defaults.find? (fun d => d.id == t.id) = some ⟨i, 1, 0, 0, 0⟩) → file = a ++ l.flatMap partBytes →
    ∃ r, all (fun f => (tracksSamples defaults f.position f.position f.tracks).map fun t => (f.sequence, t)) (fragmentsOf a.length l) = some r ∧
      r.map (fun x => (x.1, seenTracks file x.2)) = l.map givenPart := by
  induction l with
  | nil => intro a _ _; exact ⟨[], rfl, rfl⟩
  | cons p l ih =>
    intro a hd hf
    have hf' : file = (a ++ partBytes p) ++ l.flatMap partBytes := by rw [hf, List.flatMap_cons, List.append_assoc]
    obtain ⟨r, h1, h2⟩ := ih (a ++ partBytes p) (fun q hq => hd q (List.mem_cons_of_mem _ hq)) hf'
    have hdrop : file.drop (a.length + (0 + (moofSize p + 8))) = p.tracks.flatMap trackData ++ l.flatMap partBytes := by
      have e : file = (a ++ (box typMoof (moofBody p) ++ (beBytes 4 (8 + (p.tracks.flatMap trackData).length) ++ typMdat))) ++
          (p.tracks.flatMap trackData ++ l.flatMap partBytes) := by
        rw [hf, List.flatMap_cons, fiso_partBytes]
        unfold partBoxes
        simp only [List.flatMap_cons, List.flatMap_nil, List.append_nil, List.append_assoc]
        rw [fmp4_box_eq typMdat]
        simp only [List.append_assoc]
      rw [e, List.drop_left' (by
        rw [List.length_append, List.length_append, List.length_append, box_len _ _ rfl, fiso_moof_length, beBytes_length]
        show a.length + (moofSize p + (4 + 4)) = _
        omega)]
    obtain ⟨x, g1, g2⟩ := fiso_tracks defaults file a.length (moofSize p + 8) p.tracks 0 a.length _ (hd p List.mem_cons_self) hdrop
    refine ⟨(p.sequenceNumber, x) :: r, ?_, ?_⟩
    · show all _ (fragmentOf a.length p :: fragmentsOf (a.length + (partBytes p).length) l) = _
      rw [List.length_append] at h1
      unfold all
      have e : (tracksSamples defaults (fragmentOf a.length p).position (fragmentOf a.length p).position (fragmentOf a.length p).tracks).map
        (fun t => ((fragmentOf a.length p).sequence, t)) = some (p.sequenceNumber, x) := by
        show (tracksSamples defaults a.length a.length ((placedTracks (moofSize p + 8) 0 p.tracks).map fun x => trackOf x.1 x.2)).map
          (fun t => (p.sequenceNumber, t)) = _
        rw [g1]
        rfl
      rw [e, some_bind, h1, some_bind]
    · rw [List.map_cons, List.map_cons, h2]
      dsimp only
      rw [g2]
      rfl

end Verif.Props
