import Verif.Props.CodecKept
import Verif.Props.PMP4FileRoundTrip

/-!
# C84: writing a presentation that was read
-/

namespace Verif.Props
open PMP4 (Run StscEntry Event RTrack RSample PReader readEvent maxSamples)
open MP4Codec MP4Box FMP4Init
open PMP4File (placed)
open Readers (SBuf)

/-! ## What is read fits what is written -/

/-- The numbers of a sample are in range, and the size of its payload is the one that is read. -/
def SampleKept (sa : RSample) : Prop :=
  sa.duration < 2 ^ 32 ∧ (-(2 ^ 31) ≤ sa.ptsOffset ∧ sa.ptsOffset < 2 ^ 31) ∧ ∀ o s, sa.location = some (o, s) → s = sa.payloadSize

def TableKept (r : PMP4.Reader) : Prop :=
  (-(2 ^ 31) ≤ r.timeOffset ∧ r.timeOffset < 2 ^ 31) ∧ ∀ sa ∈ r.samples, SampleKept sa

theorem kept_wrap (v : Int) : -(2 ^ 31) ≤ Bits.wrapInt32 v ∧ Bits.wrapInt32 v < 2 ^ 31 := by
  unfold Bits.wrapInt32
  omega

theorem kept_set {l : List RSample} {i : Nat} {sa : RSample} (h : ∀ x ∈ l, SampleKept x) (hs : SampleKept sa) : ∀ x ∈ l.set i sa, SampleKept x := by
  intro x hx
  rcases List.mem_or_eq_of_mem_set hx with hx | rfl
  · exact h x hx
  · exact hs

theorem kept_stts : ∀ (l : List (Run Nat)) (s : List RSample), (∀ e ∈ l, e.value < 2 ^ 32) → (∀ x ∈ s, SampleKept x) →
    Holds (fun s' => ∀ x ∈ s', SampleKept x) (PMP4.readSTTS l s) := by
  intro l
  induction l with
  | nil => intro s _ h; exact h
  | cons e l ih =>
    intro s he h
    refine holds_if (fun _ => trivial) fun _ => ih _ (fun x hx => he x (by simp [hx])) fun x hx => ?_
    rcases List.mem_append.1 hx with hx | hx
    · exact h x hx
    · rw [(List.mem_replicate.1 hx).2]
      exact ⟨he e (by simp), (by show -(2 ^ 31) ≤ (0 : Int) ∧ (0 : Int) < 2 ^ 31; decide), fun _ _ h => by cases h⟩

theorem kept_stss : ∀ (l : List Nat) (s : List RSample), (∀ x ∈ s, SampleKept x) → Holds (fun s' => ∀ x ∈ s', SampleKept x) (PMP4.readSTSS l s) := by
  intro l
  induction l with
  | nil => intro s h; exact h
  | cons e l ih =>
    intro s h
    exact holds_if (fun _ => trivial) fun _ => holds_bind (kept_idx _ _) fun sa hsa => ih _ (kept_set h (h sa hsa))

theorem kept_offsets (v : Int) (hv : -(2 ^ 31) ≤ v ∧ v < 2 ^ 31) : ∀ (k n : Nat) (s : List RSample), (∀ x ∈ s, SampleKept x) →
    Holds (fun s' => ∀ x ∈ s', SampleKept x) (PMP4.setOffsets v k n s) := by
  intro k
  induction k with
  | zero => intro n s h; exact h
  | succ k ih =>
    intro n s h
    exact holds_bind (kept_idx _ _) fun sa hsa => ih _ _ (kept_set h ⟨(h sa hsa).1, hv, (h sa hsa).2.2⟩)

theorem kept_ctts : ∀ (l : List (Run Int)) (n : Nat) (s : List RSample), (∀ x ∈ s, SampleKept x) →
    Holds (fun s' => ∀ x ∈ s', SampleKept x) (PMP4.readCTTS l n s) := by
  intro l
  induction l with
  | nil => intro n s h; exact h
  | cons e l ih =>
    intro n s h
    exact holds_if (fun _ => trivial) fun _ => holds_bind (kept_offsets _ (kept_wrap _) _ _ _ h) fun s' hs' => ih _ _ hs'

theorem kept_locateChunk (sizes : List Nat) : ∀ (k off i : Nat) (s : List RSample), (∀ x ∈ s, SampleKept x) →
    Holds (fun r => ∀ x ∈ r.2, SampleKept x) (PMP4.locateChunk sizes k off i s) := by
  intro k
  induction k with
  | zero => intro off i s h; exact h
  | succ k ih =>
    intro off i s h
    refine holds_bind (holds_any _) fun size _ => holds_bind (kept_idx _ _) fun sa hsa => ih _ _ _ (kept_set h ?_)
    refine ⟨(h sa hsa).1, (h sa hsa).2.1, fun o s e => ?_⟩
    cases e; rfl

theorem kept_locate (sizes : List Nat) : ∀ (l : List (Nat × Nat)) (i : Nat) (s : List RSample), (∀ x ∈ s, SampleKept x) →
    Holds (fun s' => ∀ x ∈ s', SampleKept x) (PMP4.locate sizes l i s) := by
  intro l
  induction l with
  | nil => intro i s h; exact h
  | cons e l ih =>
    intro i s h
    exact holds_bind (kept_locateChunk _ _ _ _ _ h) fun r hr => ih _ _ hr

/-- The durations of the table fit their type. -/
def BoxKept : PMP4.Box → Prop
  | .stts l => ∀ e ∈ l, e.value < 2 ^ 32
  | _ => True

theorem kept_box (r : PMP4.Reader) (b : PMP4.Box) (hb : BoxKept b) (h : TableKept r) : Holds TableKept (PMP4.readBox r b) := by
  cases b with
  | stts l => exact holds_if (fun _ => trivial) fun _ => holds_bind (kept_stts l _ hb h.2) fun s hs => ⟨kept_wrap _, hs⟩
  | stss l =>
    refine holds_if (fun _ => ?_) fun _ => trivial
    refine holds_bind (kept_stss l _ fun x hx => ?_) fun s hs => ⟨h.1, hs⟩
    obtain ⟨y, hy, rfl⟩ := List.mem_map.1 hx
    exact h.2 y hy
  | ctts l => exact holds_if (fun _ => holds_bind (kept_ctts l _ _ h.2) fun s hs => ⟨h.1, hs⟩) fun _ => trivial
  | stsc l => exact holds_if (fun _ => holds_bind (holds_any _) fun _ _ => h) fun _ => trivial
  | stsz l => exact holds_if (fun _ => h) fun _ => trivial
  | stco l =>
    exact holds_if (fun _ => holds_if (fun _ => trivial) fun _ => holds_bind (holds_any _) fun _ _ => holds_if (fun _ => trivial) fun _ =>
      holds_bind (kept_locate _ _ _ _ h.2) fun s hs => ⟨h.1, hs⟩) fun _ => trivial

/-! ### Files -/

theorem kept_entries (ws : List Nat) : ∀ (n : Nat) (b : Bytes), Holds (fun l => ∀ f ∈ l, ∀ i, f.getD i 0 < 2 ^ ws.getD i 0)
    (PMP4File.decodeEntries ws n b) := by
  intro n
  induction n with
  | zero => intro b f hf; cases hf
  | succ n ih =>
    intro b
    refine holds_bind (kept_unpack _ _) fun f hf => holds_bind (ih _) fun l hl => ?_
    intro g hg
    rcases List.mem_cons.1 hg with rfl | hg
    · exact hf
    · exact hl g hg

/-- The durations of a table fit their type. -/
def EventKept : Event → Prop
  | .table b => BoxKept b
  | _ => True

theorem kept_event (typ payload : Bytes) : Holds EventKept (PMP4File.decodeEvent typ payload) := by
  unfold PMP4File.decodeEvent
  refine holds_if (fun _ => trivial) fun _ => holds_if (fun _ => trivial) fun _ => holds_if (fun _ => trivial) fun _ =>
    holds_if (fun _ => trivial) fun _ => holds_if (fun _ => holds_bind (holds_any _) fun _ _ => trivial) fun _ => holds_if (fun _ => trivial) fun _ =>
    holds_if (fun _ => trivial) fun _ => holds_if (fun _ => trivial) fun _ => holds_if (fun _ => holds_bind (holds_any _) fun _ _ => trivial) fun _ =>
    holds_if (fun _ => trivial) fun _ => holds_if (fun _ => trivial) fun _ => holds_if (fun _ => trivial) fun _ =>
    holds_if (fun _ => ?_) fun _ => holds_if (fun _ => holds_bind (holds_any _) fun _ _ => trivial) fun _ =>
    holds_if (fun _ => holds_bind (holds_any _) fun _ _ => trivial) fun _ => holds_if (fun _ => holds_bind (holds_any _) fun _ _ => trivial) fun _ =>
    holds_if (fun _ => holds_bind (holds_any _) fun _ _ => trivial) fun _ => holds_if (fun _ => holds_bind (holds_any _) fun _ _ => trivial) fun _ =>
    trivial
  unfold PMP4File.decodeStts PMP4File.decodeTable
  refine holds_bind (P := fun l : List (Run Nat) => ∀ e ∈ l, e.value < 2 ^ 32) (holds_bind (P := fun x : Nat × List (List Nat) => ∀ f ∈ x.2, f.getD 1 0 < 2 ^ 32)
    (holds_bind (holds_any _) fun _ _ => holds_bind (kept_entries _ _ _) fun l hl => fun f hf => hl f hf 1) fun x hx => ?_) fun l hl => hl
  intro e he
  obtain ⟨f, hf, rfl⟩ := List.mem_map.1 he
  exact hx f hf

/-- What holds of the variables of `Presentation.Unmarshal`. -/
structure FileKept (r : PMP4File.Reader) : Prop where
  reader : ∀ c, r.codecReader = some c → KeptReader c
  codec : ∀ c, r.codec = some c → SmallConfig c → Kept c
  codecs : ∀ x ∈ r.codecs, ∀ c, x = some c → SmallConfig c → Kept c
  cur : ∀ t, r.base.cur = some t → TableKept t.reader
  tracks : ∀ t ∈ r.base.tracks, TableKept t.reader

theorem kept_all (r : PMP4File.Reader) (h : FileKept r) : (∀ t ∈ r.base.all, TableKept t.reader) ∧
    ∀ x ∈ r.allCodecs, ∀ c, x = some c → SmallConfig c → Kept c := by
  unfold PMP4File.Reader.allCodecs PReader.all
  cases hc : r.base.cur with
  | none => exact ⟨h.tracks, h.codecs⟩
  | some t =>
    dsimp only
    cases hl : r.base.listed with
    | false => exact ⟨h.tracks, h.codecs⟩
    | true =>
      rw [if_pos rfl, if_pos rfl]
      refine ⟨fun u hu => ?_, fun x hx => ?_⟩
      · rcases List.mem_append.1 hu with hu | hu
        · exact h.tracks u hu
        · rw [List.mem_singleton.1 hu]; exact h.cur t hc
      · rcases List.mem_append.1 hx with hu | hu
        · exact h.codecs x hu
        · rw [List.mem_singleton.1 hu]; exact h.codec

theorem kept_same (r : PMP4File.Reader) (p : PReader) (h : FileKept r) (h1 : p.tracks = r.base.tracks) (h2 : p.cur = r.base.cur) :
    FileKept { r with base := p } :=
  ⟨h.reader, h.codec, h.codecs, fun t ht => h.cur t (h2 ▸ ht), fun t ht => h.tracks t (h1 ▸ ht)⟩

theorem kept_step (r : PMP4File.Reader) (e : Event) (h : FileKept r) (he : EventKept e) : Holds FileKept (r.step e) := by
  refine holds_of fun r' hr' => ?_
  unfold PMP4File.Reader.step at hr'
  obtain ⟨p, hp, hr'⟩ := Res.bind_eq_ok.1 hr'
  cases e with
  | ftyp | moov | mvhd | edts | mdia | minf | stbl | elst =>
    cases hr'
    unfold readEvent at hp
    dsimp only at hp
    split at hp
    · cases hp
    · cases hp
      exact kept_same r _ h rfl rfl
  | stsd =>
    cases hr'
    unfold readEvent at hp
    dsimp only at hp
    split at hp
    · cases hp
    · cases hp
      exact ⟨fun c hc => by cases hc; exact kept_new, h.codec, h.codecs, h.cur, h.tracks⟩
  | trak =>
    cases hr'
    unfold readEvent at hp
    dsimp only at hp
    split at hp
    · cases hp
    · cases hp
      obtain ⟨a1, a2⟩ := kept_all r h
      refine ⟨h.reader, fun c hc => (by cases hc), a2, fun t ht => ?_, a1⟩
      cases ht
      exact ⟨by decide, fun _ hx => by cases hx⟩
  | tkhd id =>
    cases hr'
    unfold readEvent PReader.withCur at hp
    dsimp only at hp
    split at hp
    · cases hp
    · split at hp
      · rename_i t hc
        cases hp
        exact ⟨h.reader, h.codec, h.codecs, fun u hu => by cases hu; exact h.cur t hc, h.tracks⟩
      · cases hp
  | mdhd ts d =>
    cases hr'
    unfold readEvent PReader.withCur at hp
    dsimp only at hp
    split at hp
    · cases hp
    · split at hp
      · cases hp
      · split at hp
        · rename_i t hc
          cases hp
          exact ⟨h.reader, h.codec, h.codecs, fun u hu => by cases hu; exact h.cur t hc, h.tracks⟩
        · cases hp
  | codec f =>
    cases hr'
    unfold readEvent at hp
    dsimp only at hp
    split at hp
    · cases hp
    · split at hp
      · cases hp; exact kept_same r _ h rfl rfl
      · split at hp
        · cases hp; exact kept_same r _ h rfl rfl
        · split at hp
          · cases hp
          · cases hp
            exact ⟨h.reader, h.codec, h.codecs, h.cur, fun t ht => h.tracks t (List.dropLast_subset _ ht)⟩
  | codecError =>
    cases hr'
    unfold readEvent at hp
    dsimp only at hp
    split at hp
    · cases hp
    · cases hp; exact h
  | other => cases hr'; cases hp; exact h
  | table b =>
    cases hr'
    unfold readEvent PReader.withCur at hp
    dsimp only at hp
    split at hp
    · cases hp
    · split at hp
      · rename_i t hc
        obtain ⟨x, hx, hp⟩ := Res.bind_eq_ok.1 hp
        cases hp
        refine ⟨h.reader, h.codec, h.codecs, fun u hu => ?_, h.tracks⟩
        cases hu
        have hk : TableKept { t.reader with props := decide (r.base.state = PMP4.State.waitingSampleProps), trackDuration := r.base.trackDuration } :=
          h.cur t hc
        exact holds_get (kept_box _ b he hk) hx
      · cases hp

theorem kept_readFileBox (r : PMP4File.Reader) (typ payload : Bytes) (expand : PMP4File.Reader → Res PMP4File.Reader) (h : FileKept r)
    (hx : ∀ r, FileKept r → Holds FileKept (expand r)) : Holds FileKept (r.readBox typ payload expand) :=
  holds_bind (kept_event typ payload) fun e he => holds_bind (kept_step r e h he) fun r' hr' => holds_if (fun _ => hx r' hr') fun _ => hr'

theorem kept_ended (r : PMP4File.Reader) (c : CodecReader) (h : FileKept r) (hc : KeptReader c) : Holds FileKept (r.codecEnded c) := by
  refine holds_of fun r' hr' => ?_
  unfold PMP4File.Reader.codecEnded at hr'
  obtain ⟨p, hp, hr'⟩ := Res.bind_eq_ok.1 hr'
  cases hr'
  have hk : FileKept { r with base := p } := by
    have := holds_get (x := r.step (.codec c.codec.isSome)) (kept_step r _ h trivial) (a := { r with base := p }) (by
      unfold PMP4File.Reader.step; rw [hp]; rfl)
    exact this
  refine ⟨hk.reader, fun k hk' => ?_, fun x hx => ?_, hk.cur, hk.tracks⟩
  · dsimp only at hk'
    split at hk'
    · exact hc.codec k hk'
    · exact h.codec k hk'
  · dsimp only at hx
    split at hx
    · exact h.codecs x hx
    · exact h.codecs x (List.dropLast_subset _ hx)

theorem kept_handle (bi : FMP4.BoxInfo) (depth : Nat) (payload : Bytes) (expand : PMP4File.Reader → Res PMP4File.Reader) (r : PMP4File.Reader)
    (h : FileKept r) (hx : ∀ r, FileKept r → Holds FileKept (expand r)) : Holds FileKept (PMP4File.handle bi depth payload expand r) := by
  unfold PMP4File.handle
  refine holds_if (fun hs => ?_) fun _ => kept_readFileBox r _ _ _ h hx
  refine holds_of fun r' hr' => ?_
  obtain ⟨c, h1, hr'⟩ := Res.bind_eq_ok.1 hr'
  have h1 : r.codecReader = some c := by
    cases e : r.codecReader with
    | none => rw [e] at h1; cases h1
    | some v => rw [e] at h1; cases h1; rfl
  have h2 := h.reader c h1
  refine holds_get (P := FileKept) ?_ hr'
  refine holds_bind (kept_read c depth bi.typ payload h2) fun a ha => ?_
  cases a with
  | ended => exact holds_bind (kept_ended r c h h2) fun r' hr' => kept_readFileBox r' _ _ _ hr' hx
  | done c' => exact ⟨fun k hk => by cases hk; exact ha, h.codec, h.codecs, h.cur, h.tracks⟩
  | expand c' => exact hx _ ⟨fun k hk => by cases hk; exact ha, h.codec, h.codecs, h.cur, h.tracks⟩

theorem kept_unmarshal (fields : Fields) (b : Bytes) (l : List (RTrack × Option Codec)) (h : PMP4File.unmarshal fields b = .ok l) :
    ∀ x ∈ l, TableKept x.1.reader ∧ ∀ c, x.2 = some c → SmallConfig c → Kept c := by
  unfold PMP4File.unmarshal at h
  obtain ⟨r, hr, h⟩ := Res.bind_eq_ok.1 h
  have hf : FileKept r := holds_get (holds_readTree fields PMP4File.handle FileKept kept_handle (b.length + 1) b 0 none 1 {}
    ⟨fun _ h => (by cases h), fun _ h => (by cases h), fun _ h => (by cases h), fun _ h => (by cases h), fun _ h => (by cases h)⟩) hr
  split at h
  · cases h
  · split at h
    · cases h
    · cases h
      obtain ⟨a1, a2⟩ := kept_all r hf
      intro x hx
      obtain ⟨h1, h2⟩ := List.of_mem_zip hx
      exact ⟨a1 _ h1, a2 _ h2⟩

/-! ## Writing fails only for a reason -/

open MP4Writer in
section
variable {E : String → Prop}

theorem ends_posBox (hE : E "header size changed") (f : SBuf) (typ payload : Bytes) (h : Live f) :
    Ends (fun r => 0 ≤ r.1 ∧ Live r.2) E (writeBox f typ payload) :=
  ends_bind (ends_boxStart f typ payload h) fun _ hr => ends_bind (ends_boxEnd hE _ _ _ hr.2 hr.1) fun _ h2 => ends_ok ⟨hr.1, h2⟩

theorem ends_rewriteBox (hE : E "header size changed") (f : SBuf) (off : Int) (typ payload : Bytes) (h : Live f) (ho : 0 ≤ off) :
    Ends Live E (rewriteBox f off typ payload) :=
  ends_bind (ends_fileSeek _ _ ho) fun _ h1 => ends_bind (ends_boxStart _ _ _ h1) fun _ h2 => ends_bind (ends_boxEnd hE _ _ _ h2.2 h2.1) fun _ _ =>
    ends_fileSeek _ _ h

theorem ends_edts (hE : E "header size changed") (f : SBuf) (t : PMP4.Track) (h : Live f) (ht : t.timeScale ≠ 0) : Ends Live E (PMP4File.writeEdts f t) :=
  ends_bind (ends_boxStart _ _ _ h) fun _ h1 => ends_bind (ends_of_ok (pmp4_elst_ok t ht).2) fun _ _ =>
    ends_bind (ends_box hE _ _ _ h1.2) fun _ h2 => ends_boxEnd hE _ _ _ h2 h1.1

theorem ends_fileStsd (hE : E "header size changed") (f : SBuf) (id : Nat) (c : Codec) (info : CodecInfo) (h : Live f)
    (h1 : Ends (fun _ => True) E (sampleEntry info c)) (h2 : ∀ id avg max, Ends (fun _ => True) E (configBox id info avg max c)) :
    Ends Live E (PMP4File.writeStsd f id c info) :=
  ends_bind (ends_boxStart _ _ _ h) fun _ h3 => ends_bind (ends_codecBoxes hE _ _ _ _ _ _ h3.2 h1 (h2 _ _ _)) fun _ h4 =>
    ends_bind (ends_boxEnd hE _ _ _ h4.2 h4.1) fun _ h6 => ends_boxEnd hE _ _ _ h6 h3.1

theorem ends_stss (hE : E "header size changed") (f : SBuf) (l : List PMP4.Sample) (h : Live f) : Ends Live E (PMP4File.writeStss f l) := by
  unfold PMP4File.writeStss
  cases PMP4.marshalSTSS l with
  | none => exact ends_ok h
  | some x => exact ends_bind (ends_box hE _ _ _ h) fun _ h1 => ends_ok h1

theorem ends_stsc (l : List PMP4.Sample) (h : l.length < 2 ^ 32) : ∃ r, PMP4.marshalSTSC l = .ok r := by
  cases l with
  | nil => exact ⟨_, rfl⟩
  | cons a l =>
    obtain ⟨r, hr, _⟩ := pmp4_marshalSTSC a l h
    exact ⟨r, hr⟩

theorem ends_tables (hE : E "header size changed") (f : SBuf) (l : List PMP4.Sample) (h : Live f) (hl : l.length < 2 ^ 32) :
    Ends (fun r => 0 ≤ r.1 ∧ Live r.2) E (PMP4File.writeTables f l) := by
  have e1 : ∃ r, PMP4.marshalSTTS l = .ok r := (C45_stts l hl).imp fun _ h => h.1
  have e2 : ∃ r, PMP4.marshalCTTS l = .ok r := (C45_ctts l hl).imp fun _ h => h.1
  exact ends_bind (ends_of_ok e1) fun _ _ => ends_bind (ends_box hE _ _ _ h) fun _ h1 => ends_bind (ends_stss hE _ _ h1) fun _ h2 =>
    ends_bind (ends_of_ok e2) fun _ _ => ends_bind (ends_box hE _ _ _ h2) fun _ h3 => ends_bind (ends_of_ok (ends_stsc l hl)) fun _ _ =>
    ends_bind (ends_box hE _ _ _ h3) fun _ h4 => ends_bind (ends_box hE _ _ _ h4) fun _ h5 => ends_posBox hE _ _ _ h5

theorem ends_fileStbl (hE : E "header size changed") (f : SBuf) (t : PMP4File.Track) (c : Codec) (info : CodecInfo) (h : Live f)
    (hl : t.samples.length < 2 ^ 32) (h1 : Ends (fun _ => True) E (sampleEntry info c))
    (h2 : ∀ id avg max, Ends (fun _ => True) E (configBox id info avg max c)) :
    Ends (fun r => 0 ≤ r.1 ∧ Live r.2) E (PMP4File.writeStbl f t c info) :=
  ends_bind (ends_boxStart _ _ _ h) fun _ h3 => ends_bind (ends_fileStsd hE _ _ _ _ h3.2 h1 h2) fun _ h4 => ends_bind (ends_tables hE _ _ h4 hl) fun _ h5 =>
    ends_bind (ends_boxEnd hE _ _ _ h5.2 h3.1) fun _ h6 => ends_ok ⟨h5.1, h6⟩

theorem ends_fileTrack (hE : E "header size changed") (f : SBuf) (t : PMP4File.Track) (h : Live f) (ht : t.timeScale ≠ 0)
    (hl : t.samples.length < 2 ^ 32) (hc : CodecEnds E t.codec) :
    Ends (fun r => 0 ≤ r.1.stcoOffset ∧ Live r.2) E (PMP4File.marshalTrack f t) := by
  refine ends_bind (ends_boxStart _ _ _ h) fun _ h1 => ends_bind hc fun info hi => ?_
  obtain ⟨c, e, g1, g2⟩ := hi
  rw [e]
  refine ends_bind (ends_ok (P := (· = c)) rfl) fun _ hv => ?_
  subst hv
  exact ends_bind (ends_of_ok (pmp4_elst_ok t.toTrack ht).1) fun _ _ => ends_bind (ends_box hE _ _ _ h1.2) fun _ h3 =>
    ends_bind (ends_edts hE _ _ h3 ht) fun _ h4 => ends_bind (ends_boxStart _ _ _ h4) fun _ h5 => ends_bind (ends_box hE _ _ _ h5.2) fun _ h6 =>
    ends_bind (ends_box hE _ _ _ h6) fun _ h7 => ends_bind (ends_boxStart _ _ _ h7) fun _ h8 => ends_bind (ends_mediaHeader hE _ _ h8.2) fun _ h9 =>
    ends_bind (ends_dinf hE _ h9) fun _ h10 => ends_bind (ends_fileStbl hE _ t _ info h10 hl g1 g2) fun _ h11 =>
    ends_bind (ends_boxEnd hE _ _ _ h11.2 h8.1) fun _ h12 => ends_bind (ends_boxEnd hE _ _ _ h12 h5.1) fun _ h13 =>
    ends_bind (ends_boxEnd hE _ _ _ h13 h1.1) fun _ h14 => ends_ok ⟨h11.1, h14⟩

theorem ends_fileTracks (hE : E "header size changed") : ∀ (l : List PMP4File.Track) (f : SBuf), Live f →
    (∀ t ∈ l, t.timeScale ≠ 0 ∧ t.samples.length < 2 ^ 32 ∧ CodecEnds E t.codec) →
    Ends (fun r => (∀ m ∈ r.1, 0 ≤ m.stcoOffset) ∧ Live r.2) E (PMP4File.marshalTracks l f) := by
  intro l
  induction l with
  | nil => intro f h _; exact ends_ok ⟨fun _ hm => (by cases hm), h⟩
  | cons t l ih =>
    intro f h hl
    obtain ⟨g1, g2, g3⟩ := hl t (by simp)
    refine ends_bind (ends_fileTrack hE f t h g1 g2 g3) fun _ h1 => ends_bind (ih _ h1.2 fun x hx => hl x (by simp [hx])) fun _ h2 => ends_ok ⟨?_, h2.2⟩
    intro m hm
    rcases List.mem_cons.1 hm with rfl | hm
    · exact h1.1
    · exact h2.1 m hm

theorem ends_stcos (hE : E "header size changed") (d : Int) : ∀ (l : List PMP4File.Marshaled) (f : SBuf), Live f → (∀ m ∈ l, 0 ≤ m.stcoOffset) →
    Ends Live E (PMP4File.rewriteStcos d l f) := by
  intro l
  induction l with
  | nil => intro f h _; exact ends_ok h
  | cons m l ih =>
    intro f h hl
    exact ends_bind (ends_rewriteBox hE _ _ _ _ h (hl m (by simp))) fun _ h1 => ih _ h1 fun x hx => hl x (by simp [hx])

theorem ends_header (hE : E "header size changed") (l : List PMP4File.Track)
    (hl : ∀ t ∈ l, t.timeScale ≠ 0 ∧ t.samples.length < 2 ^ 32 ∧ CodecEnds E t.codec) :
    Ends (fun _ => True) E (PMP4File.marshalFtypAndMoov l) :=
  ends_bind (ends_box hE _ _ _ (Int.le_refl 0)) fun _ h1 => ends_bind (ends_boxStart _ _ _ h1) fun _ h2 => ends_bind (ends_posBox hE _ _ _ h2.2) fun _ h3 =>
    ends_bind (ends_fileTracks hE _ _ h3.2 hl) fun _ h4 => ends_bind (ends_rewriteBox hE _ _ _ _ h4.2 h3.1) fun _ h5 =>
    ends_bind (ends_boxEnd hE _ _ _ h5 h2.1) fun _ h6 => ends_bind (ends_stcos hE _ _ _ h6 h4.1) fun _ _ => ends_ok trivial

theorem ends_presentation (hE : E "header size changed") (ts : List PMP4File.Track) (hw : ∀ t ∈ ts, Writable t.toTrack)
    (hc : ∀ t ∈ ts, CodecEnds E t.codec) : Ends (fun _ => True) E (PMP4File.marshal ts) := by
  have hw' : ∀ t ∈ ts.map (·.toTrack), Writable t := by
    intro t ht
    obtain ⟨u, hu, rfl⟩ := List.mem_map.1 ht
    exact hw u hu
  obtain ⟨L, out, hL, _, _, h3, _⟩ := pmp4_sortSamples (ts.map (·.toTrack)) fun t ht _ => (hw' t ht).timeScale
  have hLw := pmp4_writable_layout _ L hw' h3
  have hlen : L.tracks.length = ts.length := by have := congrArg List.length h3; simpa using this
  obtain ⟨z1, z2⟩ := file_zipWith ts L.tracks hlen
  refine ends_bind (P := (· = L)) (by rw [hL]; exact rfl) fun L' e => ?_
  subst e
  refine ends_bind (ends_header hE _ fun t ht => ?_) fun _ _ => ends_ok trivial
  have m1 : t.toTrack ∈ L'.tracks := by rw [← z1]; exact List.mem_map_of_mem (f := (·.toTrack)) ht
  have m2 : t.codec ∈ ts.map (·.codec) := by rw [← z2]; exact List.mem_map_of_mem (f := (·.codec)) ht
  obtain ⟨u, hu, e⟩ := List.mem_map.1 m2
  have hm : maxSamples < 2 ^ 32 := by decide
  exact ⟨(hLw _ m1).timeScale, Nat.lt_of_le_of_lt (hLw _ m1).count hm, e ▸ hc u hu⟩

end

/-! ## C84 -/

/-- The tracks of a presentation that was read from `file`, as an application gives them to `Presentation.Marshal`: everything is what was seen, the
payloads are those that `GetPayload` returned. -/
def Copies (file : Bytes) (l : List (RTrack × Option Codec)) (ts : List PMP4File.Track) : Prop :=
  ts.map (fun t => (given t.toTrack, t.codec)) = l.map fun x => (seen file x.1, x.2)

/-- There are such tracks when all payloads can be obtained. -/
theorem C84_copies (file : Bytes) (l : List (RTrack × Option Codec)) (h : ∀ x ∈ l, ∀ sa ∈ x.1.reader.samples, ∃ p, PMP4.getPayload file sa = .ok p) :
    ∃ ts, Copies file l ts := by
  have hs : ∀ s : List RSample, (∀ sa ∈ s, ∃ p, PMP4.getPayload file sa = .ok p) → ∃ l : List PMP4.Sample,
      l.map (fun sa => (sa.duration, sa.ptsOffset, sa.isNonSync, sa.payloadSize, Res.ok sa.payload)) =
        s.map fun sa => (sa.duration, sa.ptsOffset, sa.isNonSync, sa.payloadSize, PMP4.getPayload file sa) := by
    intro s
    induction s with
    | nil => intro _; exact ⟨[], rfl⟩
    | cons sa s ih =>
      intro hp
      obtain ⟨l, hl⟩ := ih fun x hx => hp x (by simp [hx])
      obtain ⟨p, hp⟩ := hp sa (by simp)
      exact ⟨⟨sa.duration, sa.ptsOffset, sa.isNonSync, sa.payloadSize, p, 0⟩ :: l, by simp only [List.map_cons, hl, hp]⟩
  induction l with
  | nil => exact ⟨[], rfl⟩
  | cons x l ih =>
    obtain ⟨ts, hts⟩ := ih fun y hy => h y (by simp [hy])
    obtain ⟨s, e⟩ := hs _ (h x (by simp))
    refine ⟨⟨⟨x.1.id, x.1.timeScale, x.1.reader.timeOffset, s⟩, x.2⟩ :: ts, ?_⟩
    unfold Copies at hts ⊢
    rw [List.map_cons, List.map_cons, hts]
    simp only [given, seen, e]

/-- A track that is a copy. -/
theorem kept_copy (file : Bytes) (l : List (RTrack × Option Codec)) (ts : List PMP4File.Track) (h : Copies file l ts) (t : PMP4File.Track) (ht : t ∈ ts) :
    ∃ x ∈ l, given t.toTrack = seen file x.1 ∧ t.codec = x.2 := by
  have hm := List.mem_map_of_mem (f := fun t : PMP4File.Track => (given t.toTrack, t.codec)) ht
  unfold Copies at h
  rw [h] at hm
  obtain ⟨x, hx, e⟩ := List.mem_map.1 hm
  exact ⟨x, hx, (Prod.mk.inj e).1.symm, (Prod.mk.inj e).2.symm⟩

theorem kept_payload (file : Bytes) (sa : RSample) (p : Bytes) (h : SampleKept sa) (hp : PMP4.getPayload file sa = .ok p) : p.length = sa.payloadSize := by
  unfold PMP4.getPayload at hp
  split at hp
  · cases hp
  · rename_i o s e
    split at hp
    · rename_i hl
      cases hp
      rw [hl, h.2.2 o s e]
    · cases hp

theorem kept_writable (fields : Fields) (b : Bytes) (l : List (RTrack × Option Codec)) (ts : List PMP4File.Track)
    (h : PMP4File.unmarshal fields b = .ok l) (hc : Copies b l ts) : ∀ t ∈ ts, Writable t.toTrack ∧ t.timeScale < 2 ^ 32 ∧
      (∀ sa ∈ t.samples, sa.duration < 2 ^ 32) ∧ ∃ c, t.codec = some c ∧ (∃ info, fill (some c) = .ok info) ∧ c ≠ .flac none ∧
      (SmallConfig c → Kept c) := by
  intro t ht
  obtain ⟨x, hx, e, ec⟩ := kept_copy b l ts hc t ht
  obtain ⟨k1, k2⟩ := kept_unmarshal fields b l h x hx
  obtain ⟨r1, r2, r3, c, r4, r5, r6⟩ := (C82_result fields b l h).2 x hx
  simp only [given, seen, Prod.mk.injEq] at e
  obtain ⟨e1, e2, e3, e4⟩ := e
  have hs : ∀ sa ∈ t.samples, ∃ sb ∈ x.1.reader.samples, SampleKept sb ∧ sa.duration = sb.duration ∧ sa.ptsOffset = sb.ptsOffset ∧
      sa.payloadSize = sb.payloadSize ∧ PMP4.getPayload b sb = .ok sa.payload := by
    intro sa hsa
    have hm := List.mem_map_of_mem (f := fun sa : PMP4.Sample => (sa.duration, sa.ptsOffset, sa.isNonSync, sa.payloadSize, Res.ok sa.payload)) hsa
    rw [e4] at hm
    obtain ⟨sb, hsb, e⟩ := List.mem_map.1 hm
    simp only [Prod.mk.injEq] at e
    exact ⟨sb, hsb, k1.2 sb hsb, e.1.symm, e.2.1.symm, e.2.2.2.1.symm, e.2.2.2.2⟩
  have hl := congrArg List.length e4
  simp only [List.length_map] at hl
  refine ⟨⟨e1 ▸ r1, ?_, e3 ▸ k1.1, hl ▸ r3, fun sa hsa => ?_, fun sa hsa => ?_⟩, e2 ▸ r2.2, fun sa hsa => ?_, c, ec.trans r4, r5, r6, k2 c r4⟩
  · have := e2 ▸ r2.1
    omega
  · obtain ⟨sb, _, g, _, e, _⟩ := hs sa hsa
    exact e ▸ g.2.1
  · obtain ⟨sb, _, g, _, _, e, hp⟩ := hs sa hsa
    rw [kept_payload b sb _ g hp, e]
  · obtain ⟨sb, _, g, e, _⟩ := hs sa hsa
    exact e ▸ g.1

/-- **C84**, for codecs that can be written: what was read is written, unless a box does not fit in 4 GiB. -/
theorem C84_partial (fields : Fields) (b : Bytes) (l : List (RTrack × Option Codec)) (ts : List PMP4File.Track)
    (h : PMP4File.unmarshal fields b = .ok l) (hc : Copies b l ts)
    (hm : ∀ x ∈ l, ∀ a, x.2 = some (.mpeg4Audio a) → a.channelCount ≠ 0 ∨ (1 ≤ a.channelConfig ∧ a.channelConfig ≤ 7))
    (h3 : ∀ x ∈ l, ∀ a, x.2 = some (.ac3 a) → a.sampleRate = 48000 ∨ a.sampleRate = 44100 ∨ a.sampleRate = 32000)
    (he : ∀ x ∈ l, ∀ a, x.2 = some (.eac3 a) → a.sampleRate = 48000 ∨ a.sampleRate = 44100 ∨ a.sampleRate = 32000) :
    (∃ file, PMP4File.marshal ts = .ok file) ∨ PMP4File.marshal ts = .err "header size changed" := by
  have hw := kept_writable fields b l ts h hc
  have hend : Ends (fun _ => True) (· = "header size changed") (PMP4File.marshal ts) := by
    refine ends_presentation (E := (· = "header size changed")) rfl ts (fun t ht => (hw t ht).1) fun t ht => ?_
    obtain ⟨_, _, _, c, e, f1, f2, _⟩ := hw t ht
    obtain ⟨x, hx, _, ec⟩ := kept_copy b l ts hc t ht
    obtain ⟨info, i1, i2, i3⟩ := codec_accepted (E := (· = "header size changed")) c
      ⟨f1, f2, fun a ea => hm x hx a (by rw [← ec, e, ea]), fun a ea => h3 x hx a (by rw [← ec, e, ea]), fun a ea => he x hx a (by rw [← ec, e, ea])⟩
    unfold CodecEnds
    rw [e, i1]
    exact ⟨c, rfl, i2, i3⟩
  cases hr : PMP4File.marshal ts with
  | ok file => exact Or.inl ⟨file, rfl⟩
  | err e => rw [hr] at hend; exact Or.inr (by rw [show e = _ from hend])
  | panic => rw [hr] at hend; exact hend.elim

/-- **C84**: what was read and is written again is read again: the same tracks, samples and payloads, and the same codecs but for values that the
boxes do not tell. -/
theorem C84_again (fields : Fields) (b : Bytes) (l : List (RTrack × Option Codec)) (ts : List PMP4File.Track) (file : Bytes)
    (h : PMP4File.unmarshal fields b = .ok l) (hc : Copies b l ts) (hs : ∀ x ∈ l, ∀ c, x.2 = some c → SmallConfig c)
    (hf : PMP4File.marshal ts = .ok file) (hl : file.length < 2 ^ 32) :
    ∃ rts, PMP4File.unmarshal isoFields file = .ok rts ∧
      rts.map (fun x => (seen file x.1, x.2)) = l.map fun x => (seen b x.1, x.2.map restoredCodec) := by
  have hw := kept_writable fields b l ts h hc
  obtain ⟨rts, g1, g2⟩ := C81_round_trip ts file (by
      intro e
      have := (C82_result fields b l h).1
      rw [e] at hc
      cases l with
      | nil => exact this rfl
      | cons a l => cases hc) (fun t ht => by
      obtain ⟨w1, w2, w3, c, e, _, _, w4⟩ := hw t ht
      obtain ⟨x, hx, _, ec⟩ := kept_copy b l ts hc t ht
      refine ⟨w1, w2, w3, fun c' hc' => ?_⟩
      rw [e] at hc'
      cases hc'
      exact w4 (hs x hx c (by rw [← ec, e]))) hf hl
  refine ⟨rts, g1, g2.trans ?_⟩
  have := congrArg (List.map fun y : (Nat × Nat × Int × List (Nat × Int × Bool × Nat × Res Bytes)) × Option Codec => (y.1, y.2.map restoredCodec)) hc
  simpa only [List.map_map, Function.comp_def] using this

/-! ### Codecs that cannot be written -/

theorem kept_of_track (f : SBuf) (t : PMP4File.Track) (r : PMP4File.Marshaled × SBuf) (h : PMP4File.marshalTrack f t = .ok r) :
    ∃ c, t.codec = some c ∧ Accepted c := by
  obtain ⟨r1, _, h⟩ := Res.bind_eq_ok.1 h
  obtain ⟨info, hf, h⟩ := Res.bind_eq_ok.1 h
  obtain ⟨c, hc, h⟩ := Res.bind_eq_ok.1 h
  obtain ⟨v, e⟩ := codec_fill_some hf
  rw [e] at hc hf
  cases hc
  refine ⟨c, e, ?_⟩
  obtain ⟨_, _, h⟩ := Res.bind_eq_ok.1 h
  obtain ⟨_, _, h⟩ := Res.bind_eq_ok.1 h
  obtain ⟨_, _, h⟩ := Res.bind_eq_ok.1 h
  obtain ⟨_, _, h⟩ := Res.bind_eq_ok.1 h
  obtain ⟨_, _, h⟩ := Res.bind_eq_ok.1 h
  obtain ⟨_, _, h⟩ := Res.bind_eq_ok.1 h
  obtain ⟨_, _, h⟩ := Res.bind_eq_ok.1 h
  obtain ⟨_, _, h⟩ := Res.bind_eq_ok.1 h
  obtain ⟨_, _, h⟩ := Res.bind_eq_ok.1 h
  obtain ⟨_, hs, _⟩ := Res.bind_eq_ok.1 h
  obtain ⟨_, _, hs⟩ := Res.bind_eq_ok.1 hs
  obtain ⟨_, hs, _⟩ := Res.bind_eq_ok.1 hs
  obtain ⟨_, _, hs⟩ := Res.bind_eq_ok.1 hs
  obtain ⟨_, hs, _⟩ := Res.bind_eq_ok.1 hs
  obtain ⟨x, h1, hs⟩ := Res.bind_eq_ok.1 hs
  obtain ⟨_, _, hs⟩ := Res.bind_eq_ok.1 hs
  obtain ⟨y, h2, hs⟩ := Res.bind_eq_ok.1 hs
  exact codec_of_written c info hf ⟨x, h1⟩ ⟨_, _, _, y, h2⟩

theorem kept_of_tracks : ∀ (l : List PMP4File.Track) (f : SBuf) (r : List PMP4File.Marshaled × SBuf), PMP4File.marshalTracks l f = .ok r →
    ∀ t ∈ l, ∃ c, t.codec = some c ∧ Accepted c := by
  intro l
  induction l with
  | nil => intro _ _ _ t ht; cases ht
  | cons t l ih =>
    intro f r h u hu
    obtain ⟨x, h1, h⟩ := Res.bind_eq_ok.1 h
    obtain ⟨y, h2, h⟩ := Res.bind_eq_ok.1 h
    rcases List.mem_cons.1 hu with rfl | hu
    · exact kept_of_track _ _ _ h1
    · exact ih _ _ h2 u hu

/-- C84, the converse: with other codecs it is not written. -/
theorem C84_refused (b : Bytes) (l : List (RTrack × Option Codec)) (ts : List PMP4File.Track) (hc : Copies b l ts)
    (hts : ∀ x ∈ l, x.1.timeScale ≠ 0)
    (hn : ∃ x ∈ l, (∃ a, x.2 = some (.mpeg4Audio a) ∧ a.channelCount = 0 ∧ a.channelConfig = 0) ∨
      (∃ a, x.2 = some (.ac3 a) ∧ a.sampleRate ≠ 48000 ∧ a.sampleRate ≠ 44100 ∧ a.sampleRate ≠ 32000) ∨
      ∃ a, x.2 = some (.eac3 a) ∧ a.sampleRate ≠ 48000 ∧ a.sampleRate ≠ 44100 ∧ a.sampleRate ≠ 32000) :
    ∀ file, PMP4File.marshal ts ≠ .ok file := by
  intro file hf
  obtain ⟨x, hx, hn⟩ := hn
  have hm := List.mem_map_of_mem (f := fun x : RTrack × Option Codec => (seen b x.1, x.2)) hx
  rw [← hc] at hm
  obtain ⟨t, ht, e⟩ := List.mem_map.1 hm
  have ec : t.codec = x.2 := (Prod.mk.inj e).2
  obtain ⟨L, hL, hf⟩ := Res.bind_eq_ok.1 hf
  obtain ⟨L', _, hL', _, _, h3, _⟩ := pmp4_sortSamples (ts.map (·.toTrack)) fun u hu _ => by
    obtain ⟨v, hv, rfl⟩ := List.mem_map.1 hu
    obtain ⟨y, hy, e, _⟩ := kept_copy b l ts hc v hv
    have e2 : v.timeScale = y.1.timeScale := congrArg (fun z => z.2.1) e
    rw [e2]
    exact hts y hy
  rw [hL] at hL'
  cases hL'
  have hlen : L.tracks.length = ts.length := by have := congrArg List.length h3; simpa using this
  obtain ⟨_, z2⟩ := file_zipWith ts L.tracks hlen
  have hm : t.codec ∈ (placed ts L.tracks).map (·.codec) := by rw [z2]; exact List.mem_map_of_mem (f := (·.codec)) ht
  obtain ⟨u, hu, eu⟩ := List.mem_map.1 hm
  obtain ⟨_, hh, _⟩ := Res.bind_eq_ok.1 hf
  obtain ⟨_, _, hh⟩ := Res.bind_eq_ok.1 hh
  obtain ⟨_, _, hh⟩ := Res.bind_eq_ok.1 hh
  obtain ⟨_, _, hh⟩ := Res.bind_eq_ok.1 hh
  obtain ⟨_, hh, _⟩ := Res.bind_eq_ok.1 hh
  obtain ⟨c, hc', ha⟩ := kept_of_tracks _ _ _ hh u hu
  rw [eu, ec] at hc'
  rcases hn with ⟨a, e, h1, h2⟩ | ⟨a, e, h1, h2, h3⟩ | ⟨a, e, h1, h2, h3⟩
  · rw [e] at hc'
    rcases ha.2.2.1 a (by simpa using hc'.symm) with h | h
    · exact h h1
    · omega
  · rw [e] at hc'
    rcases ha.2.2.2.1 a (by simpa using hc'.symm) with h | h | h
    · exact h1 h
    · exact h2 h
    · exact h3 h
  · rw [e] at hc'
    rcases ha.2.2.2.2 a (by simpa using hc'.symm) with h | h | h
    · exact h1 h
    · exact h2 h
    · exact h3 h

/-- A file with a sample of AC-3, written by the library. -/
def fileAc3 : Bytes := [0, 0, 0, 32, 102, 116, 121, 112, 105, 115, 111, 109, 0, 0, 0, 1, 105, 115, 111, 109, 105, 115, 111, 50, 109, 112, 52, 49, 109, 112, 52,
  50, 0, 0, 2, 76, 109, 111, 111, 118, 0, 0, 0, 108, 109, 118, 104, 100, 0, 0, 0, 0, 0, 0, 0, 0, 0, 0, 0, 0, 0, 0, 3, 232, 0, 0, 0, 32, 0,
  1, 0, 0, 1, 0, 0, 0, 0, 0, 0, 0, 0, 0, 0, 0, 0, 1, 0, 0, 0, 0, 0, 0, 0, 0, 0, 0, 0, 0, 0, 0, 0, 1, 0, 0, 0, 0, 0, 0, 0, 0, 0, 0, 0, 0, 0,
  0, 64, 0, 0, 0, 0, 0, 0, 0, 0, 0, 0, 0, 0, 0, 0, 0, 0, 0, 0, 0, 0, 0, 0, 0, 0, 0, 0, 0, 0, 0, 0, 2, 0, 0, 1, 216, 116, 114, 97, 107, 0,
  0, 0, 92, 116, 107, 104, 100, 0, 0, 0, 3, 0, 0, 0, 0, 0, 0, 0, 0, 0, 0, 0, 1, 0, 0, 0, 0, 0, 0, 0, 32, 0, 0, 0, 0, 0, 0, 0, 0, 0, 0, 0,
  1, 1, 0, 0, 0, 0, 1, 0, 0, 0, 0, 0, 0, 0, 0, 0, 0, 0, 0, 0, 0, 0, 1, 0, 0, 0, 0, 0, 0, 0, 0, 0, 0, 0, 0, 0, 0, 64, 0, 0, 0, 0, 0, 0, 0,
  0, 0, 0, 0, 0, 0, 0, 36, 101, 100, 116, 115, 0, 0, 0, 28, 101, 108, 115, 116, 0, 0, 0, 0, 0, 0, 0, 1, 0, 0, 0, 32, 0, 0, 0, 0, 0, 1, 0,
  0, 0, 0, 1, 80, 109, 100, 105, 97, 0, 0, 0, 32, 109, 100, 104, 100, 0, 0, 0, 0, 0, 0, 0, 0, 0, 0, 0, 0, 0, 0, 187, 128, 0, 0, 6, 0, 85,
  196, 0, 0, 0, 0, 0, 45, 104, 100, 108, 114, 0, 0, 0, 0, 0, 0, 0, 0, 115, 111, 117, 110, 0, 0, 0, 0, 0, 0, 0, 0, 0, 0, 0, 0, 83, 111, 117,
  110, 100, 72, 97, 110, 100, 108, 101, 114, 0, 0, 0, 0, 251, 109, 105, 110, 102, 0, 0, 0, 16, 115, 109, 104, 100, 0, 0, 0, 0, 0, 0, 0, 0,
  0, 0, 0, 36, 100, 105, 110, 102, 0, 0, 0, 28, 100, 114, 101, 102, 0, 0, 0, 0, 0, 0, 0, 1, 0, 0, 0, 12, 117, 114, 108, 32, 0, 0, 0, 1, 0,
  0, 0, 191, 115, 116, 98, 108, 0, 0, 0, 63, 115, 116, 115, 100, 0, 0, 0, 0, 0, 0, 0, 1, 0, 0, 0, 47, 97, 99, 45, 51, 0, 0, 0, 0, 0, 0, 0,
  1, 0, 0, 0, 0, 0, 0, 0, 0, 0, 6, 0, 16, 0, 0, 0, 0, 187, 128, 0, 0, 0, 0, 0, 11, 100, 97, 99, 51, 16, 61, 224, 0, 0, 0, 24, 115, 116,
  116, 115, 0, 0, 0, 0, 0, 0, 0, 1, 0, 0, 0, 1, 0, 0, 6, 0, 0, 0, 0, 24, 99, 116, 116, 115, 1, 0, 0, 0, 0, 0, 0, 1, 0, 0, 0, 1, 0, 0, 0, 0,
  0, 0, 0, 28, 115, 116, 115, 99, 0, 0, 0, 0, 0, 0, 0, 1, 0, 0, 0, 1, 0, 0, 0, 1, 0, 0, 0, 1, 0, 0, 0, 24, 115, 116, 115, 122, 0, 0, 0, 0,
  0, 0, 0, 0, 0, 0, 0, 1, 0, 0, 0, 2, 0, 0, 0, 20, 115, 116, 99, 111, 0, 0, 0, 0, 0, 0, 0, 1, 0, 0, 2, 116, 0, 0, 0, 10, 109, 100, 97, 116,
  11, 119]

example : PMP4File.marshal [⟨⟨1, 48000, 0, [⟨1536, 0, false, 2, [0x0B, 0x77], 0⟩]⟩, some (.ac3 ⟨48000, 6, 0, 8, 0, 7, true, 15⟩)⟩] = .ok fileAc3 := by
  decide +kernel

/-- The same with 24000 Hz, a rate of the half-rate variants, in its sample entry. -/
def fileHalfRate : Bytes := (fileAc3.set 485 0x5D).set 486 0xC0

/-- The same with a box that is skipped (`free`) in the place of `stco`. -/
def fileNoChunks : Bytes := (((fileAc3.set 604 0x66).set 605 0x72).set 606 0x65).set 607 0x65

/-- **C84 is false** for codecs that the reader accepts and the writer does not: `FuzzPresentationUnmarshal` fails with this file. -/
theorem C84_false : ¬ ∀ (b : Bytes) (l : List (RTrack × Option Codec)) (ts : List PMP4File.Track), PMP4File.unmarshal isoFields b = .ok l → Copies b l ts →
    (∃ file, PMP4File.marshal ts = .ok file) ∨ PMP4File.marshal ts = .err "header size changed" := by
  intro h
  have hp : PMP4.getPayload fileHalfRate ⟨1536, 0, false, 2, some (628, 2)⟩ = .ok [0x0B, 0x77] := by decide +kernel
  have h1 := h fileHalfRate [(⟨1, 48000, ⟨true, 1536, 0, [⟨1536, 0, false, 2, some (628, 2)⟩], [1], [2]⟩⟩, some (.ac3 ⟨24000, 6, 0, 8, 0, 7, true, 15⟩))]
    [⟨⟨1, 48000, 0, [⟨1536, 0, false, 2, [0x0B, 0x77], 0⟩]⟩, some (.ac3 ⟨24000, 6, 0, 8, 0, 7, true, 15⟩)⟩] (by decide +kernel)
    (by unfold Copies given seen; simp only [List.map_cons, List.map_nil, hp])
  have h2 : PMP4File.marshal [⟨⟨1, 48000, 0, [⟨1536, 0, false, 2, [0x0B, 0x77], 0⟩]⟩, some (.ac3 ⟨24000, 6, 0, 8, 0, 7, true, 15⟩)⟩] =
    .err "unsupported sample rate" := by decide +kernel
  rw [h2] at h1
  rcases h1 with ⟨_, h1⟩ | h1
  · cases h1
  · exact absurd (Res.err.inj h1) (by decide)

/-- Also the first part of `FuzzPresentationUnmarshal` fails, with a panic: a file without chunks is accepted, and `GetPayload` of its sample is `nil`. -/
theorem C84_payload_false : ∃ l, PMP4File.unmarshal isoFields fileNoChunks = .ok l ∧ ∃ x ∈ l, ∃ sa ∈ x.1.reader.samples,
    PMP4.getPayload fileNoChunks sa = .panic :=
  ⟨[(⟨1, 48000, ⟨true, 1536, 0, [⟨1536, 0, false, 0, none⟩], [1], [2]⟩⟩, some (.ac3 ⟨48000, 6, 0, 8, 0, 7, true, 15⟩))], by decide +kernel,
    _, List.mem_singleton.2 rfl, _, List.mem_singleton.2 rfl, rfl⟩

/-- Other files are as C84 wants: the example of C81, which is read, copied, written and read again. -/
example : ∃ file rts, PMP4File.unmarshal isoFields file = .ok rts ∧ Copies file rts fileExample ∧ PMP4File.marshal fileExample = .ok file ∧
    ∀ x ∈ rts, ∀ c, x.2 = some c → SmallConfig c := by
  have hm : 2 ≤ maxSamples ∧ 3 ≤ maxSamples := by decide
  have hg : ∀ t ∈ fileExample, FileGood t := by
    intro t ht
    simp only [fileExample, List.mem_cons, List.not_mem_nil, or_false] at ht
    rcases ht with rfl | rfl
    · exact ⟨⟨by decide, by decide, by decide, hm.1, by decide, by decide⟩, by decide, by decide, fun c hc => by cases hc; exact ⟨by decide, by decide⟩⟩
    · exact ⟨⟨by decide, by decide, by decide, hm.2, by decide, by decide⟩, by decide, by decide, fun c hc => by cases hc; exact ⟨by decide, by decide⟩⟩
  have h : (PMP4File.marshal fileExample).bind (fun f => if f.length < 2 ^ 32 then .ok () else .err "") = .ok () := by decide +kernel
  obtain ⟨f, hf, h⟩ := Res.bind_eq_ok.1 h
  have hl : f.length < 2 ^ 32 := by
    by_cases hl : f.length < 2 ^ 32
    · exact hl
    · rw [if_neg hl] at h; cases h
  obtain ⟨rts, h1, h2⟩ := C81_round_trip fileExample f (by simp [fileExample]) hg hf hl
  have h3 : Copies f rts fileExample := by
    unfold Copies
    rw [h2]
    rfl
  refine ⟨f, rts, h1, h3, hf, fun x hx c hc => ?_⟩
  have hx' := List.mem_map_of_mem (f := fun x : RTrack × Option Codec => (seen f x.1, x.2)) hx
  rw [← h3] at hx'
  obtain ⟨t, ht, e⟩ := List.mem_map.1 hx'
  have ec : t.codec = some c := ((Prod.mk.inj e).2).trans hc
  simp only [fileExample, List.mem_cons, List.not_mem_nil, or_false] at ht
  rcases ht with rfl | rfl <;> (cases ec; trivial)

end Verif.Props
