import Verif.Props.PMP4FileRoundTrip
import Verif.Props.PMP4Hostile
import Verif.Props.FMP4Limit
import Verif.Props.FMP4InitHostile

/-!
# C82: hostile MP4 files
-/

namespace Verif.Props
open PMP4File MP4Codec MP4Box MP4Writer
open FMP4Init (typFtyp typMoov typMvhd typTrak typTkhd typEdts typMdia typMdhd typHdlr typMinf typStbl typStsd typStts typStsc typStsz typStco
  isoFields Handler Fields readTree expandBox)
open PMP4 (Run StscEntry Event RTrack PReader State readEvent readEvents maxSamples)

/-! ## A reader that refuses two kinds of `stsc` -/

/-- A `stsc` box, after `stts`, whose last entry has no samples or that is not the first one of its track. -/
def hostileStsc (r : PMP4File.Reader) (typ payload : Bytes) : Bool :=
  typ == typStsc && r.base.state == .waitingSampleProps &&
    match decodeStsc payload, r.base.cur with
    | .ok entries, some t => (match entries.getLast? with | some e => e.samplesPerChunk == 0 | none => false) || t.reader.chunks != []
    | _, _ => false

/-- `Presentation.Unmarshal` with another handler. -/
def unmarshalWith (h : Handler PMP4File.Reader) (fields : Fields) (b : Bytes) : Res (List (RTrack × Option Codec)) := do
  let r ← readTree fields h (b.length + 1) b 0 none 1 {}
  if r.base.state ≠ .waitingTrak ∧ r.base.state ≠ .waitingSampleProps then .err "parse error"
  else if r.base.all = [] then .err "no tracks found"
  else .ok (r.base.all.zip r.allCodecs)

/-- The handler, that refuses such boxes. -/
def guardedHandle : Handler PMP4File.Reader := fun bi depth payload expand r =>
  if hostileStsc r bi.typ payload then .err "hostile stsc" else PMP4File.handle bi depth payload expand r

/-! ## Errors of the tables -/

theorem file_fuel_if {α : Type} {c : Prop} [Decidable c] {x y : Res α} (hx : x ≠ .err "out of fuel") (hy : y ≠ .err "out of fuel") :
    (if c then x else y) ≠ .err "out of fuel" := by split <;> assumption

theorem file_fuel_bind {α β : Type} {x : Res α} {f : α → Res β} (hx : x ≠ .err "out of fuel") (hf : ∀ a, f a ≠ .err "out of fuel") :
    (x >>= f) ≠ .err "out of fuel" := by
  cases x with
  | ok a => exact hf a
  | err e => exact fun h => hx (by cases h; rfl)
  | panic => exact fun h => by cases h

theorem file_fuel_idx {α : Type} (l : List α) (n : Nat) : idx l n ≠ .err "out of fuel" := by
  unfold idx; split <;> simp

theorem file_fuel_err {α : Type} {e : String} (h : e ≠ "out of fuel") : (.err e : Res α) ≠ .err "out of fuel" := by simpa using h

theorem file_fuel_ok {α : Type} (a : α) : (.ok a : Res α) ≠ .err "out of fuel" := by simp

theorem file_readSTTS_fuel (l : List (Run Nat)) : ∀ s, PMP4.readSTTS l s ≠ .err "out of fuel" := by
  induction l with
  | nil => intro s; exact file_fuel_ok _
  | cons e l ih => intro s; exact file_fuel_if (file_fuel_err (by decide)) (ih _)

theorem file_readSTSS_fuel (l : List Nat) : ∀ s, PMP4.readSTSS l s ≠ .err "out of fuel" := by
  induction l with
  | nil => intro s; exact file_fuel_ok _
  | cons e l ih => intro s; exact file_fuel_if (file_fuel_err (by decide)) (file_fuel_bind (file_fuel_idx _ _) fun _ => ih _)

theorem file_setOffsets_fuel (v : Int) (k : Nat) : ∀ n s, PMP4.setOffsets v k n s ≠ .err "out of fuel" := by
  induction k with
  | zero => intro n s; exact file_fuel_ok _
  | succ k ih => intro n s; exact file_fuel_bind (file_fuel_idx _ _) fun _ => ih _ _

theorem file_readCTTS_fuel (l : List (Run Int)) : ∀ n s, PMP4.readCTTS l n s ≠ .err "out of fuel" := by
  induction l with
  | nil => intro n s; exact file_fuel_ok _
  | cons e l ih => intro n s; exact file_fuel_if (file_fuel_err (by decide)) (file_fuel_bind (file_setOffsets_fuel _ _ _ _) fun _ => ih _ _)

theorem file_addChunks_fuel (total spc k : Nat) : ∀ n c, PMP4.addChunks total spc k n c ≠ .err "out of fuel" := by
  induction k with
  | zero => intro n s; exact file_fuel_ok _
  | succ k ih => intro n s; exact file_fuel_if (file_fuel_err (by decide)) (ih _ _)

theorem file_readSTSC_fuel (total : Nat) (l : List StscEntry) : ∀ n c, PMP4.readSTSC total l n c ≠ .err "out of fuel" := by
  induction l with
  | nil => intro n s; exact file_fuel_ok _
  | cons e l ih =>
    intro n s
    refine file_fuel_bind ?_ fun _ => file_fuel_if (file_fuel_err (by decide)) (file_fuel_if (file_fuel_err (by decide))
      (file_fuel_bind (file_addChunks_fuel _ _ _ _ _) fun _ => ih _ _))
    cases l with
    | nil => exact file_fuel_if (by simp) (file_fuel_if (file_fuel_err (by decide)) (file_fuel_ok _))
    | cons _ _ => exact file_fuel_ok _

theorem file_chunkOffsets_fuel (l : List Nat) : ∀ o n, PMP4.chunkOffsets l o n ≠ .err "out of fuel" := by
  induction l with
  | nil => intro n s; exact file_fuel_ok _
  | cons e l ih => intro n s; exact file_fuel_bind (file_fuel_idx _ _) fun _ => file_fuel_bind (ih _ _) fun _ => file_fuel_ok _

theorem file_locateChunk_fuel (sizes : List Nat) (k : Nat) : ∀ o i s, PMP4.locateChunk sizes k o i s ≠ .err "out of fuel" := by
  induction k with
  | zero => intro o i s; exact file_fuel_ok _
  | succ k ih => intro o i s; exact file_fuel_bind (file_fuel_idx _ _) fun _ => file_fuel_bind (file_fuel_idx _ _) fun _ => ih _ _ _

theorem file_locate_fuel (sizes : List Nat) (l : List (Nat × Nat)) : ∀ i s, PMP4.locate sizes l i s ≠ .err "out of fuel" := by
  induction l with
  | nil => intro n s; exact file_fuel_ok _
  | cons e l ih => intro n s; exact file_fuel_bind (file_locateChunk_fuel _ _ _ _ _) fun _ => ih _ _

theorem file_readBox_fuel (r : PMP4.Reader) (b : PMP4.Box) : PMP4.readBox r b ≠ .err "out of fuel" := by
  cases b with
  | stts l => exact file_fuel_if (file_fuel_err (by decide)) (file_fuel_bind (file_readSTTS_fuel _ _) fun _ => file_fuel_ok _)
  | stss l => exact file_fuel_if (file_fuel_bind (file_readSTSS_fuel _ _) fun _ => file_fuel_ok _) (file_fuel_err (by decide))
  | ctts l => exact file_fuel_if (file_fuel_bind (file_readCTTS_fuel _ _ _) fun _ => file_fuel_ok _) (file_fuel_err (by decide))
  | stsc l => exact file_fuel_if (file_fuel_bind (file_readSTSC_fuel _ _ _ _) fun _ => file_fuel_ok _) (file_fuel_err (by decide))
  | stsz l => exact file_fuel_if (file_fuel_ok _) (file_fuel_err (by decide))
  | stco l =>
    exact file_fuel_if (file_fuel_if (file_fuel_err (by decide)) (file_fuel_bind (file_chunkOffsets_fuel _ _ _) fun _ =>
      file_fuel_if (file_fuel_err (by decide)) (file_fuel_bind (file_locate_fuel _ _ _ _) fun _ => file_fuel_ok _))) (file_fuel_err (by decide))

theorem file_withCur_fuel (p : PReader) (f : RTrack → Res PReader) (hf : ∀ t, f t ≠ .err "out of fuel") : p.withCur f ≠ .err "out of fuel" := by
  unfold PReader.withCur
  split
  · exact hf _
  · simp

theorem file_readEvent_fuel (p : PReader) (e : Event) : readEvent p e ≠ .err "out of fuel" := by
  cases e with
  | ftyp | moov | mvhd | edts | elst | mdia | minf | stbl | stsd | trak => exact file_fuel_if (file_fuel_err (by decide)) (file_fuel_ok _)
  | tkhd id => exact file_fuel_if (file_fuel_err (by decide)) (file_withCur_fuel _ _ fun _ => file_fuel_ok _)
  | mdhd t d =>
    exact file_fuel_if (file_fuel_err (by decide)) (file_fuel_if (file_fuel_err (by decide)) (file_withCur_fuel _ _ fun _ => file_fuel_ok _))
  | codec f =>
    exact file_fuel_if (file_fuel_err (by decide)) (file_fuel_if (file_fuel_ok _) (file_fuel_if (file_fuel_ok _) (file_fuel_if (by simp) (file_fuel_ok _))))
  | codecError => exact file_fuel_if (file_fuel_err (by decide)) (file_fuel_ok _)
  | other => exact file_fuel_ok _
  | table b =>
    exact file_fuel_if (file_fuel_err (by decide)) (file_withCur_fuel _ _ fun _ => file_fuel_bind (file_readBox_fuel _ _) fun _ => file_fuel_ok _)

/-! ## No panic -/

/-- What holds of the reader of files. -/
structure FileSafe (r : PMP4File.Reader) : Prop where
  base : ∃ seen, PReaderInv seen r.base
  codec : r.base.state = .readingCodec → ∃ c, r.codecReader = some c ∧ CodecInv c

theorem file_sound_of {α : Type} {P : α → Prop} {x : Res α} (h1 : x.NoPanic) (h2 : x ≠ .err "out of fuel") (h3 : ∀ a, x = .ok a → P a) :
    Sound P x := by
  cases x with
  | ok a => exact h3 a rfl
  | err e => exact fun h => h2 (by rw [h])
  | panic => exact h1 rfl

theorem sound_fileEntries (ws : List Nat) (n : Nat) : ∀ b, Sound (fun _ => True) (decodeEntries ws n b) := by
  induction n with
  | zero => intro b; exact sound_ok trivial
  | succ n ih => intro b; exact sound_bind (sound_unpack _ _) fun _ _ => sound_bind (ih _) fun _ _ => sound_ok trivial

theorem sound_fileTable (ws : List Nat) (b : Bytes) : Sound (fun _ => True) (decodeTable ws b) :=
  sound_bind (sound_unpack _ _) fun _ _ => sound_bind (sound_fileEntries _ _ _) fun _ _ => sound_ok trivial

theorem sound_fileMdhd (b : Bytes) : Sound (fun v => v.1 < 2 ^ 32) (PMP4File.decodeMdhd b) := by
  refine sound_bind (sound_unpack_values _ _) fun x hx => ?_
  obtain ⟨n, hn⟩ := hx
  refine sound_ok ?_
  rw [hn]
  exact Nat.mod_lt _ (by decide)

/-- What is known of an event that was decoded: its numbers are bounded, a `stsc` box is where it comes from, and it is none of those that
stand for the codec boxes. -/
def EventFits (typ payload : Bytes) : Event → Prop
  | .tkhd id => id < 2 ^ 32
  | .mdhd timeScale _ => timeScale < 2 ^ 32
  | .table (.stsc l) => typ = typStsc ∧ decodeStsc payload = .ok l
  | .codec _ => False
  | .codecError => False
  | _ => True

theorem sound_decodeEvent (typ payload : Bytes) : Sound (EventFits typ payload) (decodeEvent typ payload) := by
  unfold decodeEvent
  refine sound_if (fun _ => sound_ok trivial) fun _ => sound_if (fun _ => sound_ok trivial) fun _ => sound_if (fun _ => sound_ok trivial) fun _ =>
    sound_if (fun _ => sound_ok trivial) fun _ => sound_if (fun _ => ?tkhd) fun _ => sound_if (fun _ => sound_ok trivial) fun _ =>
    sound_if (fun _ => sound_ok trivial) fun _ => sound_if (fun _ => sound_ok trivial) fun _ => sound_if (fun _ => ?mdhd) fun _ =>
    sound_if (fun _ => sound_ok trivial) fun _ => sound_if (fun _ => sound_ok trivial) fun _ => sound_if (fun _ => sound_ok trivial) fun _ =>
    sound_if (fun _ => ?stts) fun _ => sound_if (fun _ => ?stss) fun _ => sound_if (fun _ => ?ctts) fun _ => sound_if (fun h => ?stsc) fun _ =>
    sound_if (fun _ => ?stsz) fun _ => sound_if (fun _ => ?stco) fun _ => sound_ok trivial
  case tkhd => exact sound_bind (sound_tkhd _) fun id h => sound_ok h
  case mdhd => exact sound_bind (sound_fileMdhd _) fun x h => sound_ok h
  case stts => exact sound_bind (P := fun _ => True) (sound_bind (sound_fileTable _ _) fun _ _ => sound_ok trivial) fun _ _ => sound_ok trivial
  case stss => exact sound_bind (P := fun _ => True) (sound_bind (sound_fileTable _ _) fun _ _ => sound_ok trivial) fun _ _ => sound_ok trivial
  case ctts => exact sound_bind (P := fun _ => True) (sound_bind (sound_fileTable _ _) fun _ _ => sound_ok trivial) fun _ _ => sound_ok trivial
  case stsc =>
    have : Sound (fun l => decodeStsc payload = .ok l) (decodeStsc payload) := by
      have hs : Sound (fun _ => True) (decodeStsc payload) := sound_bind (sound_fileTable _ _) fun _ _ => sound_ok trivial
      cases hd : decodeStsc payload with
      | ok l => exact rfl
      | err e => rw [hd] at hs; exact hs
      | panic => rw [hd] at hs; exact hs
    exact sound_bind this fun l hl => sound_ok ⟨h, hl⟩
  case stsz =>
    exact sound_bind (P := fun _ => True) (sound_bind (sound_unpack _ _) fun _ _ => sound_bind (sound_fileEntries _ _ _) fun _ _ => sound_ok trivial)
      fun _ _ => sound_ok trivial
  case stco => exact sound_bind (P := fun _ => True) (sound_bind (sound_fileTable _ _) fun _ _ => sound_ok trivial) fun _ _ => sound_ok trivial

/-- A `stsc` box that does not come after `stts` is refused. -/
theorem file_early_stsc (p : PReader) (l : List StscEntry) (hp : ∃ seen, PReaderInv seen p) (hs : p.state ≠ .waitingSampleProps) :
    ∃ t, t ≠ "out of fuel" ∧ readEvent p (.table (.stsc l)) = .err t := by
  unfold readEvent
  dsimp only
  by_cases h : p.state = .waitingSamples
  · rw [if_neg (by rw [h]; simp)]
    obtain ⟨seen, hp⟩ := hp
    have := hp.cur (by rw [h]; simp) (by rw [h]; simp) (by rw [h]; simp) (by rw [h]; simp)
    unfold PReader.withCur
    cases hc : p.cur with
    | none => exact absurd hc this
    | some t =>
      dsimp only
      have hf : decide (p.state = State.waitingSampleProps) = false := by simpa using hs
      rw [hf]
      exact ⟨_, by decide, rfl⟩
  · rw [if_pos ⟨h, hs⟩]
    exact ⟨_, by decide, rfl⟩

theorem file_unseen (seen : Bool) (p : PReader) (h : PReaderInv seen p) (hc : ∀ t, p.cur = some t → t.reader.chunks = []) : PReaderInv false p :=
  ⟨h.cur, h.codec, h.before, fun t ht => let i := h.inv t ht; ⟨i.len, i.fresh, i.sum, fun _ => hc t ht⟩, h.props⟩

theorem file_base_sound (r : PMP4File.Reader) (typ payload : Bytes) (e : Event) (hr : FileSafe r) (hs : r.base.state ≠ .readingCodec)
    (he : EventFits typ payload e) (hg : hostileStsc r typ payload = false) :
    Sound (fun p => (∃ seen, PReaderInv seen p) ∧ (p.state = .readingCodec → e = .stsd)) (readEvent r.base e) := by
  obtain ⟨seen, hp⟩ := hr.base
  have key : ∀ seen, PReaderInv seen r.base → (∀ entries, e = .table (.stsc entries) → seen = false ∧ StscDivisible entries) →
      Sound (fun p => (∃ seen, PReaderInv seen p) ∧ (p.state = .readingCodec → e = .stsd)) (readEvent r.base e) := by
    intro seen hp h
    obtain ⟨h1, h2⟩ := pmp4_readEvent_inv seen r.base e hp h
    refine file_sound_of h1 (file_readEvent_fuel _ _) fun p' hp' => ⟨⟨_, h2 p' hp'⟩, fun hst => ?_⟩
    cases e with
    | stsd => rfl
    | ftyp | moov | mvhd | trak =>
      unfold readEvent at hp'
      dsimp only at hp'
      split at hp'
      · cases hp'
      · cases hp'; simp at hst
    | edts | mdia | minf | stbl =>
      unfold readEvent at hp'
      dsimp only at hp'
      split at hp'
      · cases hp'
      · cases hp'; exact absurd hst hs
    | elst =>
      unfold readEvent at hp'
      dsimp only at hp'
      split at hp'
      · cases hp'
      · cases hp'; simp at hst
    | tkhd id =>
      unfold readEvent PReader.withCur at hp'
      dsimp only at hp'
      split at hp'
      · cases hp'
      · split at hp'
        · cases hp'; simp at hst
        · cases hp'
    | mdhd ts d =>
      unfold readEvent PReader.withCur at hp'
      dsimp only at hp'
      split at hp'
      · cases hp'
      · split at hp'
        · cases hp'
        · split at hp'
          · cases hp'; simp at hst
          · cases hp'
    | codec f => exact he.elim
    | codecError => exact he.elim
    | other => cases hp'; exact absurd hst hs
    | table b =>
      unfold readEvent PReader.withCur at hp'
      dsimp only at hp'
      split at hp'
      · cases hp'
      · split at hp'
        · obtain ⟨x, _, h⟩ := Res.bind_eq_ok.1 hp'
          cases h
          dsimp only at hst
          split at hst <;> cases hst
        · cases hp'
  by_cases hst : ∃ l, e = .table (.stsc l)
  · obtain ⟨l, rfl⟩ := hst
    by_cases hw : r.base.state = .waitingSampleProps
    · obtain ⟨hty, hd⟩ := he
      have hcur := hp.cur (by rw [hw]; simp) (by rw [hw]; simp) (by rw [hw]; simp) (by rw [hw]; simp)
      cases hc : r.base.cur with
      | none => exact absurd hc hcur
      | some t =>
        unfold hostileStsc at hg
        rw [hty, hw, hd, hc] at hg
        simp only [beq_self_eq_true, Bool.and_self, Bool.true_and, Bool.or_eq_false_iff, bne_eq_false_iff_eq] at hg
        refine key false (file_unseen seen _ hp fun t' ht' => ?_) fun entries h => ⟨rfl, ?_⟩
        · rw [hc] at ht'; cases ht'; exact hg.2
        · cases h
          intro e he
          have := hg.1
          rw [he] at this
          simpa using this
    · obtain ⟨t, h1, h2⟩ := file_early_stsc r.base l hr.base hw
      rw [h2]
      exact h1
  · exact key seen hp fun entries h => (hst ⟨entries, h⟩).elim

theorem file_step_sound (r : PMP4File.Reader) (typ payload : Bytes) (e : Event) (hr : FileSafe r) (hs : r.base.state ≠ .readingCodec)
    (he : EventFits typ payload e) (hg : hostileStsc r typ payload = false) : Sound FileSafe (r.step e) := by
  unfold PMP4File.Reader.step
  refine sound_bind (file_base_sound r typ payload e hr hs he hg) fun p hp => ?_
  split
  · exact sound_ok ⟨hp.1, fun h => by have := hp.2 h; cases this⟩
  · exact sound_ok ⟨hp.1, fun _ => ⟨{}, rfl, ⟨fun c h => (by cases h), fun h => (by cases h)⟩⟩⟩
  · rename_i h1 h2
    exact sound_ok ⟨hp.1, fun h => absurd (hp.2 h) h2⟩

theorem file_box_sound (r : PMP4File.Reader) (typ payload : Bytes) (expand : PMP4File.Reader → Res PMP4File.Reader) (hr : FileSafe r)
    (hs : r.base.state ≠ .readingCodec) (hg : hostileStsc r typ payload = false) (hx : ∀ r, FileSafe r → Sound FileSafe (expand r)) :
    Sound FileSafe (r.readBox typ payload expand) :=
  sound_bind (sound_decodeEvent typ payload) fun e he => sound_bind (file_step_sound r typ payload e hr hs he hg) fun r' hr' =>
    sound_if (fun _ => hx r' hr') fun _ => sound_ok hr'

theorem file_ended_sound (r : PMP4File.Reader) (c : CodecReader) (hr : FileSafe r) (hs : r.base.state = .readingCodec) :
    Sound (fun r' => FileSafe r' ∧ r'.base.state = .waitingSamples) (r.codecEnded c) := by
  obtain ⟨seen, hp⟩ := hr.base
  unfold PMP4File.Reader.codecEnded
  obtain ⟨h1, h2⟩ := pmp4_readEvent_inv seen r.base (.codec c.codec.isSome) hp (fun _ h => by cases h)
  refine sound_bind (P := fun p => (∃ seen, PReaderInv seen p) ∧ p.state = .waitingSamples) (file_sound_of h1 (file_readEvent_fuel _ _)
    fun p' hp' => ⟨⟨_, h2 p' hp'⟩, ?_⟩) fun p hp => sound_ok ⟨⟨hp.1, fun h => ?_⟩, hp.2⟩
  · unfold readEvent at hp'
    dsimp only at hp'
    rw [if_neg (by rw [hs]; simp)] at hp'
    split at hp'
    · cases hp'; rfl
    · split at hp'
      · cases hp'; rfl
      · split at hp'
        · cases hp'
        · cases hp'; rfl
  · rw [hp.2] at h; cases h

theorem file_handle_sound (bi : FMP4.BoxInfo) (depth : Nat) (payload : Bytes) (expand : PMP4File.Reader → Res PMP4File.Reader) (r : PMP4File.Reader)
    (hr : FileSafe r) (hx : ∀ r, FileSafe r → Sound FileSafe (expand r)) : Sound FileSafe (guardedHandle bi depth payload expand r) := by
  unfold guardedHandle
  by_cases hg : hostileStsc r bi.typ payload = true
  · rw [if_pos hg]; exact sound_err (by decide)
  rw [if_neg hg]
  unfold PMP4File.handle
  refine sound_if (fun hs => ?_) fun hs => file_box_sound r _ _ _ hr hs (by simpa using hg) hx
  obtain ⟨c, h1, h2⟩ := hr.codec hs
  rw [h1]
  unfold deref
  rw [Res.bind_ok]
  refine sound_bind (sound_readCodec c depth bi.typ payload h2) fun a ha => ?_
  cases a with
  | ended =>
    refine sound_bind (file_ended_sound r c hr hs) fun r' hr' => file_box_sound r' _ _ _ hr'.1 (by rw [hr'.2]; simp) ?_ hx
    unfold hostileStsc
    rw [hr'.2]
    simp
  | done c' => exact sound_ok ⟨hr.base, fun _ => ⟨c', rfl, ha⟩⟩
  | expand c' => exact hx _ ⟨hr.base, fun _ => ⟨c', rfl, ha⟩⟩

theorem file_sound (fields : Fields) (b : Bytes) : Sound (fun _ => True) (unmarshalWith guardedHandle fields b) := by
  refine sound_bind (sound_readTree fields guardedHandle FileSafe file_handle_sound (b.length + 1) b 0 none 1 {} ?_ (by omega) (by omega))
    fun r _ => sound_if (fun _ => sound_err (by decide)) fun _ => sound_if (fun _ => sound_err (by decide)) fun _ => sound_ok trivial
  exact ⟨⟨false, by simp, by simp, by simp, by simp, by simp⟩, by simp⟩

/-! ## The guard changes nothing else -/

/-- The outcome is the same, or the guard has refused. -/
def OrRefused {α : Type} (x y : Res α) : Prop := x = y ∨ x = .err "hostile stsc"

theorem file_refused_bind {α β : Type} {x y : Res α} {f g : α → Res β} (h : OrRefused x y) (hf : ∀ a, OrRefused (f a) (g a)) :
    OrRefused (x >>= f) (y >>= g) := by
  rcases h with rfl | rfl
  · cases x with
    | ok a => exact hf a
    | err e => exact .inl rfl
    | panic => exact .inl rfl
  · exact .inr rfl

theorem file_refused_if {α : Type} {c : Prop} [Decidable c] {x y x' y' : Res α} (h1 : OrRefused x x') (h2 : OrRefused y y') :
    OrRefused (if c then x else y) (if c then x' else y') := by split <;> assumption

theorem file_refused_refl {α : Type} (x : Res α) : OrRefused x x := .inl rfl

theorem file_refused_box (r : PMP4File.Reader) (typ payload : Bytes) (f g : PMP4File.Reader → Res PMP4File.Reader) (h : ∀ r, OrRefused (f r) (g r)) :
    OrRefused (r.readBox typ payload f) (r.readBox typ payload g) :=
  file_refused_bind (file_refused_refl _) fun _ => file_refused_bind (file_refused_refl _) fun _ => file_refused_if (h _) (file_refused_refl _)

theorem file_refused_handle (bi : FMP4.BoxInfo) (depth : Nat) (payload : Bytes) (f g : PMP4File.Reader → Res PMP4File.Reader) (r : PMP4File.Reader)
    (h : ∀ r, OrRefused (f r) (g r)) : OrRefused (guardedHandle bi depth payload f r) (PMP4File.handle bi depth payload g r) := by
  unfold guardedHandle
  by_cases hg : hostileStsc r bi.typ payload = true
  · rw [if_pos hg]; exact .inr rfl
  rw [if_neg hg]
  unfold PMP4File.handle
  refine file_refused_if ?_ (file_refused_box _ _ _ _ _ h)
  refine file_refused_bind (file_refused_refl _) fun c => file_refused_bind (file_refused_refl _) fun a => ?_
  cases a with
  | ended => exact file_refused_bind (file_refused_refl _) fun r' => file_refused_box _ _ _ _ _ h
  | done c' => exact file_refused_refl _
  | expand c' => exact h _

theorem file_refused_tree (fields : Fields) (n : Nat) : ∀ (b : Bytes) (pos : Nat) (left : Option Nat) (depth : Nat) (r : PMP4File.Reader),
    OrRefused (readTree fields guardedHandle n b pos left depth r) (readTree fields PMP4File.handle n b pos left depth r) := by
  induction n with
  | zero => intro b pos left depth r; unfold readTree; exact file_refused_refl _
  | succ n ih =>
    intro b pos left depth r
    unfold readTree
    refine file_refused_if (file_refused_refl _) (file_refused_bind (file_refused_refl _) fun o => ?_)
    match o with
    | none => exact file_refused_refl _
    | some bi =>
      refine file_refused_if (file_refused_refl _) (file_refused_bind (file_refused_handle _ _ _ _ _ _ fun r' => ?_) fun r' => ih _ _ _ _ _)
      unfold expandBox
      split
      · exact file_refused_refl _
      · exact file_refused_if (file_refused_refl _) (ih _ _ _ _ _)

theorem file_refused (fields : Fields) (b : Bytes) :
    OrRefused (unmarshalWith guardedHandle fields b) (PMP4File.unmarshal fields b) :=
  file_refused_bind (file_refused_tree _ _ _ _ _ _ _) fun _ => file_refused_refl _

/-- **C82, partial.** For all bytes and all sizes of the fields of boxes, `Presentation.Unmarshal` terminates without a panic, unless it has met a
`stsc` box that is the second one of its track or whose last entry has no samples. -/
theorem C82_partial (fields : Fields) (b : Bytes) (h : unmarshalWith guardedHandle fields b ≠ .err "hostile stsc") :
    (PMP4File.unmarshal fields b).NoPanic ∧ PMP4File.unmarshal fields b ≠ .err "out of fuel" := by
  have hs := file_sound fields b
  rcases file_refused fields b with e | e
  · rw [e] at hs
    exact ⟨fun hp => by rw [hp] at hs; exact hs, fun hp => by rw [hp] at hs; exact hs rfl⟩
  · exact absurd e h

/-- C82: a reader that refuses such boxes, and that is otherwise `Presentation.Unmarshal`, never panics. -/
theorem C82_guarded (fields : Fields) (b : Bytes) :
    (unmarshalWith guardedHandle fields b).NoPanic ∧ unmarshalWith guardedHandle fields b ≠ .err "out of fuel" ∧
      ∀ l, unmarshalWith guardedHandle fields b = .ok l → PMP4File.unmarshal fields b = .ok l := by
  have hs := file_sound fields b
  refine ⟨fun hp => by rw [hp] at hs; exact hs, fun hp => by rw [hp] at hs; exact hs rfl, fun l hl => ?_⟩
  rcases file_refused fields b with e | e
  · rw [← e, hl]
  · rw [hl] at e; cases e

/-! ## What is returned -/

theorem file_len_stss (l : List Nat) : ∀ s s', PMP4.readSTSS l s = .ok s' → s'.length = s.length := fun s s' h =>
  ((pmp4_readSTSS_ok l s).2 s' h).1

theorem file_len_setOffsets (v : Int) (k : Nat) : ∀ n s s', PMP4.setOffsets v k n s = .ok s' → s'.length = s.length := by
  induction k with
  | zero => intro n s s' h; cases h; rfl
  | succ k ih =>
    intro n s s' h
    obtain ⟨_, _, h⟩ := Res.bind_eq_ok.1 h
    rw [ih _ _ _ h, List.length_set]

theorem file_len_ctts (l : List (Run Int)) : ∀ n s s', PMP4.readCTTS l n s = .ok s' → s'.length = s.length := by
  induction l with
  | nil => intro n s s' h; cases h; rfl
  | cons e l ih =>
    intro n s s' h
    unfold PMP4.readCTTS at h
    split at h
    · cases h
    · obtain ⟨x, hx, h⟩ := Res.bind_eq_ok.1 h
      rw [ih _ _ _ h, file_len_setOffsets _ _ _ _ _ hx]

theorem file_len_locateChunk (sizes : List Nat) (k : Nat) : ∀ o i s r, PMP4.locateChunk sizes k o i s = .ok r → r.2.length = s.length := by
  induction k with
  | zero => intro o i s r h; cases h; rfl
  | succ k ih =>
    intro o i s r h
    obtain ⟨_, _, h⟩ := Res.bind_eq_ok.1 h
    obtain ⟨_, _, h⟩ := Res.bind_eq_ok.1 h
    rw [ih _ _ _ _ h, List.length_set]

theorem file_len_locate (sizes : List Nat) (l : List (Nat × Nat)) : ∀ i s s', PMP4.locate sizes l i s = .ok s' → s'.length = s.length := by
  induction l with
  | nil => intro i s s' h; cases h; rfl
  | cons e l ih =>
    intro i s s' h
    obtain ⟨x, hx, h⟩ := Res.bind_eq_ok.1 h
    rw [ih _ _ _ h, file_len_locateChunk _ _ _ _ _ _ hx]

theorem file_len_box (r r' : PMP4.Reader) (b : PMP4.Box) (h0 : r.samples.length ≤ maxSamples) (h : PMP4.readBox r b = .ok r') :
    r'.samples.length ≤ maxSamples := by
  unfold PMP4.readBox at h
  split at h
  · split at h
    · cases h
    · obtain ⟨x, hx, h⟩ := Res.bind_eq_ok.1 h
      cases h
      exact pmp4_readSTTS_len _ _ _ hx h0
  · split at h
    · obtain ⟨x, hx, h⟩ := Res.bind_eq_ok.1 h
      cases h
      have := file_len_stss _ _ _ hx
      rw [List.length_map] at this
      exact this ▸ h0
    · cases h
  · split at h
    · obtain ⟨x, hx, h⟩ := Res.bind_eq_ok.1 h
      cases h
      exact (file_len_ctts _ _ _ _ hx) ▸ h0
    · cases h
  · split at h
    · obtain ⟨x, hx, h⟩ := Res.bind_eq_ok.1 h
      cases h
      exact h0
    · cases h
  · split at h
    · cases h; exact h0
    · cases h
  · split at h
    · split at h
      · cases h
      · obtain ⟨c, _, h⟩ := Res.bind_eq_ok.1 h
        split at h
        · cases h
        · obtain ⟨x, hx, h⟩ := Res.bind_eq_ok.1 h
          cases h
          exact (file_len_locate _ _ _ _ _ hx) ▸ h0
    · cases h

/-- What holds of a track that is returned. -/
structure FileRead (t : RTrack) : Prop where
  id : t.id < 2 ^ 32
  timeScale : 0 < t.timeScale ∧ t.timeScale < 2 ^ 32
  samples : t.reader.samples.length ≤ maxSamples

/-- What holds of the current track. -/
def CurFits (r : PMP4File.Reader) (t : RTrack) : Prop :=
  match r.base.state with
  | .waitingTkhd => True
  | .waitingElst | .waitingMdhd => t.id < 2 ^ 32
  | .waitingStsd | .readingCodec => t.id < 2 ^ 32 ∧ 0 < t.timeScale ∧ t.timeScale < 2 ^ 32
  | .waitingSamples | .waitingSampleProps => (t.id < 2 ^ 32 ∧ 0 < t.timeScale ∧ t.timeScale < 2 ^ 32) ∧
      (r.base.listed = true → ∃ k, r.codec = some k ∧ Readable k)
  | _ => False

/-- What holds of the reader. -/
structure FileFacts (r : PMP4File.Reader) : Prop where
  codec : r.base.state = .readingCodec → ∃ c, r.codecReader = some c ∧ CodecInv c
  lens : r.codecs.length = r.base.tracks.length
  done : ∀ t ∈ r.base.tracks, FileRead t
  codecs : ∀ c ∈ r.codecs, ∃ k, c = some k ∧ Readable k
  samples : ∀ t, r.base.cur = some t → t.reader.samples.length ≤ maxSamples
  cur : ∀ t, r.base.cur = some t → CurFits r t

theorem file_facts_all (r : PMP4File.Reader) (h : FileFacts r) (hs : r.base.state = .waitingTrak ∨ r.base.state = .waitingSampleProps) :
    r.allCodecs.length = r.base.all.length ∧ (∀ t ∈ r.base.all, FileRead t) ∧ ∀ c ∈ r.allCodecs, ∃ k, c = some k ∧ Readable k := by
  unfold PMP4File.Reader.allCodecs PReader.all
  cases hc : r.base.cur with
  | none => exact ⟨h.lens, h.done, h.codecs⟩
  | some t =>
    have hf := h.cur t hc
    unfold CurFits at hf
    rcases hs with hs | hs
    · rw [hs] at hf; exact hf.elim
    · rw [hs] at hf
      dsimp only
      cases hl : r.base.listed with
      | false => exact ⟨h.lens, h.done, h.codecs⟩
      | true =>
        obtain ⟨⟨h1, h2⟩, h3⟩ := hf
        rw [if_pos rfl, if_pos rfl]
        refine ⟨by rw [List.length_append, List.length_append, h.lens]; rfl, fun u hu => ?_, fun c hc' => ?_⟩
        · rcases List.mem_append.1 hu with hu | hu
          · exact h.done u hu
          · rw [List.mem_singleton.1 hu]
            exact ⟨h1, h2, h.samples t hc⟩
        · rcases List.mem_append.1 hc' with hu | hu
          · exact h.codecs c hu
          · rw [List.mem_singleton.1 hu]
            exact h3 hl

theorem holds_of {α : Type} {P : α → Prop} {x : Res α} (h : ∀ a, x = .ok a → P a) : Holds P x := by
  cases x with
  | ok a => exact h a rfl
  | err e => trivial
  | panic => trivial

theorem holds_get {α : Type} {P : α → Prop} {x : Res α} {a : α} (h : Holds P x) (e : x = .ok a) : P a := by rw [e] at h; exact h

theorem file_facts_same (r : PMP4File.Reader) (p : PReader) (h : FileFacts r) (h1 : p.tracks = r.base.tracks) (h2 : p.cur = r.base.cur)
    (hc : p.state ≠ .readingCodec)
    (hcur : ∀ t, p.cur = some t → CurFits r t → CurFits { r with base := p } t) : FileFacts { r with base := p } :=
  ⟨fun hs => absurd hs hc, by rw [h.lens, ← h1], by rw [h1]; exact h.done, h.codecs, fun t ht => h.samples t (h2 ▸ ht),
    fun t ht => hcur t ht (h.cur t (h2 ▸ ht))⟩

theorem file_facts_step (r : PMP4File.Reader) (typ payload : Bytes) (e : Event) (h : FileFacts r)
    (he : EventFits typ payload e) : Holds FileFacts (r.step e) := by
  refine holds_of fun r' hr' => ?_
  unfold PMP4File.Reader.step at hr'
  obtain ⟨p, hp, hr'⟩ := Res.bind_eq_ok.1 hr'
  cases e with
  | ftyp | moov | mvhd =>
    cases hr'
    unfold readEvent at hp
    dsimp only at hp
    split at hp
    · cases hp
    · rename_i hst
      have hst := Decidable.not_not.mp hst
      cases hp
      refine file_facts_same r _ h rfl rfl (by simp) fun t ht hc => ?_
      unfold CurFits at hc
      rw [hst] at hc
      exact hc.elim
  | edts | mdia | minf | stbl =>
    cases hr'
    unfold readEvent at hp
    dsimp only at hp
    split at hp
    · cases hp
    · cases hp
      exact h
  | elst =>
    cases hr'
    unfold readEvent at hp
    dsimp only at hp
    split at hp
    · cases hp
    · rename_i hst
      have hst := Decidable.not_not.mp hst
      cases hp
      refine file_facts_same r _ h rfl rfl (by simp) fun t ht hc => ?_
      unfold CurFits at hc ⊢
      rw [hst] at hc
      exact hc
  | stsd =>
    cases hr'
    unfold readEvent at hp
    dsimp only at hp
    split at hp
    · cases hp
    · rename_i hst
      have hst := Decidable.not_not.mp hst
      cases hp
      refine ⟨fun _ => ⟨{}, rfl, ⟨fun c h => (by cases h), fun h => (by cases h)⟩⟩, h.lens, h.done, h.codecs, h.samples, fun t ht => ?_⟩
      have hc := h.cur t ht
      unfold CurFits at hc ⊢
      rw [hst] at hc
      exact hc
  | trak =>
    cases hr'
    unfold readEvent at hp
    dsimp only at hp
    split at hp
    · cases hp
    · rename_i hst
      have hst : r.base.state = .waitingTrak ∨ r.base.state = .waitingSampleProps := by
        rcases Classical.em (r.base.state = .waitingTrak) with h | h
        · exact Or.inl h
        · exact Or.inr (Classical.byContradiction fun h' => hst ⟨h, h'⟩)
      cases hp
      obtain ⟨a1, a2, a3⟩ := file_facts_all r h hst
      refine ⟨fun hs => (by cases hs), a1, a2, a3, fun t ht => ?_, fun t ht => trivial⟩
      cases ht
      exact Nat.zero_le _
  | tkhd id =>
    cases hr'
    unfold readEvent PReader.withCur at hp
    dsimp only at hp
    split at hp
    · cases hp
    · split at hp
      · rename_i t hc
        cases hp
        refine ⟨fun hs => (by cases hs), h.lens, h.done, h.codecs, fun u hu => ?_, fun u hu => ?_⟩
        · cases hu; exact h.samples t hc
        · cases hu; exact he
      · cases hp
  | mdhd ts d =>
    cases hr'
    unfold readEvent PReader.withCur at hp
    dsimp only at hp
    split at hp
    · cases hp
    · rename_i hst
      have hst := Decidable.not_not.mp hst
      split at hp
      · cases hp
      · rename_i h0
        split at hp
        · rename_i t hc
          cases hp
          have hf := h.cur t hc
          unfold CurFits at hf
          rw [hst] at hf
          refine ⟨fun hs => (by cases hs), h.lens, h.done, h.codecs, fun u hu => ?_, fun u hu => ?_⟩
          · cases hu; exact h.samples t hc
          · cases hu; exact ⟨hf, Nat.pos_of_ne_zero h0, he⟩
        · cases hp
  | codec f => exact he.elim
  | codecError => exact he.elim
  | other => cases hr'; cases hp; exact h
  | table b =>
    cases hr'
    unfold readEvent PReader.withCur at hp
    dsimp only at hp
    split at hp
    · cases hp
    · rename_i hst
      have hst : r.base.state = .waitingSamples ∨ r.base.state = .waitingSampleProps := by
        rcases Classical.em (r.base.state = .waitingSamples) with h | h
        · exact Or.inl h
        · exact Or.inr (Classical.byContradiction fun h' => hst ⟨h, h'⟩)
      split at hp
      · rename_i t hc
        obtain ⟨x, hx, hp⟩ := Res.bind_eq_ok.1 hp
        cases hp
        have hf := h.cur t hc
        unfold CurFits at hf
        have hf : (t.id < 2 ^ 32 ∧ 0 < t.timeScale ∧ t.timeScale < 2 ^ 32) ∧ (r.base.listed = true → ∃ k, r.codec = some k ∧ Readable k) := by
          rcases hst with e | e <;> rw [e] at hf <;> exact hf
        refine ⟨fun hs => ?_, h.lens, h.done, h.codecs, fun u hu => ?_, fun u hu => ?_⟩
        · dsimp only at hs
          split at hs <;> cases hs
        · cases hu
          refine file_len_box _ x b ?_ hx
          exact h.samples t hc
        · cases hu
          unfold CurFits
          cases x.props <;> exact hf
      · cases hp

theorem file_facts_box (r : PMP4File.Reader) (typ payload : Bytes) (expand : PMP4File.Reader → Res PMP4File.Reader) (h : FileFacts r)
    (hx : ∀ r, FileFacts r → Holds FileFacts (expand r)) : Holds FileFacts (r.readBox typ payload expand) :=
  holds_bind (holds_sound (sound_decodeEvent typ payload)) fun e he => holds_bind (file_facts_step r typ payload e h he) fun r' hr' =>
    holds_if (fun _ => hx r' hr') fun _ => hr'

theorem file_facts_ended (r : PMP4File.Reader) (c : CodecReader) (h : FileFacts r) (hs : r.base.state = .readingCodec) (hc : CodecInv c) :
    Holds FileFacts (r.codecEnded c) := by
  refine holds_of fun r' hr' => ?_
  unfold PMP4File.Reader.codecEnded at hr'
  obtain ⟨p, hp, hr'⟩ := Res.bind_eq_ok.1 hr'
  cases hr'
  unfold readEvent at hp
  dsimp only at hp
  rw [if_neg (by rw [hs]; simp)] at hp
  cases hk : c.codec with
  | some k =>
    rw [hk] at hp
    cases hp
    refine ⟨fun hs => (by cases hs), h.lens, h.done, h.codecs, h.samples, fun t ht => ?_⟩
    have hf := h.cur t ht
    unfold CurFits at hf
    rw [hs] at hf
    exact ⟨hf, fun _ => ⟨k, rfl, hc.1 k hk⟩⟩
  | none =>
    rw [hk] at hp
    rw [if_neg (by simp)] at hp
    cases hl : r.base.listed with
    | true =>
      rw [hl, if_pos rfl] at hp
      cases hp
      refine ⟨fun hs => (by cases hs), h.lens, h.done, h.codecs, h.samples, fun t ht => ?_⟩
      have hf := h.cur t ht
      unfold CurFits at hf
      rw [hs] at hf
      exact ⟨hf, fun hl => by cases hl⟩
    | false =>
      rw [hl, if_neg (by simp)] at hp
      split at hp
      · cases hp
      · cases hp
        refine ⟨fun hs => (by cases hs), ?_, fun t ht => ?_, fun k hk => ?_, h.samples, fun t ht => ?_⟩
        · show r.codecs.dropLast.length = r.base.tracks.dropLast.length
          rw [List.length_dropLast, List.length_dropLast, h.lens]
        · exact h.done t (List.dropLast_subset _ ht)
        · exact h.codecs k (List.dropLast_subset _ hk)
        · have hf := h.cur t ht
          unfold CurFits at hf
          rw [hs] at hf
          exact ⟨hf, fun hl' => by cases hl'⟩

theorem file_facts_handle (bi : FMP4.BoxInfo) (depth : Nat) (payload : Bytes) (expand : PMP4File.Reader → Res PMP4File.Reader) (r : PMP4File.Reader)
    (h : FileFacts r) (hx : ∀ r, FileFacts r → Holds FileFacts (expand r)) : Holds FileFacts (PMP4File.handle bi depth payload expand r) := by
  unfold PMP4File.handle
  refine holds_if (fun hs => ?_) fun _ => file_facts_box r _ _ _ h hx
  obtain ⟨c, h1, h2⟩ := h.codec hs
  rw [h1]
  unfold deref
  rw [Res.bind_ok]
  refine holds_bind (holds_sound (sound_readCodec c depth bi.typ payload h2)) fun a ha => ?_
  cases a with
  | ended => exact holds_bind (file_facts_ended r c h hs h2) fun r' hr' => file_facts_box r' _ _ _ hr' hx
  | done c' => exact ⟨fun _ => ⟨c', rfl, ha⟩, h.lens, h.done, h.codecs, h.samples, h.cur⟩
  | expand c' => exact hx _ ⟨fun _ => ⟨c', rfl, ha⟩, h.lens, h.done, h.codecs, h.samples, h.cur⟩

/-- A handler that keeps a property keeps it over the tree. -/
theorem holds_readTree {σ : Type} (fields : Fields) (h : Handler σ) (I : σ → Prop)
    (hh : ∀ bi depth payload expand r, I r → (∀ r, I r → Holds I (expand r)) → Holds I (h bi depth payload expand r)) :
    ∀ (n : Nat) (b : Bytes) (pos : Nat) (left : Option Nat) (depth : Nat) (r : σ), I r → Holds I (readTree fields h n b pos left depth r) := by
  intro n
  induction n with
  | zero => intro b pos left depth r _; unfold readTree; trivial
  | succ n ih =>
    intro b pos left depth r hr
    unfold readTree
    refine holds_if (fun _ => holds_if (fun _ => hr) fun _ => trivial) fun _ => ?_
    refine holds_bind (holds_any _) fun o _ => ?_
    match o with
    | none => exact holds_if (fun _ => hr) fun _ => trivial
    | some bi =>
      refine holds_if (fun _ => trivial) fun _ => ?_
      refine holds_bind (hh bi depth _ _ r hr fun r' hr' => ?_) fun r' hr' => ih _ _ _ _ _ hr'
      unfold expandBox
      split
      · trivial
      · exact holds_if (fun _ => trivial) fun _ => ih _ _ _ _ _ hr'

/-- C82: what `Presentation.Unmarshal` returns, from all bytes: there are tracks, whose identifiers and time scales are in range, that have at most
`maxSamples` samples and a codec, which the writer can express in boxes. -/
theorem C82_result (fields : Fields) (b : Bytes) (l : List (RTrack × Option Codec)) (h : PMP4File.unmarshal fields b = .ok l) :
    l ≠ [] ∧ ∀ x ∈ l, x.1.id < 2 ^ 32 ∧ (0 < x.1.timeScale ∧ x.1.timeScale < 2 ^ 32) ∧ x.1.reader.samples.length ≤ 5184000 ∧
      ∃ c, x.2 = some c ∧ (∃ info, fill (some c) = .ok info) ∧ c ≠ .flac none := by
  unfold PMP4File.unmarshal at h
  obtain ⟨r, hr, h⟩ := Res.bind_eq_ok.1 h
  have hf : FileFacts r := holds_get (holds_readTree fields PMP4File.handle FileFacts file_facts_handle (b.length + 1) b 0 none 1 {}
    ⟨by simp, rfl, by simp, by simp, by simp, by simp⟩) hr
  split at h
  · cases h
  · rename_i hs
    split at h
    · cases h
    · rename_i hne
      cases h
      obtain ⟨a1, a2, a3⟩ := file_facts_all r hf (by
        rcases Classical.em (r.base.state = .waitingTrak) with h | h
        · exact Or.inl h
        · exact Or.inr (Classical.byContradiction fun h' => hs ⟨h, h'⟩))
      refine ⟨fun h0 => hne ?_, fun x hx => ?_⟩
      · have := congrArg List.length h0
        rw [List.length_zip, a1, Nat.min_self] at this
        exact List.eq_nil_of_length_eq_zero this
      · obtain ⟨h1, h2⟩ := List.of_mem_zip hx
        have g := a2 _ h1
        exact ⟨g.id, g.timeScale, g.samples, a3 _ h2⟩

end Verif.Props
