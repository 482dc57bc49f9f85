import Verif.Props.PMP4FileSize

/-!
# C83: how many bytes a track takes

The bytes that a track takes at least in a file that is read, and files that take no more.
-/

namespace Verif.Props
open FMP4Init MP4Codec MP4Box PMP4File
open PMP4 (RTrack RSample PReader Event readEvent Run maxSamples)
open FMP4 (box_length takeBE)
open Spec.FMP4 (box)

/-! ## Specification -/

/-- Bytes that a track takes at least: the headers of `trak`, `tkhd` (84), `elst`, `mdhd` (24), `stsd` (8), an audio entry (28), its
configuration (3) and `stts` (8); a run of samples takes 8. -/
def leastTrack (t : RTrack) : Nat := (8 + 92 + 8 + 32 + 16 + 36 + 11 + 16) + if t.reader.samples = [] then 0 else 8

/-- The boxes at the beginning: `ftyp`, `moov`, `mvhd` (100). -/
def leastHead : Nat := 8 + 8 + 108

/-! ## The bytes that were used -/

/-- Bytes that are needed to get to a state of the reader of codecs. -/
def costCodec : Option CodecReader → Nat
  | none => 0
  | some c =>
    if c.codec.isSome then 47
    else match c.state with
      | .initial | .waitingAdditional => 0
      | .waitingAvcC | .waitingVpcC | .waitingHvcC | .waitingAv1C | .waitingVideoEsds => 47
      | _ => 36

/-- Bytes that are needed to get to a state, from the start of the track. -/
def costState (c : Option CodecReader) : PMP4.State → Nat
  | .waitingTkhd => 8
  | .waitingElst => 100
  | .waitingMdhd => 108
  | .waitingStsd => 140
  | .readingCodec => 156 + costCodec c
  | .waitingSamples => 203
  | _ => 219

/-- Bytes that are needed before the first track. -/
def costHead : PMP4.State → Nat
  | .waitingFtyp => 0
  | .waitingMoov => 8
  | .waitingMvhd => 16
  | _ => 124

/-- Bytes of the current track. -/
def costCur (c : Option CodecReader) (p : PReader) : Nat :=
  match p.cur with
  | some t => if p.listed then costState c p.state + (if t.reader.samples = [] then 0 else 8) else 0
  | none => 0

def costBase (c : Option CodecReader) (p : PReader) : Nat := costHead p.state + (p.tracks.map leastTrack).sum + costCur c p

def cost (r : PMP4File.Reader) : Nat := costBase r.codecReader r.base

/-- What expanding a box with this type and this payload does. -/
def Expands {σ : Type} (fields : Fields) (m : σ → Nat) (typ payload : Bytes) (r : σ) (x : Res σ) : Prop :=
  Holds (fun r' => ∃ n, fields typ payload = some n ∧ n ≤ payload.length ∧ m r' + n ≤ m r + payload.length) x

/-- When each box adds no more than its bytes, a tree adds no more than its bytes. -/
theorem least_tree {σ : Type} (fields : Fields) (h : Handler σ) (m : σ → Nat)
    (hh : ∀ bi depth payload expand r, (∀ r, Expands fields m bi.typ payload r (expand r)) →
      Holds (fun r' => m r' ≤ m r + 8 + payload.length) (h bi depth payload expand r)) :
    ∀ (k : Nat) (b : Bytes) (pos : Nat) (left : Option Nat) (depth : Nat) (r : σ),
      Holds (fun r' => m r' ≤ m r + (b.length - pos) ∧ ∀ l, left = some l → m r' ≤ m r + l)
        (readTree fields h k b pos left depth r) := by
  intro k
  induction k with
  | zero => intro b pos left depth r; unfold readTree; trivial
  | succ k ih =>
    intro b pos left depth r
    unfold readTree
    have hstay : m r ≤ m r + (b.length - pos) ∧ ∀ l, left = some l → m r ≤ m r + l := ⟨by omega, fun _ _ => by omega⟩
    refine holds_if (fun _ => holds_if (fun _ => hstay) fun _ => trivial) fun hl8 => ?_
    refine holds_bind (holds_sound (sound_readBoxInfo b pos)) fun o ho => ?_
    match o, ho with
    | none, _ => exact holds_if (fun _ => hstay) fun _ => trivial
    | some bi, hbi =>
      obtain ⟨h1, h2, h3, h4⟩ := hbi bi rfl
      refine holds_if (fun _ => trivial) fun hsz => ?_
      have hp : (bi.payload b).length = min (bi.size - bi.headerSize) (b.length - (bi.offset + bi.headerSize)) := by
        unfold FMP4.BoxInfo.payload
        rw [List.length_take, List.length_drop]
      have hx : ∀ r, Expands fields m bi.typ (bi.payload b) r (expandBox fields (readTree fields h k b) b bi depth r) := by
        intro r
        unfold expandBox Expands
        split
        · trivial
        · rename_i n hn
          refine holds_if (fun _ => trivial) fun hc => ?_
          refine holds_mono (ih b _ _ _ r) fun r' hr' => ⟨n, hn, by omega, ?_⟩
          have e1 := hr'.1
          have e2 := hr'.2 _ rfl
          omega
      refine holds_bind (hh bi depth _ _ r hx) fun r1 hr1 => ?_
      refine holds_mono (ih b _ _ depth r1) fun r' hr' => ⟨?_, fun l hl => ?_⟩
      · have e1 := hr'.1
        omega
      · subst hl
        have e1 := hr'.2 (l - bi.size) rfl
        have hs : ¬ l < bi.size := by simpa using hsz
        omega

/-! ## Sizes of boxes -/

theorem least_unpack (ws : List Nat) (b : Bytes) : Holds (fun x => ws.sum / 8 ≤ b.length ∧ x.2 = b.drop (ws.sum / 8)) (unpack ws b) := by
  unfold unpack
  exact holds_bind (holds_takeBE _ _) fun x hx => by obtain ⟨h1, rfl⟩ := hx; exact ⟨h1, rfl⟩

theorem least_width (b : Bytes) : 32 ≤ timeWidth b := by unfold timeWidth; split <;> decide

theorem least_tkhd (b : Bytes) : Holds (fun _ => 84 ≤ b.length) (decodeTkhd b) := by
  unfold decodeTkhd
  refine holds_bind (least_unpack _ _) fun x hx => ?_
  have h := hx.1
  have hw := least_width b
  simp only [List.sum_cons, List.sum_nil] at h
  show 84 ≤ b.length
  omega

theorem least_mdhd (b : Bytes) : Holds (fun _ => 24 ≤ b.length) (PMP4File.decodeMdhd b) := by
  unfold PMP4File.decodeMdhd
  refine holds_bind (least_unpack _ _) fun x hx => ?_
  have h := hx.1
  have hw := least_width b
  simp only [List.sum_cons, List.sum_nil] at h
  show 24 ≤ b.length
  omega

theorem least_stts (b : Bytes) : Holds (fun l => 8 ≤ b.length ∧ (l ≠ [] → 16 ≤ b.length)) (decodeStts b) := by
  unfold decodeStts decodeTable
  rw [bind_assoc]
  refine holds_bind (least_unpack _ _) fun x hx => ?_
  obtain ⟨h1, h2⟩ := hx
  simp only [List.sum_cons, List.sum_nil] at h1 h2
  rw [bind_assoc]
  refine holds_bind (P := fun l => l ≠ [] → 8 ≤ x.2.length) ?_ fun l hl => ?_
  · cases x.1.getD 2 0 with
    | zero => exact fun h => absurd rfl h
    | succ n =>
      unfold PMP4File.decodeEntries
      refine holds_bind (least_unpack _ _) fun y hy => holds_bind (holds_any _) fun _ _ _ => ?_
      have := hy.1
      simpa using this
  · show 8 ≤ b.length ∧ (l.map _ ≠ [] → 16 ≤ b.length)
    refine ⟨by omega, fun hne => ?_⟩
    have := hl fun e => hne (by rw [e]; rfl)
    rw [h2, List.length_drop] at this
    omega

theorem least_dac3 (b : Bytes) : Holds (fun _ => 3 ≤ b.length) (decodeDac3 b) := by
  unfold decodeDac3
  refine holds_bind (least_unpack _ _) fun x hx => ?_
  have h := hx.1
  simp only [List.sum_cons, List.sum_nil] at h
  show 3 ≤ b.length
  omega

theorem least_dec3 (b : Bytes) : Holds (fun _ => 3 ≤ b.length) (decodeDec3 b) := by
  unfold decodeDec3
  refine holds_bind (least_unpack _ _) fun x hx => ?_
  unfold decodeIndSubs
  dsimp only
  rw [bind_assoc]
  refine holds_bind (least_unpack _ _) fun y hy => ?_
  have h1 := hx.1
  have h2 := hx.2
  have h3 := hy.1
  simp only [List.sum_cons, List.sum_nil] at h1 h2 h3
  rw [h2, List.length_drop] at h3
  exact holds_mono (holds_any _) fun _ _ => by omega

theorem least_dOps (b : Bytes) : Holds (fun _ => 3 ≤ b.length) (decodeDOps b) := by
  unfold decodeDOps
  refine holds_bind (least_unpack _ _) fun x hx => ?_
  have h := hx.1
  simp only [List.sum_cons, List.sum_nil] at h
  show 3 ≤ b.length
  omega

theorem least_pcmC (b : Bytes) : Holds (fun _ => 3 ≤ b.length) (decodePcmC b) := by
  unfold decodePcmC
  refine holds_bind (least_unpack _ _) fun x hx => ?_
  have h := hx.1
  simp only [List.sum_cons, List.sum_nil] at h
  show 3 ≤ b.length
  omega

theorem least_dfLa (b : Bytes) : Holds (fun _ => 3 ≤ b.length) (decodeDfLa b) := by
  unfold decodeDfLa
  refine holds_bind (least_unpack _ _) fun x hx => ?_
  have h := hx.1
  simp only [List.sum_cons, List.sum_nil] at h
  show 3 ≤ b.length
  omega

theorem least_esds (b : Bytes) : Holds (fun _ => 3 ≤ b.length) (decodeEsds b) := by
  unfold decodeEsds
  refine holds_bind (least_unpack _ _) fun x hx => holds_mono (holds_any _) fun _ _ => ?_
  have h := hx.1
  simp only [List.sum_cons, List.sum_nil] at h
  omega

/-! ## Codecs -/

/-- What a box does to the reader of codecs. -/
def CodecCost (typ payload : Bytes) (c : CodecReader) : Action → Prop
  | .ended => True
  | .done c' => costCodec (some c') ≤ costCodec (some c) + 8 + payload.length
  | .expand c' => ∀ n, isoFields typ payload = some n → costCodec (some c') ≤ costCodec (some c) + 8 + n

theorem least_cost_le (c : CodecReader) : costCodec (some c) ≤ 47 := by
  unfold costCodec
  dsimp only
  split
  · omega
  · split <;> omega

/-- A configuration that was found. -/
theorem least_found (typ payload : Bytes) (c : CodecReader) (k : Codec) (h : 36 ≤ costCodec (some c)) (hp : 3 ≤ payload.length ∨ 47 ≤ costCodec (some c)) :
    Holds (CodecCost typ payload c) (c.found k) := by
  show costCodec _ ≤ _
  have := least_cost_le { c with codec := some k, state := .waitingAdditional }
  omega

theorem least_enter (typ payload : Bytes) (c : CodecReader) (next : RState) (h : isoFields typ payload = some 78) :
    Holds (CodecCost typ payload c) (c.enter next) :=
  holds_if (fun _ => trivial) fun _ n hn => by
    have := least_cost_le { c with state := next }
    rw [h] at hn
    cases hn
    omega

theorem least_enter28 (typ payload : Bytes) (c c' : CodecReader) (hc : c'.codec = c.codec) (h : isoFields typ payload = some 28)
    (hs : c'.state = .waitingDOps ∨ c'.state = .waitingAudioEsds ∨ c'.state = .waitingDfLa ∨ c'.state = .waitingDac3 ∨ c'.state = .waitingDec3 ∨
      c'.state = .waitingPcmC) : CodecCost typ payload c (.expand c') := by
  intro n hn
  rw [h] at hn
  cases hn
  have : costCodec (some c') ≤ if c.codec.isSome then 47 else 36 := by
    unfold costCodec
    dsimp only
    rw [hc]
    split
    · exact Nat.le_refl _
    · rcases hs with h | h | h | h | h | h <;> rw [h] <;> exact Nat.le_refl _
  by_cases hi : c.codec.isSome
  · rw [if_pos hi] at this
    have : costCodec (some c) = 47 := by unfold costCodec; dsimp only; rw [if_pos hi]
    omega
  · rw [if_neg hi] at this
    omega

theorem least_audio (typ payload : Bytes) (c : CodecReader) (next : RState) (h : isoFields typ payload = some 28)
    (hs : next = .waitingAudioEsds ∨ next = .waitingDfLa ∨ next = .waitingDac3 ∨ next = .waitingDec3 ∨ next = .waitingPcmC) :
    Holds (CodecCost typ payload c) (c.enterAudio payload next) :=
  holds_if (fun _ => trivial) fun _ => holds_bind (holds_any _) fun _ _ => least_enter28 typ payload c _ rfl h (.inr hs)

theorem least_at (c : CodecReader) (s : RState) (h : c.state = s) (h1 : s ≠ .initial) (h2 : s ≠ .waitingAdditional) : 36 ≤ costCodec (some c) := by
  unfold costCodec
  dsimp only
  rw [h]
  split
  · omega
  · cases s <;> first | exact absurd rfl h1 | exact absurd rfl h2 | decide

theorem least_video (c : CodecReader) (s : RState) (h : c.state = s)
    (hs : s = .waitingAvcC ∨ s = .waitingVpcC ∨ s = .waitingHvcC ∨ s = .waitingAv1C ∨ s = .waitingVideoEsds) : 47 ≤ costCodec (some c) := by
  unfold costCodec
  dsimp only
  rw [h]
  split
  · omega
  · rcases hs with rfl | rfl | rfl | rfl | rfl <;> decide

theorem least_codec (c : CodecReader) (typ payload : Bytes) : Holds (CodecCost typ payload c) (c.readBox typ payload) := by
  have hv : ∀ s k, c.state = s → (s = .waitingAvcC ∨ s = .waitingVpcC ∨ s = .waitingHvcC ∨ s = .waitingAv1C ∨ s = .waitingVideoEsds) →
      Holds (CodecCost typ payload c) (c.found k) := fun s k h hs => by
    have := least_video c s h hs
    exact least_found typ payload c k (by omega) (.inr this)
  have ha : ∀ s k, c.state = s → s ≠ .initial → s ≠ .waitingAdditional → 3 ≤ payload.length → Holds (CodecCost typ payload c) (c.found k) :=
    fun s k h h1 h2 hp => least_found typ payload c k (least_at c s h h1 h2) (.inl hp)
  have hst : ∀ s : RState, ¬ c.state ≠ s → c.state = s := fun s h => by simpa using h
  unfold CodecReader.readBox
  refine holds_if (fun _ => holds_if (fun _ => trivial) fun _ => ?_) fun _ => ?_
  · show costCodec _ ≤ _
    have : costCodec (some { c with state := .waitingAdditional }) ≤ costCodec (some c) := by
      unfold costCodec
      dsimp only
      split
      · exact Nat.le_refl _
      · exact Nat.zero_le _
    omega
  refine holds_if (fun e => least_enter _ _ _ _ (by subst e; rfl)) fun _ => ?_
  refine holds_if (fun _ => holds_if (fun _ => trivial) fun h => holds_bind (holds_any _) fun _ _ => holds_bind (holds_any _) fun _ _ =>
    hv _ _ (hst _ h) (.inl rfl)) fun _ => ?_
  refine holds_if (fun e => ?_) fun _ => ?_
  · unfold CodecReader.enterVp09
    refine holds_if (fun _ => trivial) fun _ => holds_bind (holds_any _) fun _ _ => holds_if (fun _ => trivial) fun _ n hn => ?_
    subst e
    have hn : some 78 = some n := hn
    cases hn
    exact Nat.le_trans (least_cost_le _) (by omega)
  refine holds_if (fun _ => holds_if (fun _ => trivial) fun h => holds_bind (holds_any _) fun _ _ => hv _ _ (hst _ h) (.inr (.inl rfl))) fun _ => ?_
  refine holds_if (fun e => least_enter _ _ _ _ (by rcases e with e | e <;> subst e <;> rfl)) fun _ => ?_
  refine holds_if (fun _ => holds_if (fun _ => trivial) fun h => holds_bind (holds_any _) fun _ _ => holds_bind (holds_any _) fun _ _ =>
    hv _ _ (hst _ h) (.inr (.inr (.inl rfl)))) fun _ => ?_
  refine holds_if (fun e => least_audio _ _ _ _ (by subst e; rfl) (.inl rfl)) fun _ => ?_
  refine holds_if (fun e => least_enter _ _ _ _ (by subst e; rfl)) fun _ => ?_
  refine holds_if (fun _ => holds_if (fun _ => trivial) fun h => holds_bind (holds_any _) fun _ _ => holds_bind (holds_any _) fun _ _ =>
    hv _ _ (hst _ h) (.inr (.inr (.inr (.inl rfl))))) fun _ => ?_
  refine holds_if (fun e => holds_if (fun _ => trivial) fun _ => least_enter28 _ _ _ _ rfl (by subst e; rfl) (.inl rfl)) fun _ => ?_
  refine holds_if (fun _ => holds_if (fun _ => trivial) fun h => holds_bind (least_dOps _) fun _ hp =>
    ha _ _ (hst _ h) (by decide) (by decide) hp) fun _ => ?_
  refine holds_if (fun e => least_audio _ _ _ _ (by subst e; rfl) (.inr (.inl rfl))) fun _ => ?_
  refine holds_if (fun _ => holds_if (fun _ => trivial) fun h => holds_bind (least_dfLa _) fun _ hp => holds_if (fun _ => trivial) fun _ =>
    holds_bind (holds_any _) fun _ _ => holds_bind (holds_any _) fun _ _ => ha _ _ (hst _ h) (by decide) (by decide) hp) fun _ => ?_
  refine holds_if (fun e => ?_) fun _ => ?_
  · unfold CodecReader.enterMp4v
    refine holds_if (fun _ => trivial) fun _ => holds_bind (holds_any _) fun _ _ => fun n hn => ?_
    subst e
    have hn : some 78 = some n := hn
    cases hn
    exact Nat.le_trans (least_cost_le _) (by omega)
  refine holds_if (fun _ => ?_) fun _ => ?_
  · unfold CodecReader.readEsds
    refine holds_bind (least_esds _) fun l hp => ?_
    split
    · trivial
    · split
      · rename_i h
        unfold CodecReader.videoEsds
        refine holds_if (fun _ => holds_if (fun _ => trivial) fun _ => ?_) fun _ => holds_if (fun _ => holds_if (fun _ => trivial) fun _ => ?_) fun _ =>
          holds_if (fun _ => holds_if (fun _ => trivial) fun _ => ?_) fun _ => trivial
        all_goals exact hv _ _ h (.inr (.inr (.inr (.inr rfl))))
      · rename_i h
        unfold CodecReader.audioEsds
        refine holds_if (fun _ => holds_if (fun _ => trivial) fun _ => holds_bind (holds_any _) fun _ _ => ?_) fun _ => holds_if (fun _ => ?_) fun _ =>
          trivial
        all_goals exact ha _ _ h (by decide) (by decide) hp
      · trivial
  refine holds_if (fun e => least_audio _ _ _ _ (by subst e; rfl) (.inr (.inr (.inl rfl)))) fun _ => ?_
  refine holds_if (fun _ => holds_if (fun _ => trivial) fun h => holds_bind (least_dac3 _) fun _ hp =>
    ha _ _ (hst _ h) (by decide) (by decide) hp) fun _ => ?_
  refine holds_if (fun e => least_audio _ _ _ _ (by subst e; rfl) (.inr (.inr (.inr (.inl rfl))))) fun _ => ?_
  refine holds_if (fun _ => holds_if (fun _ => trivial) fun h => holds_bind (least_dec3 _) fun _ hp => holds_if (fun _ => trivial) fun _ =>
    holds_bind (holds_any _) fun _ _ => ha _ _ (hst _ h) (by decide) (by decide) hp) fun _ => ?_
  refine holds_if (fun e => least_audio _ _ _ _ (by subst e; rfl) (.inr (.inr (.inr (.inr rfl))))) fun _ => ?_
  refine holds_if (fun _ => holds_if (fun _ => trivial) fun h => holds_bind (least_pcmC _) fun _ hp =>
    ha _ _ (hst _ h) (by decide) (by decide) hp) fun _ => ?_
  show costCodec _ ≤ _
  omega

/-! ## Events -/

/-- Bytes of the payload that an event needs, without the boxes in it. -/
def eventNeed : Event → Nat
  | .mvhd => 100
  | .tkhd _ => 84
  | .mdhd _ _ => 24
  | .stsd => 8
  | .table (.stts l) => 8 + if l = [] then 0 else 8
  | _ => 0

def isCodecEvent : Event → Bool
  | .codec _ | .codecError => true
  | _ => false

theorem least_decode (typ payload : Bytes) : Holds (fun e => isCodecEvent e = false ∧
    (expands e = true → ∀ n, isoFields typ payload = some n → eventNeed e ≤ n) ∧ (expands e = false → eventNeed e ≤ payload.length))
    (decodeEvent typ payload) := by
  unfold decodeEvent
  refine holds_if (fun _ => ⟨rfl, (by intro h; cases h), fun _ => Nat.zero_le _⟩) fun _ => ?_
  refine holds_if (fun _ => ⟨rfl, fun _ _ _ => Nat.zero_le _, (by intro h; cases h)⟩) fun _ => ?_
  refine holds_if (fun e => ⟨rfl, fun _ n hn => ?_, (by intro h; cases h)⟩) fun _ => ?_
  · subst e
    unfold isoFields at hn
    rw [if_neg (by decide), if_pos rfl] at hn
    show 100 ≤ n
    split at hn <;> cases hn <;> decide
  refine holds_if (fun _ => ⟨rfl, fun _ _ _ => Nat.zero_le _, (by intro h; cases h)⟩) fun _ => ?_
  refine holds_if (fun _ => holds_bind (least_tkhd _) fun _ h => ⟨rfl, (by intro h; cases h), fun _ => h⟩) fun _ => ?_
  refine holds_if (fun _ => ⟨rfl, fun _ _ _ => Nat.zero_le _, (by intro h; cases h)⟩) fun _ => ?_
  refine holds_if (fun _ => ⟨rfl, (by intro h; cases h), fun _ => Nat.zero_le _⟩) fun _ => ?_
  refine holds_if (fun _ => ⟨rfl, fun _ _ _ => Nat.zero_le _, (by intro h; cases h)⟩) fun _ => ?_
  refine holds_if (fun _ => holds_bind (least_mdhd _) fun _ h => ⟨rfl, (by intro h; cases h), fun _ => h⟩) fun _ => ?_
  refine holds_if (fun _ => ⟨rfl, fun _ _ _ => Nat.zero_le _, (by intro h; cases h)⟩) fun _ => ?_
  refine holds_if (fun _ => ⟨rfl, fun _ _ _ => Nat.zero_le _, (by intro h; cases h)⟩) fun _ => ?_
  refine holds_if (fun e => ⟨rfl, fun _ n hn => ?_, (by intro h; cases h)⟩) fun _ => ?_
  · subst e
    have hn : some 8 = some n := hn
    cases hn
    exact Nat.le_refl _
  refine holds_if (fun _ => holds_bind (least_stts _) fun l h => ⟨rfl, (by intro h; cases h), fun _ => ?_⟩) fun _ => ?_
  · show 8 + (if l = [] then 0 else 8) ≤ _
    split
    · exact h.1
    · rename_i hl; exact h.2 hl
  iterate 5
    refine holds_if (fun _ => holds_bind (holds_any _) fun _ _ => ⟨rfl, (by intro h; cases h), fun _ => Nat.zero_le _⟩) fun _ => ?_
  exact ⟨rfl, (by intro h; cases h), fun _ => Nat.zero_le _⟩

theorem least_all (p : PReader) (c : Option CodecReader) (h : p.state = .waitingTrak ∨ p.state = .waitingSampleProps) :
    costBase c p = leastHead + (p.all.map leastTrack).sum := by
  obtain ⟨st, tr, cur, li, d⟩ := p
  have hs : costState c st = 219 ∧ costHead st = 124 := by rcases h with h | h <;> dsimp only at h <;> subst h <;> exact ⟨rfl, rfl⟩
  unfold costBase costCur PReader.all leastHead
  dsimp only
  rw [hs.2]
  cases cur with
  | none => rfl
  | some t =>
    dsimp only
    cases li with
    | false => rfl
    | true =>
      rw [if_pos rfl, if_pos rfl, List.map_append, List.sum_append, hs.1]
      show _ = _ + (_ + (leastTrack t + 0))
      unfold leastTrack
      omega

/-- The samples of a track when a box was read. -/
theorem least_box (r r' : PMP4.Reader) (b : PMP4.Box) (h : PMP4.readBox r b = .ok r') :
    (r.props = false ∧ r'.props = true ∧ ∃ l, b = .stts l ∧ (l = [] → r'.samples = r.samples)) ∨
    (r.props = true ∧ r'.props = true ∧ r'.samples.length = r.samples.length) := by
  unfold PMP4.readBox at h
  split at h
  · split at h
    · cases h
    · rename_i l hp
      obtain ⟨x, hx, h⟩ := Res.bind_eq_ok.1 h
      cases h
      refine .inl ⟨by simpa using hp, rfl, l, rfl, fun hl => ?_⟩
      subst hl
      cases hx
      rfl
  · split at h
    · rename_i hp
      obtain ⟨x, hx, h⟩ := Res.bind_eq_ok.1 h
      cases h
      have := file_len_stss _ _ _ hx
      rw [List.length_map] at this
      exact .inr ⟨hp, hp, this⟩
    · cases h
  · split at h
    · rename_i hp
      obtain ⟨x, hx, h⟩ := Res.bind_eq_ok.1 h
      cases h
      exact .inr ⟨hp, hp, file_len_ctts _ _ _ _ hx⟩
    · cases h
  · split at h
    · rename_i hp
      obtain ⟨x, hx, h⟩ := Res.bind_eq_ok.1 h
      cases h
      exact .inr ⟨hp, hp, rfl⟩
    · cases h
  · split at h
    · rename_i hp
      cases h; exact .inr ⟨hp, hp, rfl⟩
    · cases h
  · split at h
    · rename_i hp
      split at h
      · cases h
      · obtain ⟨c, _, h⟩ := Res.bind_eq_ok.1 h
        split at h
        · cases h
        · obtain ⟨x, hx, h⟩ := Res.bind_eq_ok.1 h
          cases h
          exact .inr ⟨hp, hp, file_len_locate _ _ _ _ _ hx⟩
    · cases h

/-- The reader of codecs after an event. -/
def codecAfter (c : Option CodecReader) : Event → Option CodecReader
  | .stsd => some {}
  | _ => c

/-- An event adds no more than its bytes. -/
theorem least_event (c : Option CodecReader) (p : PReader) (e : Event) (he : isCodecEvent e = false) :
    Holds (fun p' => costBase (codecAfter c e) p' ≤ costBase c p + 8 + eventNeed e) (readEvent p e) := by
  have hst : ∀ s : PMP4.State, ¬ p.state ≠ s → p.state = s := fun s h => by simpa using h
  have hmove : ∀ (s1 s2 : PMP4.State) (c' : Option CodecReader) (n : Nat), p.state = s1 → costHead s2 + costState c' s2 ≤ costHead s1 + costState c s1 + n →
      costHead s2 ≤ costHead s1 + n → costBase c' { p with state := s2 } ≤ costBase c p + n := by
    intro s1 s2 c' n h1 h2 h3
    unfold costBase costCur
    dsimp only
    rw [h1]
    cases p.cur with
    | none => dsimp only; omega
    | some t =>
      dsimp only
      split <;> omega
  cases e with
  | codec f => cases he
  | codecError => cases he
  | other => exact Nat.le_trans (Nat.le_add_right _ _) (Nat.le_add_right _ _)
  | ftyp => exact holds_if (fun _ => trivial) fun h => hmove _ _ c 8 (hst _ h) (Nat.le_refl _) (by decide)
  | moov => exact holds_if (fun _ => trivial) fun h => hmove _ _ c 8 (hst _ h) (Nat.le_refl _) (by decide)
  | mvhd => exact holds_if (fun _ => trivial) fun h => hmove _ _ c 108 (hst _ h) (Nat.le_refl _) (by decide)
  | elst => exact holds_if (fun _ => trivial) fun h => hmove _ _ c 8 (hst _ h) (Nat.le_refl _) (by decide)
  | stsd => exact holds_if (fun _ => trivial) fun h => hmove _ _ (some {}) 16 (hst _ h) (Nat.le_refl _) (by decide)
  | edts | mdia | minf | stbl => exact holds_if (fun _ => trivial) fun _ => Nat.le_trans (Nat.le_add_right _ _) (Nat.le_add_right _ _)
  | trak =>
    refine holds_if (fun _ => trivial) fun h => ?_
    have hs : p.state = .waitingTrak ∨ p.state = .waitingSampleProps := by
      cases hp : p.state <;> simp_all
    show costBase c _ ≤ costBase c p + 8 + 0
    rw [least_all p c hs]
    exact Nat.le_refl _
  | tkhd id =>
    refine holds_if (fun _ => trivial) fun h => ?_
    unfold PReader.withCur
    cases hc : p.cur with
    | none => trivial
    | some t =>
      show costBase c _ ≤ costBase c p + 8 + 84
      unfold costBase costCur
      dsimp only
      rw [hst _ h, hc]
      dsimp only [costHead, costState]
      split <;> omega
  | mdhd ts d =>
    refine holds_if (fun _ => trivial) fun h => holds_if (fun _ => trivial) fun _ => ?_
    unfold PReader.withCur
    cases hc : p.cur with
    | none => trivial
    | some t =>
      show costBase c _ ≤ costBase c p + 8 + 24
      unfold costBase costCur
      dsimp only
      rw [hst _ h, hc]
      dsimp only [costHead, costState]
      split <;> omega
  | table b =>
    refine holds_if (fun _ => trivial) fun h => ?_
    unfold PReader.withCur
    cases hc : p.cur with
    | none => trivial
    | some t =>
      dsimp only
      cases hb : PMP4.readBox { t.reader with props := p.state = .waitingSampleProps, trackDuration := p.trackDuration } b with
      | err e => trivial
      | panic => trivial
      | ok r =>
        show costBase c _ ≤ costBase c p + 8 + eventNeed (.table b)
        unfold costBase costCur
        dsimp only
        rcases least_box _ _ _ hb with ⟨h1, h2, l, rfl, h3⟩ | ⟨h1, h2, h3⟩
        · have hs : p.state = .waitingSamples := by
            cases hp : p.state <;> simp_all
          rw [h2, hs, hc, if_pos rfl]
          dsimp only [costHead, costState, eventNeed] at h3 ⊢
          split
          · by_cases hl : l = []
            · rw [h3 hl, if_pos hl]; omega
            · rw [if_neg hl]
              split <;> split <;> omega
          · omega
        · have hs : p.state = .waitingSampleProps := by simpa using h1
          rw [h2, hs, hc, if_pos rfl]
          dsimp only [costHead, costState] at h3 ⊢
          have he : r.samples = [] ↔ t.reader.samples = [] := by
            rw [← List.length_eq_zero_iff, ← List.length_eq_zero_iff, h3]
          split
          · by_cases hl : t.reader.samples = []
            · rw [if_pos hl, if_pos (he.2 hl)]; omega
            · rw [if_neg hl, if_neg (fun e => hl (he.1 e))]; omega
          · omega

/-! ## The handler -/

theorem least_step (r : PMP4File.Reader) (e : Event) (he : isCodecEvent e = false) :
    Holds (fun r' => cost r' ≤ cost r + 8 + eventNeed e) (r.step e) := by
  unfold PMP4File.Reader.step
  refine holds_bind (least_event r.codecReader r.base e he) fun p hp => ?_
  cases e <;> exact hp

theorem least_read (r : PMP4File.Reader) (typ payload : Bytes) (expand : PMP4File.Reader → Res PMP4File.Reader)
    (hx : ∀ r, Expands isoFields cost typ payload r (expand r)) :
    Holds (fun r' => cost r' ≤ cost r + 8 + payload.length) (r.readBox typ payload expand) := by
  unfold PMP4File.Reader.readBox
  refine holds_bind (least_decode typ payload) fun e he => holds_bind (least_step r e he.1) fun r1 h1 => ?_
  refine holds_if (fun hc => holds_mono (hx r1) fun r2 h2 => ?_) fun hc => ?_
  · obtain ⟨n, hn, h3, h4⟩ := h2
    have := he.2.1 hc n hn
    omega
  · have := he.2.2 (by simpa using hc)
    show cost r1 ≤ _
    omega

theorem least_drop (l : List RTrack) : (l.dropLast.map leastTrack).sum ≤ (l.map leastTrack).sum := by
  induction l with
  | nil => exact Nat.le_refl _
  | cons t l ih =>
    cases l with
    | nil => exact Nat.zero_le _
    | cons t' l =>
      rw [List.dropLast_cons_cons, List.map_cons, List.map_cons, List.sum_cons, List.sum_cons]
      exact Nat.add_le_add_left ih _

/-- The codec that was found. -/
theorem least_ended (r : PMP4File.Reader) (c : CodecReader) (hr : r.codecReader = some c) :
    Holds (fun r' => cost r' ≤ cost r) (r.codecEnded c) := by
  unfold PMP4File.Reader.codecEnded
  refine holds_bind (P := fun p => costBase r.codecReader p ≤ costBase r.codecReader r.base) ?_ fun p hp => hp
  refine holds_if (fun _ => trivial) fun hs => ?_
  have hs : r.base.state = .readingCodec := by simpa using hs
  refine holds_if (fun hi => ?_) fun _ => holds_if (fun _ => ?_) fun hli => holds_if (fun _ => trivial) fun _ => ?_
  · show costBase _ _ ≤ _
    unfold costBase costCur
    have : costCodec (some c) = 47 := by unfold costCodec; dsimp only; rw [if_pos hi]
    dsimp only
    rw [hs, hr]
    dsimp only [costHead, costState]
    rw [this]
    exact Nat.le_refl _
  · show costBase _ _ ≤ _
    unfold costBase costCur
    dsimp only
    rw [hs]
    dsimp only [costHead]
    cases r.base.cur with
    | none => exact Nat.le_refl _
    | some t => dsimp only; rw [if_neg (by decide)]; omega
  · show costBase _ _ ≤ _
    have hli : r.base.listed = false := by simpa using hli
    unfold costBase costCur
    dsimp only
    rw [hs, hli]
    dsimp only [costHead]
    have := least_drop r.base.tracks
    cases r.base.cur with
    | none => dsimp only; omega
    | some t => dsimp only; rw [if_neg (by decide), if_neg (by decide)]; omega

theorem least_reader (r : PMP4File.Reader) (c c' : CodecReader) (n : Nat) (hr : r.codecReader = some c)
    (h : costCodec (some c') ≤ costCodec (some c) + n) : cost { r with codecReader := some c' } ≤ cost r + n := by
  have hs : costState (some c') r.base.state ≤ costState (some c) r.base.state + n := by
    cases r.base.state <;> dsimp only [costState] <;> omega
  unfold cost costBase costCur
  dsimp only
  rw [hr]
  cases r.base.cur with
  | none => dsimp only; omega
  | some t => dsimp only; split <;> omega

theorem least_handle (bi : FMP4.BoxInfo) (depth : Nat) (payload : Bytes) (expand : PMP4File.Reader → Res PMP4File.Reader) (r : PMP4File.Reader)
    (hx : ∀ r, Expands isoFields cost bi.typ payload r (expand r)) :
    Holds (fun r' => cost r' ≤ cost r + 8 + payload.length) (PMP4File.handle bi depth payload expand r) := by
  unfold PMP4File.handle
  refine holds_if (fun hs => ?_) fun _ => least_read r _ _ _ hx
  cases hr : r.codecReader with
  | none => trivial
  | some c =>
    show Holds _ (c.read depth bi.typ payload >>= _)
    refine holds_bind (P := CodecCost bi.typ payload c) ?_ fun a ha => ?_
    · unfold CodecReader.read
      exact holds_if (fun _ => holds_if (fun _ => trivial) fun _ => trivial) fun _ => least_codec c _ _
    · cases a with
      | done c' => exact Nat.le_trans (least_reader r c c' (8 + payload.length) hr (by have : _ ≤ _ := ha; omega)) (by omega)
      | expand c' =>
        refine holds_mono (hx _) fun r' h => ?_
        obtain ⟨n, hn, h1, h2⟩ := h
        have := least_reader r c c' (8 + n) hr (by have : _ ≤ _ := ha n hn; omega)
        omega
      | ended =>
        unfold PMP4File.Reader.afterCodec
        refine holds_bind (least_ended r c hr) fun r1 h1 => holds_mono (least_read r1 _ _ _ hx) fun r2 h2 => by omega

/-! ## C83 -/

theorem least_samples (l : List RTrack) (h : ∀ t ∈ l, t.reader.samples.length ≤ maxSamples) :
    227 * (l.map fun t => t.reader.samples.length).sum ≤ maxSamples * (l.map leastTrack).sum := by
  induction l with
  | nil => exact Nat.le_refl _
  | cons t l ih =>
    have h1 := ih fun x hx => h x (List.mem_cons_of_mem _ hx)
    have h2 := h t List.mem_cons_self
    rw [List.map_cons, List.map_cons, List.sum_cons, List.sum_cons, Nat.mul_add, Nat.mul_add]
    refine Nat.add_le_add ?_ h1
    unfold leastTrack
    by_cases he : t.reader.samples = []
    · rw [he]; exact Nat.zero_le _
    · rw [if_neg he, Nat.mul_comm maxSamples]
      exact Nat.mul_le_mul_left _ h2

theorem least_tracks (l : List RTrack) : 219 * l.length ≤ (l.map leastTrack).sum := by
  induction l with
  | nil => exact Nat.le_refl _
  | cons t l ih =>
    rw [List.map_cons, List.sum_cons, List.length_cons]
    unfold leastTrack at ih ⊢
    omega

/-- **C83, exactly.** From all bytes: the tracks take their least bytes, so there is at most a track for each 219 bytes after the first
124, and at most 5184000 samples for each 227. -/
theorem C83_exact (b : Bytes) (l : List (RTrack × Option Codec)) (h : PMP4File.unmarshal isoFields b = .ok l) :
    leastHead + (l.map fun x => leastTrack x.1).sum ≤ b.length ∧ 124 + 219 * l.length ≤ b.length ∧
      227 * fileSampleCount l ≤ 5184000 * (b.length - 124) := by
  have hres := C82_result isoFields b l h
  have hsum : leastHead + (l.map fun x => leastTrack x.1).sum ≤ b.length := by
    unfold PMP4File.unmarshal at h
    obtain ⟨r, hr, h⟩ := Res.bind_eq_ok.1 h
    have e5 := (holds_get (least_tree isoFields PMP4File.handle cost least_handle (b.length + 1) b 0 none 1 {}) hr).1
    split at h
    · cases h
    · rename_i hs
      split at h
      · cases h
      · cases h
        have hs : r.base.state = .waitingTrak ∨ r.base.state = .waitingSampleProps := by
          cases hp : r.base.state <;> simp_all
        have e0 : cost {} = 0 := rfl
        have e1 := least_all r.base r.codecReader hs
        have e2 : ∀ (a : List RTrack) (c : List (Option Codec)), ((a.zip c).map fun x => leastTrack x.1).sum ≤ (a.map leastTrack).sum := by
          intro a
          induction a with
          | nil => intro c; exact Nat.zero_le _
          | cons t a ih =>
            intro c
            cases c with
            | nil => exact Nat.zero_le _
            | cons x c =>
              rw [List.zip_cons_cons, List.map_cons, List.map_cons, List.sum_cons, List.sum_cons]
              exact Nat.add_le_add_left (ih c) _
        have := e2 r.base.all r.allCodecs
        unfold cost at e5
        have e6 : costBase ({} : PMP4File.Reader).codecReader ({} : PMP4File.Reader).base = 0 := rfl
        omega
  have e3 : (l.map fun x => leastTrack x.1) = (l.map Prod.fst).map leastTrack := by rw [List.map_map]; rfl
  have e4 : fileSampleCount l = ((l.map Prod.fst).map fun t => t.reader.samples.length).sum := by
    unfold fileSampleCount; rw [List.map_map]; rfl
  have h5 := least_samples (l.map Prod.fst) fun t ht => by
    obtain ⟨x, hx, rfl⟩ := List.mem_map.1 ht
    exact (hres.2 x hx).2.2.1
  have h6 := least_tracks (l.map Prod.fst)
  rw [List.length_map] at h6
  rw [e3] at hsum ⊢
  rw [e4]
  have e7 : leastHead = 124 := rfl
  refine ⟨hsum, by omega, Nat.le_trans h5 (Nat.mul_le_mul_left _ (by omega))⟩

/-! ## C83: files that take no more -/

/-- AC-3 takes the least bytes: an audio entry and 3 bytes. -/
theorem least_ac3 : ∃ c, CodecReads typAc3 (encodeAudio 2 16 (48000 * 65536)) typDac3 [0, 0, 0] c :=
  ⟨_, rfl, rfl, fun rest => by rw [init_audio_length]; rfl, _, fun rest => init_enterAudio .waitingDac3 _ _ _ _, rfl⟩

def leastEntry : Bytes := box typAc3 (encodeAudio 2 16 (48000 * 65536) ++ box typDac3 [0, 0, 0])

def leastStsd : Bytes := box typStsd (encodeCount 1 ++ leastEntry)

def leastTkhd : Bytes := box typTkhd (PMP4File.encodeTkhd 1 0 0 0 0 0)

def leastMdhd : Bytes := box typMdhd (PMP4File.encodeMdhd 48000 0)

def leastStts (n : Nat) : Bytes := box typStts (encodeStts [⟨n, 960⟩])

/-- A track without boxes that have boxes only. `stts` is after it, where it ends the boxes of the codec. -/
def leastTrak (n : Nat) : Bytes := box typTrak (leastTkhd ++ (box typElst [] ++ (leastMdhd ++ leastStsd))) ++ leastStts n

/-- The other tracks. -/
def leastMore (n : Nat) : Nat → Bytes
  | 0 => []
  | k + 1 => leastMore n k ++ leastTrak n

/-- The first track has the other ones. It is in `mvhd`, and has the boxes that are needed to get to the depth where codecs are read. -/
def leastFile (n k : Nat) : Bytes :=
  box typFtyp [] ++ box typMoov (box typMvhd (PMP4File.encodeMvhd 0 2 ++ box typTrak (leastTkhd ++
    box typEdts (box typElst [] ++ box typMdia (leastMdhd ++ (leastStsd ++ (leastStts n ++ leastMore n k)))))))

theorem least_stts_length (n : Nat) : (leastStts n).length = 24 := file_flood_stts n

theorem least_trak_length (n : Nat) : (leastTrak n).length = 227 := by
  unfold leastTrak
  rw [List.length_append, least_stts_length]
  have : (box typTrak (leastTkhd ++ (box typElst [] ++ (leastMdhd ++ leastStsd)))).length = 203 := by decide +kernel
  omega

theorem least_more_length (n k : Nat) : (leastMore n k).length = 227 * k := by
  induction k with
  | zero => rfl
  | succ k ih => rw [leastMore, List.length_append, ih, least_trak_length]; omega

theorem least_parts : leastTkhd.length = 92 ∧ leastMdhd.length = 32 ∧ leastStsd.length = 63 ∧ (box typElst []).length = 8 ∧ leastEntry.length = 47 := by
  decide +kernel

theorem least_stsd (d : Nat) (hd : 6 ≤ d) (all : List RTrack) (t : RTrack) (dur : Nat) (cr0 : Option CodecReader) (co : Option Codec)
    (codecs : List (Option Codec)) (c : Codec) (hr : CodecReads typAc3 (encodeAudio 2 16 (48000 * 65536)) typDac3 [0, 0, 0] c) :
    ∃ cr : CodecReader, cr.codec = some c ∧ cr.state = .waitingAdditional ∧
      Reads isoFields PMP4File.handle leastStsd d ⟨⟨.waitingStsd, all, some t, true, dur⟩, cr0, co, codecs⟩
        ⟨⟨.readingCodec, all, some t, true, dur⟩, some cr, co, codecs⟩ := by
  obtain ⟨h1, h2, h3, cr, h4, h5⟩ := hr
  have hl := least_parts.2.2.2.2
  unfold leastEntry at hl
  have hl' := hl
  rw [box_length _ _ h1] at hl'
  refine ⟨{ cr with codec := some c, state := .waitingAdditional }, rfl, rfl, ?_⟩
  unfold leastStsd leastEntry
  refine tree_node (r1 := ⟨⟨.readingCodec, all, some t, true, dur⟩, some {}, co, codecs⟩) (by rfl) (by decide +kernel) (by rw [init_count_length]; rfl) (fun bi expand e => ?_) ?_
  · unfold PMP4File.handle
    rw [if_neg (by simp), e]
    rfl
  refine tree_node (r1 := ⟨⟨.readingCodec, all, some t, true, dur⟩, some cr, co, codecs⟩) h1 (by rw [hl']; decide) (h3 _) (fun bi expand e => ?_) ?_
  · unfold PMP4File.handle
    rw [if_pos rfl]
    show (CodecReader.read _ _ _ _ >>= _) = _
    unfold CodecReader.read
    rw [if_neg (by omega), e, h4, Res.bind_ok]
    rfl
  · refine tree_leaf h2 (by decide) fun bi expand e => ?_
    unfold PMP4File.handle
    rw [if_pos rfl]
    show (CodecReader.read _ _ _ _ >>= _) = _
    unfold CodecReader.read
    rw [if_neg (by omega), e, h5]
    rfl

theorem least_read_tkhd (d : Nat) (all : List RTrack) (dur : Nat) (cr0 : Option CodecReader) (co : Option Codec) (codecs : List (Option Codec)) :
    Reads isoFields PMP4File.handle leastTkhd d ⟨⟨.waitingTkhd, all, some {}, true, dur⟩, cr0, co, codecs⟩
      ⟨⟨.waitingElst, all, some { id := 1 }, true, dur⟩, cr0, co, codecs⟩ := by
  refine file_leaf _ _ _ _ _ (.tkhd 1) (by rfl) (by decide +kernel) (by simp) ?_ rfl rfl
  show (decodeTkhd (PMP4File.encodeTkhd 1 0 0 0 0 0) >>= _) = _
  rw [mp4t_tkhd]
  rfl

theorem least_read_elst (d : Nat) (all : List RTrack) (t : RTrack) (dur : Nat) (cr0 : Option CodecReader) (co : Option Codec) (codecs : List (Option Codec)) :
    Reads isoFields PMP4File.handle (box typElst []) d ⟨⟨.waitingElst, all, some t, true, dur⟩, cr0, co, codecs⟩
      ⟨⟨.waitingMdhd, all, some t, true, dur⟩, cr0, co, codecs⟩ :=
  file_leaf _ _ _ _ _ .elst (by rfl) (by decide +kernel) (by simp) rfl rfl rfl

theorem least_read_mdhd (d : Nat) (all : List RTrack) (dur : Nat) (cr0 : Option CodecReader) (co : Option Codec) (codecs : List (Option Codec)) :
    Reads isoFields PMP4File.handle leastMdhd d ⟨⟨.waitingMdhd, all, some { id := 1 }, true, dur⟩, cr0, co, codecs⟩
      ⟨⟨.waitingStsd, all, some ⟨1, 48000, {}⟩, true, 0⟩, cr0, co, codecs⟩ := by
  refine file_leaf _ _ _ _ _ (.mdhd 48000 0) (by rfl) (by decide +kernel) (by simp) ?_ rfl rfl
  show (PMP4File.decodeMdhd (PMP4File.encodeMdhd 48000 0) >>= _) = _
  rw [mp4t_mdhd _ _ (by decide) (by decide), Res.bind_ok]

theorem least_read_stts (n : Nat) (hn : n ≤ maxSamples) (all : List RTrack) (cr : CodecReader) (c : Codec) (co : Option Codec) (codecs : List (Option Codec))
    (h1 : cr.codec = some c) (h2 : cr.state = .waitingAdditional) :
    Reads isoFields PMP4File.handle (leastStts n) 6 ⟨⟨.readingCodec, all, some ⟨1, 48000, {}⟩, true, 0⟩, some cr, co, codecs⟩
      ⟨⟨.waitingSampleProps, all, some ⟨1, 48000, floodReader n⟩, true, 0⟩, some cr, some c, codecs⟩ := by
  have hn32 : n < 2 ^ 32 := by
    have : maxSamples < 2 ^ 32 := by decide
    generalize maxSamples = m at *; omega
  have htab : (⟨typStts, encodeStts [⟨n, 960⟩], .stts [⟨n, 960⟩]⟩ : FileTable).Good := by
    refine ⟨rfl, ?_⟩
    show (decodeStts _ >>= _) = _
    rw [mp4t_stts _ (by simp) (by intro e he; simp only [List.mem_singleton] at he; subst he; exact ⟨hn32, by show 960 < 2 ^ 32; decide⟩), Res.bind_ok]
  have e1 : readEvent ⟨.readingCodec, all, some ⟨1, 48000, {}⟩, true, 0⟩ (.codec true) =
      .ok ⟨.waitingSamples, all, some ⟨1, 48000, {}⟩, true, 0⟩ := rfl
  exact file_first_table ⟨typStts, encodeStts [⟨n, 960⟩], .stts [⟨n, 960⟩]⟩
    ⟨⟨.readingCodec, all, some ⟨1, 48000, {}⟩, true, 0⟩, some cr, co, codecs⟩ cr c _ _ htab
    (by have := least_stts_length n; unfold leastStts at this; dsimp only; omega) rfl rfl h1 h2 e1 (file_flood_table n all hn)

theorem least_step_trak (r : PMP4File.Reader) (hs : r.base.state = .waitingTrak ∨ r.base.state = .waitingSampleProps) :
    r.step .trak = .ok ⟨⟨.waitingTkhd, r.base.all, some {}, true, r.base.trackDuration⟩, r.codecReader, none, r.allCodecs⟩ := by
  unfold PMP4File.Reader.step readEvent
  dsimp only
  rw [if_neg (by rcases hs with h | h <;> rw [h] <;> simp), Res.bind_ok]

theorem least_read_trak (n : Nat) (hn : n ≤ maxSamples) (r : PMP4File.Reader) (hs : r.base.state = .waitingSampleProps) (c : Codec)
    (hr : CodecReads typAc3 (encodeAudio 2 16 (48000 * 65536)) typDac3 [0, 0, 0] c) :
    ∃ r', Reads isoFields PMP4File.handle (leastTrak n) 6 r r' ∧ r'.base.state = .waitingSampleProps ∧
      r'.base.all = r.base.all ++ [⟨1, 48000, floodReader n⟩] ∧ r'.allCodecs = r.allCodecs ++ [some c] := by
  obtain ⟨cr, h1, h2, h3⟩ := least_stsd 7 (by decide) r.base.all ⟨1, 48000, {}⟩ 0 r.codecReader none r.allCodecs c hr
  refine ⟨⟨⟨.waitingSampleProps, r.base.all, some ⟨1, 48000, floodReader n⟩, true, 0⟩, some cr, some c, r.allCodecs⟩, ?_, rfl, rfl, rfl⟩
  unfold leastTrak
  refine tree_append ?_ (least_read_stts n hn r.base.all cr c none r.allCodecs h1 h2)
  refine file_node _ _ _ r _ _ .trak (by rfl) (by decide +kernel) (fun _ => rfl) (by rw [hs]; simp) (fun _ => rfl) rfl (least_step_trak r (.inr hs)) ?_
  exact tree_append (least_read_tkhd _ _ _ _ _ _) (tree_append (least_read_elst _ _ _ _ _ _ _) (tree_append (least_read_mdhd _ _ _ _ _ _) h3))

theorem least_read_more (n : Nat) (hn : n ≤ maxSamples) (k : Nat) (r : PMP4File.Reader) (hs : r.base.state = .waitingSampleProps) (c : Codec)
    (hr : CodecReads typAc3 (encodeAudio 2 16 (48000 * 65536)) typDac3 [0, 0, 0] c) :
    ∃ r', Reads isoFields PMP4File.handle (leastMore n k) 6 r r' ∧ r'.base.state = .waitingSampleProps ∧
      r'.base.all = r.base.all ++ List.replicate k ⟨1, 48000, floodReader n⟩ ∧ r'.allCodecs = r.allCodecs ++ List.replicate k (some c) := by
  induction k with
  | zero => exact ⟨r, tree_nil _ _ _ _, hs, by simp, by simp⟩
  | succ k ih =>
    obtain ⟨r1, h1, h2, h3, h4⟩ := ih
    obtain ⟨r2, g1, g2, g3, g4⟩ := least_read_trak n hn r1 h2 c hr
    refine ⟨r2, tree_append h1 g1, g2, ?_, ?_⟩
    · rw [g3, h3, List.replicate_succ', List.append_assoc]
    · rw [g4, h4, List.replicate_succ', List.append_assoc]

theorem least_mdia_length (n k : Nat) : (box typMdia (leastMdhd ++ (leastStsd ++ (leastStts n ++ leastMore n k)))).length = 127 + 227 * k := by
  obtain ⟨_, h2, h3, _, _⟩ := least_parts
  rw [box_length _ _ (by rfl), List.length_append, List.length_append, List.length_append, h2, h3, least_stts_length, least_more_length]
  omega

theorem least_edts_length (n k : Nat) : (box typEdts (box typElst [] ++ box typMdia (leastMdhd ++ (leastStsd ++ (leastStts n ++ leastMore n k))))).length =
    143 + 227 * k := by
  rw [box_length _ _ (by rfl), List.length_append, least_mdia_length, least_parts.2.2.2.1]
  omega

theorem least_file_length (n k : Nat) : (leastFile n k).length = 140 + 227 * (k + 1) := by
  unfold leastFile
  rw [List.length_append, box_length _ _ (by rfl), box_length _ _ (by rfl), box_length _ _ (by rfl), List.length_append, box_length typTrak _ (by rfl),
    List.length_append, least_edts_length, least_parts.1, file_mvhd_length]
  show 8 + 0 + _ = _
  omega

theorem least_mvhd_fields (x : Bytes) : isoFields typMvhd (PMP4File.encodeMvhd 0 2 ++ x) = some 100 := by
  have hh : (PMP4File.encodeMvhd 0 2).head? = some 0 := by decide +kernel
  show (if (PMP4File.encodeMvhd 0 2 ++ x).head? = some 0 then some 100 else some 112) = _
  rw [if_pos (by rw [List.head?_append, hh]; rfl)]

/-- **C83, the constants are reached.** For each `n` up to the limit and each `k`, a file of 140 + 227 (k + 1) bytes has k + 1 tracks with
`n` samples each. -/
theorem C83_exact_reached (n k : Nat) (hn : n ≤ 5184000) (hl : 227 * k < 2 ^ 31) :
    ∃ b l, b.length = 140 + 227 * (k + 1) ∧ PMP4File.unmarshal isoFields b = .ok l ∧ l.length = k + 1 ∧ fileSampleCount l = (k + 1) * n := by
  obtain ⟨c, hc⟩ := least_ac3
  have hm := least_mdia_length n k
  have he := least_edts_length n k
  obtain ⟨cr, h1, h2, h3⟩ := least_stsd 6 (by decide) [] ⟨1, 48000, {}⟩ 0 none none [] c hc
  obtain ⟨r', g1, g2, g3, g4⟩ := least_read_more n hn k
    ⟨⟨.waitingSampleProps, [], some ⟨1, 48000, floodReader n⟩, true, 0⟩, some cr, some c, []⟩ rfl c hc
  have hin := tree_append (least_read_mdhd 6 [] 0 none none []) (tree_append h3 (tree_append (least_read_stts n hn [] cr c none [] h1 h2) g1))
  have hF := least_file_length n k
  have hread : Reads isoFields PMP4File.handle (leastFile n k) 1 {} r' := by
    unfold leastFile at hF ⊢
    generalize leastMdhd ++ (leastStsd ++ (leastStts n ++ leastMore n k)) = B at *
    have hT : (box typTrak (leastTkhd ++ box typEdts (box typElst [] ++ box typMdia B))).length = 243 + 227 * k := by
      rw [box_length _ _ (by rfl), List.length_append, he, least_parts.1]; omega
    refine tree_append (r' := ⟨⟨.waitingMoov, [], none, false, 0⟩, none, none, []⟩)
      (file_leaf _ _ _ _ _ .ftyp (by rfl) (by decide) (by simp) rfl rfl rfl) ?_
    refine file_node _ _ _ _ ⟨⟨.waitingMvhd, [], none, false, 0⟩, none, none, []⟩ _ .moov (by rfl)
      (by rw [List.length_append] at hF; omega) (fun _ => rfl) (by simp) (fun _ => rfl) rfl rfl ?_
    refine tree_node (r1 := (⟨⟨.waitingTrak, [], none, false, 0⟩, none, none, []⟩ : PMP4File.Reader)) (by rfl)
      (by rw [List.length_append, hT, file_mvhd_length]; omega) ?_ (fun bi expand e => by
        unfold PMP4File.handle
        rw [if_neg (by simp), e]
        rfl) ?_
    · rw [file_mvhd_length]
      exact least_mvhd_fields _
    refine file_node _ _ _ _ _ _ .trak (by rfl) (by omega) (fun _ => rfl) (by simp) (fun _ => rfl) rfl (least_step_trak _ (.inl rfl)) ?_
    refine tree_append (least_read_tkhd _ _ _ _ _ _) ?_
    refine file_node _ _ _ _ ⟨⟨.waitingElst, [], some { id := 1 }, true, 0⟩, none, none, []⟩ _ .edts (by rfl) (by omega) (fun _ => rfl) (by simp)
      (fun _ => rfl) rfl rfl ?_
    refine tree_append (least_read_elst _ _ _ _ _ _ _) ?_
    exact file_node _ _ _ _ ⟨⟨.waitingMdhd, [], some { id := 1 }, true, 0⟩, none, none, []⟩ _ .mdia (by rfl) (by omega) (fun _ => rfl) (by simp)
      (fun _ => rfl) rfl rfl hin
  have a1 : r'.base.all = List.replicate (k + 1) ⟨1, 48000, floodReader n⟩ := g3
  have a2 : r'.allCodecs = List.replicate (k + 1) (some c) := g4
  refine ⟨leastFile n k, r'.base.all.zip r'.allCodecs, hF, ?_, ?_, ?_⟩
  · unfold PMP4File.unmarshal
    rw [tree_file hread, Res.bind_ok, if_neg (by rw [g2]; simp), if_neg]
    rw [a1, List.replicate_succ]
    simp
  · rw [List.length_zip, a1, a2, List.length_replicate, List.length_replicate, Nat.min_self]
  · unfold fileSampleCount
    rw [a1, a2, List.zip_replicate', List.map_replicate]
    have : (floodReader n).samples.length = n := List.length_replicate
    rw [this, List.sum_replicate_nat]

/-- **C83.** A constant times the number of bytes bounds the number of tracks and samples of all files if and only if it is at least 22838. -/
theorem C83_constant (c : Nat) : (∀ (b : Bytes) (l : List (RTrack × Option Codec)), PMP4File.unmarshal isoFields b = .ok l →
    l.length + fileSampleCount l ≤ c * b.length) ↔ 22838 ≤ c := by
  constructor
  · intro h
    refine Classical.byContradiction fun hc => ?_
    obtain ⟨b, l, h1, h2, _, h3⟩ := C83_exact_reached 5184000 3999999 (by decide) (by decide)
    have h4 := h b l h2
    have h5 : c * b.length ≤ 22837 * b.length := Nat.mul_le_mul_right _ (by omega)
    omega
  · intro hc b l h
    obtain ⟨_, h0, h1⟩ := C83_exact b l h
    have h2 : 22838 * b.length ≤ c * b.length := Nat.mul_le_mul_right _ hc
    omega

/-- The file with two tracks, of 594 bytes, and its samples. -/
example : (leastFile 3 1).length = 594 ∧ ∃ l, PMP4File.unmarshal isoFields (leastFile 3 1) = .ok l ∧ l.length = 2 ∧ fileSampleCount l = 6 := by
  refine ⟨by rw [least_file_length], ?_⟩
  have h : (PMP4File.unmarshal isoFields (leastFile 3 1)).bind (fun l => if l.length = 2 ∧ fileSampleCount l = 6 then .ok () else .err "") = .ok () := by
    decide +kernel
  obtain ⟨l, hl, h⟩ := Res.bind_eq_ok.1 h
  refine ⟨l, hl, ?_⟩
  by_cases h1 : l.length = 2 ∧ fileSampleCount l = 6
  · exact h1
  · rw [if_neg h1] at h; cases h

/-- A byte less, and it is not read. -/
example : PMP4File.unmarshal isoFields ((leastFile 3 0).take 366) = .err "EOF" := by decide +kernel

end Verif.Props
