import Verif.Props.CodecKept
import Verif.Props.FMP4InitRoundTrip

/-!
# C75: an initialization segment that was read and written is read again
-/

namespace Verif.Props
open MP4Codec MP4Box FMP4Init
open Readers (SBuf)

/-- What holds of the variables of `Init.Unmarshal`. -/
structure InitKept (r : FMP4Init.Reader) : Prop where
  reader : ∀ c, r.codecReader = some c → KeptReader c
  tracks : ∀ t ∈ r.tracks, ∀ c, t.codec = some c → SmallConfig c → Kept c
  userData : ∀ u ∈ r.userData, u.1.length = 4

theorem kept_boxType (b : Bytes) (pos : Nat) : Holds (fun o => ∀ bi, o = some bi → bi.typ.length = 4) (FMP4.readBoxInfo b pos) := by
  unfold FMP4.readBoxInfo
  refine holds_if (fun _ _ h => by cases h) fun h8 => ?_
  refine holds_bind (P := fun x => x.2.length + 4 = (b.drop pos).length) ?_ fun x hx => ?_
  · refine holds_of fun x hx => ?_
    unfold FMP4.takeBE at hx
    split at hx
    · cases hx
    · cases hx
      rw [List.length_drop]
      omega
  · have ht : (x.2.take 4).length = 4 := by rw [List.length_take]; omega
    refine holds_if (fun _ bi h => by cases h; exact ht) fun _ => holds_if (fun _ => holds_if (fun _ _ h => by cases h) fun _ =>
      holds_bind (holds_any _) fun _ _ => holds_if (fun _ => trivial) fun _ bi h => by cases h; exact ht) fun _ => holds_if (fun _ => trivial) fun _ bi h => by
        cases h; exact ht

/-- As `holds_readTree`, with types of four bytes. -/
theorem kept_readTree {σ : Type} (fields : Fields) (h : Handler σ) (I : σ → Prop)
    (hh : ∀ bi depth payload expand r, bi.typ.length = 4 → I r → (∀ r, I r → Holds I (expand r)) → Holds I (h bi depth payload expand r)) :
    ∀ (n : Nat) (b : Bytes) (pos : Nat) (left : Option Nat) (depth : Nat) (r : σ), I r → Holds I (readTree fields h n b pos left depth r) := by
  intro n
  induction n with
  | zero => intro b pos left depth r _; unfold readTree; trivial
  | succ n ih =>
    intro b pos left depth r hr
    unfold readTree
    refine holds_if (fun _ => holds_if (fun _ => hr) fun _ => trivial) fun _ => ?_
    refine holds_bind (kept_boxType b pos) fun o ho => ?_
    match o with
    | none => exact holds_if (fun _ => hr) fun _ => trivial
    | some bi =>
      refine holds_if (fun _ => trivial) fun _ => ?_
      refine holds_bind (hh bi depth _ _ r (ho bi rfl) hr fun r' hr' => ?_) fun r' hr' => ih _ _ _ _ _ hr'
      unfold expandBox
      split
      · trivial
      · exact holds_if (fun _ => trivial) fun _ => ih _ _ _ _ _ hr'

theorem kept_onTrack (r : FMP4Init.Reader) (g : InitTrack → InitTrack) (h : InitKept r)
    (hg : ∀ t ∈ r.tracks, ∀ c, (g t).codec = some c → SmallConfig c → Kept c) : Holds InitKept (r.onTrack g) := by
  unfold FMP4Init.Reader.onTrack
  split
  · trivial
  · rename_i t l e
    have hm : ∀ x, x ∈ r.tracks ↔ x = t ∨ x ∈ l := by
      intro x
      rw [← List.mem_reverse, e, List.mem_cons]
    refine ⟨h.reader, fun x hx => ?_, h.userData⟩
    rcases List.mem_append.1 hx with hx | hx
    · exact h.tracks x ((hm x).2 (Or.inr (List.mem_reverse.1 hx)))
    · rw [List.mem_singleton.1 hx]
      exact hg t ((hm t).2 (Or.inl rfl))

theorem kept_dropTrack (r : FMP4Init.Reader) (h : InitKept r) : Holds InitKept r.dropTrack := by
  unfold FMP4Init.Reader.dropTrack
  split
  · trivial
  · rename_i t l e
    refine ⟨h.reader, fun x hx => ?_, h.userData⟩
    refine h.tracks x ?_
    rw [← List.mem_reverse, e, List.mem_cons]
    exact Or.inr (List.mem_reverse.1 hx)

theorem kept_enterBox (r : FMP4Init.Reader) (want next : FMP4Init.State) (expand : FMP4Init.Reader → Res FMP4Init.Reader) (h : InitKept r)
    (hx : ∀ r, InitKept r → Holds InitKept (expand r)) : Holds InitKept (r.enter want next expand) :=
  holds_if (fun _ => trivial) fun _ => hx _ ⟨h.reader, h.tracks, h.userData⟩

theorem kept_initBox (r : FMP4Init.Reader) (typ payload : Bytes) (expand : FMP4Init.Reader → Res FMP4Init.Reader) (h : InitKept r)
    (hx : ∀ r, InitKept r → Holds InitKept (expand r)) : Holds InitKept (r.readBox typ payload expand) := by
  unfold FMP4Init.Reader.readBox
  refine holds_if (fun _ => holds_if (fun _ => trivial) fun _ => ⟨h.reader, h.tracks, h.userData⟩) fun _ =>
    holds_if (fun _ => kept_enterBox r _ _ _ h hx) fun _ => holds_if (fun _ => kept_enterBox r _ _ _ h hx) fun _ =>
    holds_if (fun _ => kept_enterBox r _ _ _ h hx) fun _ => holds_if (fun _ => ?_) fun _ => holds_if (fun _ => ?_) fun _ =>
    holds_if (fun _ => kept_enterBox r _ _ _ h hx) fun _ => holds_if (fun _ => ?_) fun _ => holds_if (fun _ => kept_enterBox r _ _ _ h hx) fun _ =>
    holds_if (fun _ => ?_) fun _ => h
  · refine holds_if (fun _ => trivial) fun _ => hx _ ⟨h.reader, fun t ht => ?_, h.userData⟩
    rcases List.mem_append.1 ht with ht | ht
    · exact h.tracks t ht
    · rw [List.mem_singleton.1 ht]; intro c hc; cases hc
  · exact holds_if (fun _ => trivial) fun _ => holds_bind (holds_any _) fun _ _ => holds_bind (kept_onTrack r _ h h.tracks) fun r' hr' =>
      ⟨hr'.reader, hr'.tracks, hr'.userData⟩
  · exact holds_if (fun _ => trivial) fun _ => holds_bind (holds_any _) fun _ _ => holds_if (fun _ => trivial) fun _ =>
      holds_bind (kept_onTrack r _ h h.tracks) fun r' hr' => ⟨hr'.reader, hr'.tracks, hr'.userData⟩
  · exact holds_if (fun _ => trivial) fun _ => hx _ ⟨fun c hc => by cases hc; exact kept_new, h.tracks, h.userData⟩

theorem kept_initHandle (fields : Fields) (bi : FMP4.BoxInfo) (depth : Nat) (payload : Bytes) (expand : FMP4Init.Reader → Res FMP4Init.Reader)
    (r : FMP4Init.Reader) (ht : bi.typ.length = 4) (h : InitKept r) (hx : ∀ r, InitKept r → Holds InitKept (expand r)) :
    Holds InitKept (FMP4Init.handle fields bi depth payload expand r) := by
  unfold FMP4Init.handle
  split
  · refine holds_if (fun _ => kept_initBox _ _ _ _ ⟨h.reader, h.tracks, h.userData⟩ hx) fun _ => ?_
    unfold FMP4Init.Reader.readUserData
    split
    · trivial
    · refine ⟨h.reader, h.tracks, fun u hu => ?_⟩
      rcases List.mem_append.1 hu with hu | hu
      · exact h.userData u hu
      · rw [List.mem_singleton.1 hu]; exact ht
  · refine holds_bind (P := fun c => KeptReader c) ?_ fun c hc => holds_bind (kept_read c depth bi.typ payload hc) fun a ha => ?_
    · cases e : r.codecReader with
      | none => trivial
      | some c => exact h.reader c e
    · cases a with
      | ended =>
        refine holds_bind (P := InitKept) (holds_if (fun _ => kept_onTrack r _ h fun t _ k hk => hc.codec k hk) fun _ => kept_dropTrack r h) fun r' hr' =>
          kept_initBox _ _ _ _ ⟨hr'.reader, hr'.tracks, hr'.userData⟩ hx
      | done c' => exact ⟨fun k hk => by cases hk; exact ha, h.tracks, h.userData⟩
      | expand c' => exact hx _ ⟨fun k hk => by cases hk; exact ha, h.tracks, h.userData⟩
  · exact kept_initBox r _ _ _ h hx

theorem kept_init (fields : Fields) (b : Bytes) (i : Init) (h : FMP4Init.unmarshal fields b = .ok i) (hs : ∀ t ∈ i.tracks, ∀ c, t.codec = some c → SmallConfig c) :
    GoodInit i := by
  obtain ⟨g1, g2⟩ := C74_result fields b i h
  unfold FMP4Init.unmarshal at h
  obtain ⟨r, hr, h⟩ := Res.bind_eq_ok.1 h
  have hf : InitKept r := holds_get (kept_readTree fields (FMP4Init.handle fields) InitKept (kept_initHandle fields) (b.length + 1) b 0 none 1 {}
    ⟨fun _ h => (by cases h), fun _ h => (by cases h), fun _ h => (by cases h)⟩) hr
  split at h
  · cases h
  · split at h
    · cases h
    · cases h
      exact ⟨g1, fun t ht => (g2 t ht).1, fun t ht => (g2 t ht).2.1, fun t ht c hc => hf.tracks t ht c hc (hs t ht c hc), hf.userData⟩

/-- **C75**: a segment that was read from any bytes and that is written again, is read again: the same identifiers, time scales and user data, and
the same codecs but for values that the boxes do not tell. -/
theorem C75_again (fields : Fields) (b : Bytes) (i : Init) (f : SBuf) (h : FMP4Init.unmarshal fields b = .ok i)
    (hs : ∀ t ∈ i.tracks, ∀ c, t.codec = some c → SmallConfig c) (hf : FMP4Init.marshal ⟨[], 0⟩ i = .ok f) :
    FMP4Init.unmarshal isoFields f.buf = .ok (restoredInit i) :=
  C76_round_trip i f (kept_init fields b i h hs) hf

theorem kept_normal (a : MPEG4Audio.ASC) (hv : ASCValid a) : ascNormal (ascNormal a) = ascNormal a := by
  by_cases h : a.channelCount = 0
  · have h7 := hv.config h
    unfold ascNormal
    simp only [h, if_true]
    by_cases hz : Spec.channelsOfConfig a.channelConfig = 0
    · rw [if_pos hz]
    · rw [if_neg hz]
      have : (if Spec.channelsOfConfig a.channelConfig = 8 then 7 else Spec.channelsOfConfig a.channelConfig) = a.channelConfig := by
        unfold Spec.channelsOfConfig
        split <;> split <;> omega
      rw [this]
  · simp [ascNormal, h]

/-- The same for a second time: nothing changes any more. -/
theorem C75_stable (fields : Fields) (b : Bytes) (i : Init) (f g : SBuf) (h : FMP4Init.unmarshal fields b = .ok i)
    (hs : ∀ t ∈ i.tracks, ∀ c, t.codec = some c → SmallConfig c) (hf : FMP4Init.marshal ⟨[], 0⟩ i = .ok f)
    (hg : FMP4Init.marshal ⟨[], 0⟩ (restoredInit i) = .ok g) : FMP4Init.unmarshal isoFields g.buf = .ok (restoredInit i) := by
  have e := C75_again fields b i f h hs hf
  have hr : ∀ c, Kept c → restoredCodec (restoredCodec c) = restoredCodec c := by
    intro c hk
    cases c with
    | mpeg4Audio a => exact congrArg Codec.mpeg4Audio (kept_normal a hk)
    | ac3 a => simp only [restoredCodec]
    | _ => rfl
  have hsm : ∀ c, SmallConfig c → SmallConfig (restoredCodec c) := by
    intro c
    cases c <;> exact id
  have := C75_again isoFields f.buf (restoredInit i) g e (fun t ht c hc => by
    obtain ⟨u, hu, rfl⟩ := List.mem_map.1 ht
    obtain ⟨k, hk, rfl⟩ := Option.map_eq_some_iff.1 (show u.codec.map restoredCodec = some c from hc)
    exact hsm k (hs u hu k hk)) hg
  rw [this]
  unfold restoredInit restoredTrack
  rw [List.map_map]
  have hk := (kept_init fields b i h hs).codec
  have : i.tracks.map ((fun t : InitTrack => ({ id := t.id, timeScale := t.timeScale, codec := t.codec.map restoredCodec } : InitTrack)) ∘
      fun t => { id := t.id, timeScale := t.timeScale, codec := t.codec.map restoredCodec }) =
      i.tracks.map fun t => { id := t.id, timeScale := t.timeScale, codec := t.codec.map restoredCodec } := by
    refine List.map_congr_left fun t ht => ?_
    cases e : t.codec with
    | none => simp [e]
    | some c => simp [e, hr c (hk t ht c e)]
  rw [this]

/-- A segment of the test suite meets the hypotheses. -/
example : FMP4Init.unmarshal isoFields initSampleH264Mpeg4AudioBytes = .ok initSampleH264Mpeg4Audio ∧
    (∀ t ∈ initSampleH264Mpeg4Audio.tracks, ∀ c, t.codec = some c → SmallConfig c) ∧
    ∃ f, FMP4Init.marshal ⟨[], 0⟩ initSampleH264Mpeg4Audio = .ok f := by
  refine ⟨by decide +kernel, fun t ht c hc => ?_, ?_⟩
  · simp only [initSampleH264Mpeg4Audio, List.mem_cons, List.not_mem_nil, or_false] at ht
    rcases ht with rfl | rfl <;> (cases hc; trivial)
  · have h : (FMP4Init.marshal ⟨[], 0⟩ initSampleH264Mpeg4Audio).isOk = true := by decide +kernel
    cases e : FMP4Init.marshal ⟨[], 0⟩ initSampleH264Mpeg4Audio with
    | ok f => exact ⟨f, rfl⟩
    | err m => rw [e] at h; cases h
    | panic => rw [e] at h; cases h

end Verif.Props
