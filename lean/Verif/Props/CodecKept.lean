import Verif.Props.PMP4FileHostile
import Verif.Props.FMP4InitRoundTrip

/-!
# The codecs that are read from boxes fit the boxes

A codec that `CodecBoxesReader` found is within the ranges that are needed for writing it without loss (`Kept`). Only the configuration of
MPEG-4 and MPEG-1 video may be too long, by a few bytes, for the lengths of the descriptors that contain it.
-/

namespace Verif.Props
open FMP4Init MP4Codec MP4Box

/-- The configuration of MPEG-4 and MPEG-1 video leaves room for the descriptors around it. -/
def SmallConfig : Codec → Prop
  | .mpeg4Video config => config.length < 2 ^ 28 - 32
  | .mpeg1Video config => config.length < 2 ^ 28 - 32
  | _ => True

theorem kept_field : ∀ (ws : List Nat) (n i : Nat), (unpackNat ws n).getD i 0 < 2 ^ ws.getD i 0 := by
  intro ws
  induction ws with
  | nil => intro n i; simp [unpackNat]
  | cons w ws ih =>
    intro n i
    unfold unpackNat
    cases i with
    | zero => simpa using Nat.mod_lt _ (Nat.two_pow_pos w)
    | succ i => simpa using ih n i

theorem kept_unpack (ws : List Nat) (b : Bytes) : Holds (fun x => ∀ i, x.1.getD i 0 < 2 ^ ws.getD i 0) (unpack ws b) :=
  holds_bind (holds_any _) fun x _ => fun i => kept_field ws x.1 i

theorem kept_takeBytes (k : Nat) (b : Bytes) : Holds (fun x => x.1.length = k) (takeBytes k b) :=
  holds_if (fun _ => trivial) fun h => by
    show (b.take k).length = k
    rw [List.length_take]; omega

theorem kept_sets : ∀ (n : Nat) (b : Bytes), Holds (fun r => ∀ x ∈ r.1, x.length < 2 ^ 16) (decodeSets n b) := by
  intro n
  induction n with
  | zero => intro b x hx; cases hx
  | succ n ih =>
    intro b
    refine holds_bind (kept_unpack _ _) fun f hf => holds_bind (kept_takeBytes _ _) fun t ht => holds_bind (ih _) fun r hr => ?_
    intro x hx
    rcases List.mem_cons.1 hx with rfl | hx
    · rw [ht]; exact hf 0
    · exact hr x hx

theorem kept_arrays : ∀ (n : Nat) (b : Bytes), Holds (fun l => ∀ a ∈ l, ∀ x ∈ a.nalus, x.length < 2 ^ 16) (decodeArrays n b) := by
  intro n
  induction n with
  | zero => intro b a ha; cases ha
  | succ n ih =>
    intro b
    refine holds_bind (holds_any _) fun f _ => holds_bind (kept_sets _ _) fun s hs => holds_bind (ih _) fun l hl => ?_
    intro a ha
    rcases List.mem_cons.1 ha with rfl | ha
    · exact hs
    · exact hl a ha

theorem kept_idx {α : Type} (l : List α) (n : Nat) : Holds (fun a => a ∈ l) (idx l n) := by
  by_cases h : n < l.length
  · rw [idx_of_lt h]; exact List.getElem_mem h
  · refine holds_of fun a ha => ?_
    unfold idx at ha
    rw [List.getElem?_eq_none (by omega)] at ha
    cases ha

theorem kept_av1 : ∀ l : List Bytes, (∀ o ∈ l, ∃ (b : UInt8) (p : Bytes), o = b :: p ∧ b.toNat / 2 % 2 = 0 ∧ b.toNat / 4 % 2 = 0 ∧ b.toNat < 128 ∧ p.length < 2 ^ 32) →
    Holds (fun sh => Kept (.av1 sh)) (firstSequenceHeader l) := by
  intro l
  induction l with
  | nil => intro _; trivial
  | cons o l ih =>
    intro h
    obtain ⟨b, p, rfl, h1, h2, h3, h4⟩ := h o (by simp)
    unfold firstSequenceHeader
    rw [idx_of_lt (by simp), Res.bind_ok]
    refine holds_if (fun ht => ?_) fun _ => ih fun x hx => h x (by simp [hx])
    refine holds_bind (holds_any _) fun _ _ => ⟨b, p, rfl, ?_, h4⟩
    have ht := congrArg UInt8.toNat ht
    simp only [List.getElem_cons_zero] at ht
    rw [UInt8.toNat_and, UInt8.toNat_shiftRight] at ht
    have e : b.toNat >>> (3 % 8) &&& 15 = b.toNat / 8 % 16 := by
      rw [show (15 : Nat) = 2 ^ 4 - 1 from rfl, Nat.and_two_pow_sub_one_eq_mod, Nat.shiftRight_eq_div_pow]
    have : b.toNat / 8 % 16 = 1 := by rw [← e]; exact ht
    omega

theorem kept_av1_find (b : Bytes) : Holds (fun sh => Kept (.av1 sh)) (av1FindSequenceHeader b) := by
  refine holds_bind (holds_sound (sound_orError _ (by decide) _ (C18_bitstream_no_panic b))) fun l hl => kept_av1 l ?_
  obtain ⟨-, hs⟩ := (C18_bitstream_accepts_iff b l).mp hl
  clear hl
  induction hs with
  | nil => intro o ho; cases ho
  | cons h1 _ ih =>
    intro o ho
    rcases List.mem_cons.1 ho with rfl | ho
    · obtain ⟨h, pre, last, payload, a1, a2, a3, a4, a5, rfl, rfl⟩ := h1
      have hn : (UInt8.ofNat (h.toNat - 2)).toNat = h.toNat - 2 := by
        rw [UInt8.toNat_ofNat']
        have := h.toNat_lt
        omega
      refine ⟨_, _, rfl, ?_, ?_, ?_, ?_⟩
      · rw [hn]; omega
      · rw [hn]; omega
      · rw [hn]; omega
      · rw [← a5]; exact Nat.mod_lt _ (by decide)
    · exact ih o ho

theorem kept_h264 (sps pps : List Bytes) (h1 : ∀ x ∈ sps, x.length < 2 ^ 16) (h2 : ∀ x ∈ pps, x.length < 2 ^ 16) :
    Holds (fun r => Kept (.h264 r.1 r.2)) (h264FindParams sps pps) :=
  holds_if (fun _ => trivial) fun _ => holds_if (fun _ => trivial) fun _ => holds_if (fun _ => trivial) fun _ => holds_if (fun _ => trivial) fun _ =>
    holds_bind (kept_idx _ _) fun s hs => holds_bind (holds_any _) fun _ _ => holds_bind (kept_idx _ _) fun p hp =>
      holds_if (fun _ => trivial) fun _ => ⟨h1 s hs, h2 p hp⟩

theorem kept_h265_array (arr : NaluArray) (vps sps pps : Bytes) (h : ∀ x ∈ arr.nalus, x.length < 2 ^ 16) (hk : Kept (.h265 vps sps pps)) :
    Holds (fun r => Kept (.h265 r.1 r.2.1 r.2.2)) (h265Array arr vps sps pps) := by
  refine holds_if (fun _ => holds_if (fun _ => trivial) fun _ => ?_) fun _ => hk
  refine holds_bind (kept_idx _ _) fun n hn => holds_if (fun _ => ⟨h n hn, hk.2⟩) fun _ => holds_if (fun _ => ?_) fun _ => ⟨hk.1, hk.2.1, h n hn⟩
  exact holds_bind (holds_any _) fun _ _ => ⟨hk.1, h n hn, hk.2.2⟩

theorem kept_h265_arrays : ∀ (l : List NaluArray) (vps sps pps : Bytes), (∀ a ∈ l, ∀ x ∈ a.nalus, x.length < 2 ^ 16) → Kept (.h265 vps sps pps) →
    Holds (fun r => Kept (.h265 r.1 r.2.1 r.2.2)) (h265Arrays l vps sps pps) := by
  intro l
  induction l with
  | nil => intro vps sps pps _ hk; exact hk
  | cons a l ih =>
    intro vps sps pps h hk
    exact holds_bind (kept_h265_array a vps sps pps (h a (by simp)) hk) fun r hr => ih _ _ _ (fun x hx => h x (by simp [hx])) hr

theorem kept_h265 (l : List NaluArray) (h : ∀ a ∈ l, ∀ x ∈ a.nalus, x.length < 2 ^ 16) :
    Holds (fun r => Kept (.h265 r.1 r.2.1 r.2.2)) (h265FindParams l) :=
  holds_bind (kept_h265_arrays l [] [] [] h ⟨by decide, by decide, by decide⟩) fun _ hr => holds_if (fun _ => trivial) fun _ =>
    holds_if (fun _ => trivial) fun _ => holds_if (fun _ => trivial) fun _ => hr

theorem kept_asc (b : Bytes) (c : MPEG4Audio.ASC) (h : MPEG4Audio.ASC.unmarshal b = .ok c) : ASCValid c := by
  obtain ⟨bits, rest, g, -⟩ := (C22_decode b c).1 h
  have rate : ∀ r bits, Spec.IsRate r bits → r < 2 ^ 24 := by
    rintro r bits (⟨i, hi, -⟩ | ⟨hr, -⟩)
    · unfold Spec.rateOfIndex at hi
      split at hi <;> first | (cases hi; decide) | cases hi
    · exact hr
  obtain ⟨h1, h2, h3, h4, h5, rb, h6, h7⟩ := g
  refine ⟨h1, rate _ _ h6, ?_, fun _ => h2, ?_, ?_, ?_, h4, h5⟩
  · rw [h3]; unfold Spec.channelsOfConfig; split <;> omega
  · rcases h7 with ⟨e, -, -⟩ | ⟨e, -⟩
    · exact .inl e
    · exact .inr e
  · rcases h7 with ⟨-, e, -⟩ | ⟨-, eb, e, -⟩
    · rw [e]; decide
    · exact rate _ _ e
  · intro h0
    rcases h7 with ⟨-, e, -⟩ | ⟨e, -⟩
    · exact e
    · omega

theorem kept_chanLoc (n low : Nat) (b : Bytes) (h : low < 2) : Holds (fun r => r.1 < 2 ^ 9 ∧ (n = 0 → r.1 = 0)) (decodeChanLoc n low b) :=
  holds_if (fun _ => ⟨by show 0 < 2 ^ 9; decide, fun _ => rfl⟩) fun hn => holds_bind (kept_unpack _ _) fun f hf => by
    have : f.1.getD 0 0 < 2 ^ 8 := hf 0
    exact ⟨by show low * 2 ^ 8 + f.1.getD 0 0 < 2 ^ 9; omega, fun e => absurd e hn⟩

/-- The fields of a substream of E-AC-3 are in range. -/
def SubFits (s : IndSub) : Prop := s.bsmod < 2 ^ 3 ∧ s.acmod < 2 ^ 3 ∧ s.numDepSub < 2 ^ 4 ∧ s.chanLoc < 2 ^ 9 ∧ (s.numDepSub = 0 → s.chanLoc = 0)

theorem kept_subs : ∀ (n : Nat) (b : Bytes), Holds (fun l => ∀ s ∈ l, SubFits s) (decodeIndSubs n b) := by
  intro n
  induction n with
  | zero => intro b s hs; cases hs
  | succ n ih =>
    intro b
    refine holds_bind (kept_unpack _ _) fun f hf => holds_bind (kept_chanLoc _ _ _ (hf 9)) fun c hc => holds_bind (ih _) fun l hl => ?_
    intro s hs
    rcases List.mem_cons.1 hs with rfl | hs
    · exact ⟨hf 4, hf 5, hf 8, hc.1, hc.2⟩
    · exact hl s hs

theorem kept_dec3 (b : Bytes) : Holds (fun r => r.1 < 2 ^ 13 ∧ ∀ s ∈ r.2.2, SubFits s) (decodeDec3 b) :=
  holds_bind (kept_unpack _ _) fun _ hf => holds_bind (kept_subs _ _) fun _ hl => ⟨hf 0, hl⟩

/-- What holds of the reader of the codec boxes. -/
structure KeptReader (r : CodecReader) : Prop where
  codec : ∀ c, r.codec = some c → SmallConfig c → Kept c
  width : r.width < 2 ^ 16
  height : r.height < 2 ^ 16
  rate : r.sampleRate < 2 ^ 16
  channels : r.channelCount < 2 ^ 16
  size : r.state = .waitingVpcC → 0 < r.width ∧ 0 < r.height

/-- What holds after a box. -/
def KeptAction : Action → Prop
  | .ended => True
  | .done r => KeptReader r
  | .expand r => KeptReader r

theorem kept_done {r : CodecReader} (h : KeptReader r) : Holds KeptAction (.ok (.done r)) := h

theorem kept_expand {r : CodecReader} (h : KeptReader r) : Holds KeptAction (.ok (.expand r)) := h

theorem kept_found (r : CodecReader) (c : Codec) (h : KeptReader r) (hc : SmallConfig c → Kept c) : Holds KeptAction (r.found c) := by
  refine kept_done ⟨?_, h.width, h.height, h.rate, h.channels, fun e => by cases e⟩
  intro v hv
  have : v = c := by simpa using hv.symm
  rw [this]; exact hc

theorem kept_enter (r : CodecReader) (s : RState) (h : KeptReader r) (hs : s ≠ .waitingVpcC) : Holds KeptAction (r.enter s) :=
  holds_if (fun _ => trivial) fun _ => kept_expand ⟨h.codec, h.width, h.height, h.rate, h.channels, fun e => absurd e hs⟩

theorem kept_visual (b : Bytes) : Holds (fun x => x.1 < 2 ^ 16 ∧ x.2 < 2 ^ 16) (decodeVisual b) :=
  holds_bind (kept_unpack _ _) fun _ hf => ⟨hf 5, hf 6⟩

theorem kept_enterVp09 (r : CodecReader) (b : Bytes) (h : KeptReader r) : Holds KeptAction (r.enterVp09 b) :=
  holds_if (fun _ => trivial) fun _ => holds_bind (kept_visual _) fun _ hx => holds_if (fun _ => trivial) fun hw =>
    kept_expand ⟨h.codec, hx.1, hx.2, h.rate, h.channels, fun _ => ⟨by dsimp only; omega, by dsimp only; omega⟩⟩

theorem kept_enterMp4v (r : CodecReader) (b : Bytes) (h : KeptReader r) : Holds KeptAction (r.enterMp4v b) :=
  holds_if (fun _ => trivial) fun _ => holds_bind (kept_visual _) fun _ hx =>
    kept_expand ⟨h.codec, hx.1, hx.2, h.rate, h.channels, fun e => by cases e⟩

theorem kept_enterAudio (r : CodecReader) (b : Bytes) (s : RState) (h : KeptReader r) (hs : s ≠ .waitingVpcC) :
    Holds KeptAction (r.enterAudio b s) := by
  refine holds_if (fun _ => trivial) fun _ => ?_
  unfold decodeAudio
  refine holds_bind (P := fun x : Nat × Nat => x.1 < 2 ^ 16 ∧ x.2 < 2 ^ 32) (holds_bind (kept_unpack _ _) fun _ hf => ⟨hf 4, hf 8⟩) fun x hx => ?_
  have := hx.2
  exact kept_expand ⟨h.codec, h.width, h.height, by show x.2 / 65536 < 2 ^ 16; omega, hx.1, fun e => absurd e hs⟩

theorem kept_videoEsds (r : CodecReader) (t : Nat) (spec : Bytes) (h : KeptReader r) : Holds KeptAction (r.videoEsds t spec) := by
  refine holds_if (fun _ => holds_if (fun _ => trivial) fun _ => kept_found _ _ h fun hs => hs) fun _ =>
    holds_if (fun _ => holds_if (fun _ => trivial) fun _ => kept_found _ _ h fun hs => hs) fun _ =>
      holds_if (fun _ => holds_if (fun _ => trivial) fun hw => kept_found _ _ h fun _ => ?_) fun _ => trivial
  have h1 := h.width
  have h2 := h.height
  show (0 < (r.width : Int) ∧ (r.width : Int) < 2 ^ 16) ∧ (0 < (r.height : Int) ∧ (r.height : Int) < 2 ^ 16)
  omega

theorem kept_audioEsds (r : CodecReader) (t : Nat) (spec : Bytes) (h : KeptReader r) : Holds KeptAction (r.audioEsds t spec) := by
  refine holds_if (fun _ => holds_if (fun _ => trivial) fun _ => ?_) fun _ => holds_if (fun _ => kept_found _ _ h fun _ => ?_) fun _ => trivial
  · exact holds_bind (holds_sound (sound_orError _ (by decide) _ (C23_no_panic _))) fun c hc => kept_found _ _ h fun _ => kept_asc _ _ hc
  · have h1 := h.rate
    have h2 := h.channels
    show (0 ≤ (r.sampleRate : Int) ∧ (r.sampleRate : Int) < 2 ^ 16) ∧ (0 ≤ (r.channelCount : Int) ∧ (r.channelCount : Int) < 2 ^ 16)
    omega

theorem kept_readEsds (r : CodecReader) (b : Bytes) (h : KeptReader r) : Holds KeptAction (r.readEsds b) := by
  refine holds_bind (holds_any _) fun l _ => ?_
  split
  · trivial
  · split
    · exact kept_videoEsds _ _ _ h
    · exact kept_audioEsds _ _ _ h
    · trivial

theorem kept_readBox (r : CodecReader) (typ b : Bytes) (h : KeptReader r) : Holds KeptAction (r.readBox typ b) := by
  have hc := h.channels
  have hr := h.rate
  unfold CodecReader.readBox
  refine holds_if (fun _ => holds_if (fun _ => trivial) fun _ =>
      kept_done ⟨h.codec, h.width, h.height, h.rate, h.channels, fun e => by cases e⟩) fun _ =>
    holds_if (fun _ => kept_enter _ _ h (by decide)) fun _ => holds_if (fun _ => ?avcC) fun _ =>
    holds_if (fun _ => kept_enterVp09 _ _ h) fun _ => holds_if (fun _ => ?vpcC) fun _ =>
    holds_if (fun _ => kept_enter _ _ h (by decide)) fun _ => holds_if (fun _ => ?hvcC) fun _ =>
    holds_if (fun _ => kept_enterAudio _ _ _ h (by decide)) fun _ =>
    holds_if (fun _ => kept_enter _ _ h (by decide)) fun _ => holds_if (fun _ => ?av1C) fun _ =>
    holds_if (fun _ => kept_enter _ _ h (by decide)) fun _ => holds_if (fun _ => ?dOps) fun _ =>
    holds_if (fun _ => kept_enterAudio _ _ _ h (by decide)) fun _ => holds_if (fun _ => ?dfLa) fun _ =>
    holds_if (fun _ => kept_enterMp4v _ _ h) fun _ => holds_if (fun _ => kept_readEsds _ _ h) fun _ =>
    holds_if (fun _ => kept_enterAudio _ _ _ h (by decide)) fun _ => holds_if (fun _ => ?dac3) fun _ =>
    holds_if (fun _ => kept_enterAudio _ _ _ h (by decide)) fun _ => holds_if (fun _ => ?dec3) fun _ =>
    holds_if (fun _ => kept_enterAudio _ _ _ h (by decide)) fun _ => holds_if (fun _ => ?pcmC) fun _ => h
  case avcC =>
    refine holds_if (fun _ => trivial) fun _ => ?_
    unfold decodeAvcC
    exact holds_bind (P := fun x : List Bytes × List Bytes => (∀ s ∈ x.1, s.length < 2 ^ 16) ∧ ∀ s ∈ x.2, s.length < 2 ^ 16)
      (holds_bind (holds_any _) fun _ _ => holds_bind (kept_sets _ _) fun _ h1 => holds_bind (holds_any _) fun _ _ =>
        holds_bind (kept_sets _ _) fun _ h2 => ⟨h1, h2⟩) fun _ hx =>
      holds_bind (kept_h264 _ _ hx.1 hx.2) fun _ hk => kept_found _ _ h fun _ => hk
  case vpcC =>
    refine holds_if (fun _ => trivial) fun hs => ?_
    unfold decodeVpcC
    refine holds_bind (P := fun x : Nat × Nat × Nat × Nat => x.1 < 2 ^ 8 ∧ x.2.1 < 2 ^ 4 ∧ x.2.2.1 < 2 ^ 3)
      (holds_bind (kept_unpack _ _) fun _ hf => ⟨hf 2, hf 4, hf 5⟩) fun x hx => kept_found _ _ h fun _ => ?_
    have hw := h.size (by simpa using hs)
    have h1 := h.width
    have h2 := h.height
    refine ⟨?_, ?_, hx⟩
    · show 0 < (r.width : Int) ∧ (r.width : Int) < 2 ^ 16
      omega
    · show 0 < (r.height : Int) ∧ (r.height : Int) < 2 ^ 16
      omega
  case hvcC =>
    refine holds_if (fun _ => trivial) fun _ => ?_
    unfold decodeHvcC
    exact holds_bind (holds_bind (holds_any _) fun _ _ => kept_arrays _ _) fun _ hl =>
      holds_bind (kept_h265 _ hl) fun _ hk => kept_found _ _ h fun _ => hk
  case av1C =>
    exact holds_if (fun _ => trivial) fun _ => holds_bind (holds_any _) fun _ _ => holds_bind (kept_av1_find _) fun _ hk =>
      kept_found _ _ h fun _ => hk
  case dOps =>
    refine holds_if (fun _ => trivial) fun _ => ?_
    unfold decodeDOps
    refine holds_bind (P := fun x : Nat => x < 2 ^ 8) (holds_bind (kept_unpack _ _) fun _ hf => hf 1) fun x hx => kept_found _ _ h fun _ => ?_
    show 0 ≤ (x : Int) ∧ (x : Int) < 2 ^ 8
    omega
  case dfLa =>
    refine holds_if (fun _ => trivial) fun _ => holds_bind (holds_any _) fun bl _ => holds_if (fun _ => trivial) fun hl => ?_
    refine holds_bind (holds_any _) fun block _ => ?_
    refine holds_bind (holds_sound (sound_orError _ (by decide) _ (C29_no_panic _))) fun s hs => kept_found _ _ h fun _ => ?_
    intro s' e
    cases e
    by_cases c : block.length < 34
    · rw [(C29_decode block).1 c] at hs; cases hs
    · obtain ⟨t, ht, hr, -⟩ := (C29_decode block).2 (by omega)
      rw [ht] at hs
      cases hs
      exact hr
  case dac3 =>
    refine holds_if (fun _ => trivial) fun _ => ?_
    unfold decodeDac3
    refine holds_bind (P := fun x : List Nat => x.getD 1 0 < 2 ^ 5 ∧ x.getD 2 0 < 2 ^ 3 ∧ x.getD 3 0 < 2 ^ 3 ∧ x.getD 5 0 < 2 ^ 5)
      (holds_bind (kept_unpack _ _) fun _ hf => ⟨hf 1, hf 2, hf 3, hf 5⟩) fun x hx => kept_found _ _ h fun _ => ⟨?_, hx⟩
    show 0 ≤ (r.channelCount : Int) ∧ (r.channelCount : Int) < 2 ^ 16
    omega
  case dec3 =>
    refine holds_if (fun _ => trivial) fun _ => holds_bind (kept_dec3 _) fun x hx => holds_if (fun _ => trivial) fun _ =>
      holds_bind (kept_idx _ _) fun s hs => kept_found _ _ h fun _ => ⟨?_, hx.1, hx.2 s hs⟩
    show 0 ≤ (r.channelCount : Int) ∧ (r.channelCount : Int) < 2 ^ 16
    omega
  case pcmC =>
    refine holds_if (fun _ => trivial) fun _ => ?_
    unfold decodePcmC
    refine holds_bind (P := fun x : Nat × Nat => x.2 < 2 ^ 8) (holds_bind (kept_unpack _ _) fun _ hf => hf 3) fun x hx => kept_found _ _ h fun _ => ?_
    show (0 ≤ (x.2 : Int) ∧ (x.2 : Int) < 2 ^ 8) ∧ (0 ≤ (r.sampleRate : Int) ∧ (r.sampleRate : Int) < 2 ^ 16) ∧
      (0 ≤ (r.channelCount : Int) ∧ (r.channelCount : Int) < 2 ^ 16)
    omega

theorem kept_read (r : CodecReader) (depth : Nat) (typ b : Bytes) (h : KeptReader r) : Holds KeptAction (r.read depth typ b) :=
  holds_if (fun _ => holds_if (fun _ => trivial) fun _ => trivial) fun _ => kept_readBox _ _ _ h

theorem kept_new : KeptReader {} := ⟨fun _ h => (by cases h), by decide, by decide, by decide, by decide, fun h => by cases h⟩

end Verif.Props
