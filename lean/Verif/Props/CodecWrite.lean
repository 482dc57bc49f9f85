import Verif.Model.FMP4Init
import Verif.Props.AV1Seq
import Verif.Props.AV1
import Verif.Props.H264SPS
import Verif.Props.H265SPS
import Verif.Props.FMP4Write

/-!
# C73: writing an initialization segment
-/

namespace Verif.Props
open FMP4Init MP4Codec MP4Box MP4Writer
open Readers (SBuf)
open Spec (beBytes Gr bitsOf epRemove)

/-- The call does not panic, its value is right and its error is one of those that are expected. -/
def Ends {α : Type} (P : α → Prop) (E : String → Prop) : Res α → Prop
  | .ok a => P a
  | .err e => E e
  | .panic => False

theorem ends_bind {α β : Type} {P : α → Prop} {Q : β → Prop} {E : String → Prop} {x : Res α} {f : α → Res β} (hx : Ends P E x)
    (hf : ∀ a, P a → Ends Q E (f a)) : Ends Q E (x >>= f) := by
  cases x with
  | ok a => exact hf a hx
  | err e => exact hx
  | panic => exact hx.elim

theorem ends_if {α : Type} {P : α → Prop} {E : String → Prop} {c : Prop} [Decidable c] {x y : Res α} (hx : c → Ends P E x)
    (hy : ¬c → Ends P E y) : Ends P E (if c then x else y) := by
  by_cases h : c
  · rw [if_pos h]; exact hx h
  · rw [if_neg h]; exact hy h

theorem ends_ok {α : Type} {P : α → Prop} {E : String → Prop} {a : α} (h : P a) : Ends P E (.ok a) := h

theorem ends_err {α : Type} {P : α → Prop} {E : String → Prop} {e : String} (h : E e) : Ends P E (.err e : Res α) := h

theorem ends_any {α : Type} {x : Res α} (h : x.NoPanic) : Ends (fun a => x = .ok a) (fun _ => True) x := by
  cases x with
  | ok a => exact rfl
  | err e => trivial
  | panic => exact h rfl

theorem ends_noPanic {α : Type} {P : α → Prop} {E : String → Prop} {x : Res α} (h : Ends P E x) : x.NoPanic := by
  cases x with
  | ok a => simp
  | err e => simp
  | panic => exact h.elim

theorem ends_imp {α : Type} {P Q : α → Prop} {E : String → Prop} {x : Res α} (h : Ends P E x) (hi : ∀ a, P a → Q a) : Ends Q E x := by
  cases x with
  | ok a => exact hi a h
  | err e => exact h
  | panic => exact h

/-! ## The file -/

/-- The position of the file is right. -/
def Live (f : SBuf) : Prop := 0 ≤ f.pos

variable {E : String → Prop}

theorem ends_fileWrite (f : SBuf) (p : Bytes) (h : Live f) : Ends Live E (fileWrite f p) := by
  unfold Live at h
  unfold fileWrite SBuf.write
  by_cases c : f.pos < f.buf.length
  · rw [if_pos c, if_neg (by omega)]
    simp only [Res.bind_ok]
    exact ends_ok (by show 0 ≤ f.pos + _; omega)
  · rw [if_neg c]
    simp only [Res.bind_ok]
    exact ends_ok (by show 0 ≤ f.pos + _; omega)

theorem ends_fileSeek (f : SBuf) (o : Int) (h : 0 ≤ o) : Ends Live E (fileSeek f o) := by
  unfold fileSeek SBuf.seek SBuf.target
  simp only [if_true]
  rw [if_neg (by omega)]
  by_cases c : o - f.buf.length > 0
  · rw [if_pos c]; exact ends_ok h
  · rw [if_neg c]; exact ends_ok h

theorem ends_boxStart (f : SBuf) (typ payload : Bytes) (h : Live f) :
    Ends (fun r => 0 ≤ r.1 ∧ Live r.2) E (writeBoxStart f typ payload) :=
  ends_bind (ends_fileWrite _ _ h) fun _ h1 => ends_bind (ends_fileWrite _ _ h1) fun _ h2 => ends_ok ⟨h, h2⟩

theorem ends_boxEnd (hE : E "header size changed") (f : SBuf) (off : Int) (typ : Bytes) (h : Live f) (ho : 0 ≤ off) :
    Ends Live E (writeBoxEnd f off typ) :=
  ends_bind (ends_fileSeek _ _ ho) fun _ h1 =>
    ends_if (fun _ => ends_bind (ends_fileWrite _ _ h1) fun _ _ => ends_fileSeek _ _ h) fun _ => ends_err hE

theorem ends_box (hE : E "header size changed") (f : SBuf) (typ payload : Bytes) (h : Live f) :
    Ends (fun r => Live r.2) E (writeBox f typ payload) :=
  ends_bind (ends_boxStart f typ payload h) fun _ hr => ends_bind (ends_boxEnd hE _ _ _ hr.2 hr.1) fun _ h2 => ends_ok h2

/-! ## The structure -/

/-- What is asked from the codec of a track. -/
def CodecEnds (E : String → Prop) (c : Option Codec) : Prop :=
  Ends (fun info => ∃ v, c = some v ∧ Ends (fun _ => True) E (sampleEntry info v) ∧
    ∀ id avg max, Ends (fun _ => True) E (configBox id info avg max v)) E (fill c)

theorem ends_codecBoxes (hE : E "header size changed") (f : SBuf) (c : Codec) (id : Int) (info : CodecInfo) (avg max : Nat) (h : Live f)
    (h1 : Ends (fun _ => True) E (sampleEntry info c)) (h2 : Ends (fun _ => True) E (configBox id info avg max c)) :
    Ends (fun r => 0 ≤ r.1 ∧ Live r.2.2) E (writeCodecBoxes f c id info avg max) :=
  ends_bind h1 fun _ _ => ends_bind (ends_boxStart _ _ _ h) fun _ hr => ends_bind h2 fun _ _ =>
    ends_bind (ends_box hE _ _ _ hr.2) fun _ h3 => ends_ok ⟨hr.1, h3⟩

theorem ends_dinf (hE : E "header size changed") (f : SBuf) (h : Live f) : Ends Live E (writeDinf f) :=
  ends_bind (ends_boxStart _ _ _ h) fun _ h1 => ends_bind (ends_boxStart _ _ _ h1.2) fun _ h2 =>
    ends_bind (ends_box hE _ _ _ h2.2) fun _ h3 => ends_bind (ends_boxEnd hE _ _ _ h3 h2.1) fun _ h4 => ends_boxEnd hE _ _ _ h4 h1.1

theorem ends_stsd (hE : E "header size changed") (f : SBuf) (it : InitTrack) (c : Codec) (info : CodecInfo) (h : Live f)
    (h1 : Ends (fun _ => True) E (sampleEntry info c)) (h2 : ∀ id avg max, Ends (fun _ => True) E (configBox id info avg max c)) :
    Ends Live E (writeStsd f it c info) :=
  ends_bind (ends_boxStart _ _ _ h) fun _ h3 => ends_bind (ends_codecBoxes hE _ _ _ _ _ _ h3.2 h1 (h2 _ _ _)) fun _ h4 =>
    ends_bind (ends_box hE _ _ _ h4.2) fun _ h5 => ends_bind (ends_boxEnd hE _ _ _ h5 h4.1) fun _ h6 => ends_boxEnd hE _ _ _ h6 h3.1

theorem ends_stbl (hE : E "header size changed") (f : SBuf) (it : InitTrack) (c : Codec) (info : CodecInfo) (h : Live f)
    (h1 : Ends (fun _ => True) E (sampleEntry info c)) (h2 : ∀ id avg max, Ends (fun _ => True) E (configBox id info avg max c)) :
    Ends Live E (writeStbl f it c info) :=
  ends_bind (ends_boxStart _ _ _ h) fun _ h3 => ends_bind (ends_stsd hE _ _ _ _ h3.2 h1 h2) fun _ h4 =>
    ends_bind (ends_box hE _ _ _ h4) fun _ h5 => ends_bind (ends_box hE _ _ _ h5) fun _ h6 => ends_bind (ends_box hE _ _ _ h6) fun _ h7 =>
      ends_bind (ends_box hE _ _ _ h7) fun _ h8 => ends_boxEnd hE _ _ _ h8 h3.1

theorem ends_mediaHeader (hE : E "header size changed") (f : SBuf) (c : Codec) (h : Live f) :
    Ends (fun r => Live r.2) E (writeMediaHeader f c) :=
  ends_if (fun _ => ends_box hE _ _ _ h) fun _ => ends_box hE _ _ _ h

theorem ends_track (hE : E "header size changed") (f : SBuf) (it : InitTrack) (h : Live f) (hc : CodecEnds E it.codec) :
    Ends Live E (marshalTrack f it) := by
  refine ends_bind (ends_boxStart _ _ _ h) fun _ h1 => ends_bind hc fun info hi => ?_
  obtain ⟨c, e, g1, g2⟩ := hi
  rw [e]
  exact ends_bind (ends_ok (P := (· = c)) rfl) fun _ hv => ends_bind (ends_box hE _ _ _ h1.2) fun _ h3 => ends_bind (ends_boxStart _ _ _ h3) fun _ h4 =>
    ends_bind (ends_box hE _ _ _ h4.2) fun _ h5 => ends_bind (ends_box hE _ _ _ h5) fun _ h6 =>
      ends_bind (ends_boxStart _ _ _ h6) fun _ h7 => ends_bind (ends_mediaHeader hE _ _ h7.2) fun _ h8 =>
        ends_bind (ends_dinf hE _ h8) fun _ h9 => ends_bind (ends_stbl hE _ _ _ _ h9 (hv ▸ g1) (hv ▸ g2)) fun _ h10 =>
          ends_bind (ends_boxEnd hE _ _ _ h10 h7.1) fun _ h11 => ends_bind (ends_boxEnd hE _ _ _ h11 h4.1) fun _ h12 =>
            ends_boxEnd hE _ _ _ h12 h1.1

theorem ends_tracks (hE : E "header size changed") (l : List InitTrack) :
    ∀ f : SBuf, Live f → (∀ it ∈ l, CodecEnds E it.codec) → Ends Live E (marshalTracks l f) := by
  induction l with
  | nil => intro f h _; exact ends_ok h
  | cons it l ih =>
    intro f h hc
    exact ends_bind (ends_track hE f it h (hc it (by simp))) fun _ h1 => ih _ h1 fun t ht => hc t (by simp [ht])

theorem ends_trexs (hE : E "header size changed") (l : List InitTrack) : ∀ f : SBuf, Live f → Ends Live E (writeTrexs l f) := by
  induction l with
  | nil => intro f h; exact ends_ok h
  | cons it l ih => intro f h; exact ends_bind (ends_box hE _ _ _ h) fun _ h1 => ih _ h1

theorem ends_all (hE : E "header size changed") (l : List (Bytes × Bytes)) : ∀ f : SBuf, Live f → Ends Live E (writeAll l f) := by
  induction l with
  | nil => intro f h; exact ends_ok h
  | cons it l ih => intro f h; exact ends_bind (ends_box hE _ _ _ h) fun _ h1 => ih _ h1

theorem ends_userData (hE : E "header size changed") (l : List (Bytes × Bytes)) (f : SBuf) (h : Live f) :
    Ends Live E (writeUserData l f) :=
  ends_if (fun _ => ends_bind (ends_boxStart _ _ _ h) fun _ h1 => ends_bind (ends_all hE _ _ h1.2) fun _ h2 => ends_boxEnd hE _ _ _ h2 h1.1)
    fun _ => ends_ok h

theorem ends_marshal (hE : E "header size changed") (f : SBuf) (i : Init) (h : Live f) (hc : ∀ it ∈ i.tracks, CodecEnds E it.codec) :
    Ends Live E (marshal f i) :=
  ends_bind (ends_box hE _ _ _ h) fun _ h1 => ends_bind (ends_boxStart _ _ _ h1) fun _ h2 =>
    ends_bind (ends_box hE _ _ _ h2.2) fun _ h3 => ends_bind (ends_tracks hE _ _ h3 hc) fun _ h4 =>
      ends_bind (ends_boxStart _ _ _ h4) fun _ h5 => ends_bind (ends_trexs hE _ _ h5.2) fun _ h6 =>
        ends_bind (ends_boxEnd hE _ _ _ h6 h5.1) fun _ h7 => ends_bind (ends_userData hE _ _ h7) fun _ h8 => ends_boxEnd hE _ _ _ h8 h2.1

/-! ## Codecs -/

/-- At least `k` bits. -/
def MinBits {α : Type} (G : Gr α) (k : Nat) : Prop := ∀ a bits, G a bits → k ≤ bits.length

theorem minBits_bind {α β : Type} {G : Gr α} {F : α → Gr β} {j k : Nat} (h1 : MinBits G j) (h2 : ∀ a, MinBits (F a) k) :
    MinBits (G >>= F) (j + k) := by
  rintro c bits ⟨a, b1, b2, g1, g2, rfl⟩
  have := h1 _ _ g1
  have := h2 _ _ _ g2
  simp only [List.length_append]
  omega

theorem minBits_zero {α : Type} (G : Gr α) : MinBits G 0 := fun _ _ _ => Nat.zero_le _

theorem minBits_u (n : Nat) : MinBits (Gr.u n) n := by
  rintro a bits ⟨_, rfl⟩; rw [Spec.length_bitsOfNat]; exact Nat.le_refl _

theorem minBits_flag : MinBits Gr.flag 1 := by
  rintro a bits rfl; exact Nat.le_refl _

theorem minBits_times_flag (n : Nat) : MinBits (Gr.times Gr.flag n) n := by
  intro a bits g
  have := BitM.gr_times_bits (k := 1) (fun _ _ h => by rw [h]; rfl) g
  omega

theorem minBits_le {α : Type} {G : Gr α} {j k : Nat} (h : MinBits G j) (hk : k ≤ j) : MinBits G k := fun a b g => Nat.le_trans hk (h a b g)

theorem epRemove_le : ∀ (l : Bytes) (z : Nat), (epRemove z l).length ≤ l.length := by
  intro l
  induction l with
  | nil => intro z; simp [epRemove]
  | cons c l ih =>
    intro z
    rw [epRemove]
    split
    · exact Nat.le_succ_of_le (ih _)
    · simp only [List.length_cons]; exact Nat.succ_le_succ (ih _)

/-- An H265 SPS that is accepted has at least 13 bytes. -/
theorem codec_h265_length (s x : H265.SPS) (buf : Bytes) (e : s.unmarshal buf = .ok x) : 13 ≤ buf.length := by
  obtain ⟨rbsp, bits, rest, ⟨h0, h1, t, rfl, _, rfl⟩, g, hb⟩ := (C51_decode s x buf).1 e
  have hg : ∀ p, MinBits (Spec.H265.general p) 80 := by
    intro p
    refine minBits_le (minBits_bind (minBits_u 2) fun _ => minBits_bind (minBits_u 1) fun _ => minBits_bind (minBits_u 5) fun _ =>
      minBits_bind (minBits_times_flag 32) fun _ => minBits_bind (minBits_zero _) fun _ => minBits_bind (minBits_zero _) fun _ =>
      minBits_bind (minBits_zero _) fun _ => minBits_bind (minBits_zero _) fun _ => minBits_bind (minBits_zero _) fun _ =>
      minBits_bind (minBits_zero _) fun _ => minBits_bind (minBits_zero _) fun _ => minBits_bind (minBits_zero _) fun _ =>
      minBits_bind (minBits_zero _) fun _ => minBits_bind (minBits_zero _) fun _ => minBits_bind (minBits_zero _) fun _ =>
      minBits_bind (minBits_zero _) fun _ => minBits_bind (minBits_zero _) fun _ => minBits_bind (minBits_zero _) fun _ =>
      minBits_bind (j := 34) ?_ fun _ => minBits_bind (minBits_u 8) fun _ => minBits_zero _) (by omega)
    intro a b h
    have h : b.length = _ := h
    rw [h]; split <;> omega
  have hp : ∀ p max, MinBits (Spec.H265.profileTierLevel p max) 80 := by
    intro p max
    exact minBits_le (minBits_bind (hg p) fun _ => minBits_zero _) (by omega)
  have key : MinBits (Spec.H265.spsData s) 88 :=
    minBits_le (minBits_bind (minBits_u 4) fun _ => minBits_bind (minBits_u 3) fun _ => minBits_bind minBits_flag fun _ =>
      minBits_bind (hp _ _) fun _ => minBits_zero _) (by omega)
  have hl := key _ _ g
  have hlen : (bitsOf ((epRemove 0 (h1 :: t)).drop 1)).length = (bits ++ rest).length := by rw [hb]
  rw [Spec.length_bitsOf, List.length_append, List.length_drop] at hlen
  have := epRemove_le (h1 :: t) 0
  simp only [List.length_cons] at this ⊢
  omega

/-- An H264 SPS that is accepted has at least 4 bytes. -/
theorem codec_h264_length (s x : H264.SPS) (buf : Bytes) (e : s.unmarshal buf = .ok x) : 4 ≤ buf.length := by
  obtain ⟨rbsp, bits, rest, ⟨h0, t, rfl, _, rfl⟩, g, hb⟩ := (C50_decode s x buf).1 e
  have key : MinBits (Spec.H264.spsData s) 24 :=
    minBits_le (minBits_bind (minBits_u 8) fun _ => minBits_bind minBits_flag fun _ => minBits_bind minBits_flag fun _ =>
      minBits_bind minBits_flag fun _ => minBits_bind minBits_flag fun _ => minBits_bind minBits_flag fun _ =>
      minBits_bind minBits_flag fun _ => minBits_bind (j := 2) (fun _ b h => by have h : b.length = 2 := h; omega) fun _ =>
      minBits_bind (minBits_u 8) fun _ => minBits_zero _) (by omega)
  have hl := key _ _ g
  have hlen : (bitsOf (epRemove 0 t)).length = (bits ++ rest).length := by rw [hb]
  rw [Spec.length_bitsOf, List.length_append] at hlen
  have := epRemove_le t 0
  simp only [List.length_cons]
  omega

/-- The size of an H265 picture is never an error. -/
theorem codec_h265_width (s x : H265.SPS) (buf : Bytes) (e : s.unmarshal buf = .ok x) : (∃ w, x.width = .ok w) ∧ ∃ h, x.height = .ok h := by
  obtain ⟨h1, h2, -, -⟩ := C51_size s x buf e
  have hi : ∀ (l : List Nat) (n : Nat), l[n]?.isSome → ∃ u, idx l n = .ok u := by
    intro l n h
    obtain ⟨u, hu⟩ := Option.isSome_iff_exists.1 h
    exact ⟨u, by unfold idx; rw [hu]⟩
  constructor
  · unfold H265.SPS.width at h1 ⊢
    split
    · rename_i c hc
      simp only [hc] at h1
      cases hx : idx H265.subWidthC x.chromaFormatIdc with
      | ok u => exact ⟨_, rfl⟩
      | err s => unfold idx at hx; split at hx <;> cases hx
      | panic => rw [hx] at h1; exact absurd rfl h1
    · exact ⟨_, rfl⟩
  · unfold H265.SPS.height at h2 ⊢
    split
    · rename_i c hc
      simp only [hc] at h2
      cases hx : idx H265.subHeightC x.chromaFormatIdc with
      | ok u => exact ⟨_, rfl⟩
      | err s => unfold idx at hx; split at hx <;> cases hx
      | panic => rw [hx] at h2; exact absurd rfl h2
    · exact ⟨_, rfl⟩

/-- A sequence header that is accepted is written. -/
theorem codec_av1_obus (h0 h : AV1.SequenceHeader) (sh : Bytes) (e : h0.unmarshal sh = .ok h) : ∃ obus, AV1.bitstreamMarshal [sh] = .ok obus := by
  obtain ⟨payload, hs, grain, bits, rest, ⟨b, g1, g2, hp⟩, -⟩ := (C52_decode h0 h sh).1 e
  have hh : ∀ t, AV1.obuHeaderUnmarshal (b :: t) = .ok ⟨b >>> 3, decide (b.toNat / 2 % 2 = 1)⟩ := by
    intro t; rw [AV1.obuHeader_cons, if_neg (by omega), if_neg (by omega)]
  obtain ⟨t, rfl⟩ : ∃ t, sh = b :: t := by
    rcases hp with ⟨_, rfl⟩ | ⟨_, _, _, _, _, rfl⟩
    · exact ⟨_, rfl⟩
    · exact ⟨_, rfl⟩
  unfold AV1.bitstreamMarshal AV1.bitstreamSize AV1.bitstreamSize
  rw [hh, Res.bind_ok]
  unfold AV1.bitstreamMarshalLoop AV1.bitstreamMarshalLoop
  simp only [hh]
  by_cases c : b.toNat / 2 % 2 = 1
  · rw [decide_eq_true c]
    simp only [Bool.not_true, Bool.false_eq_true, if_false, Res.bind_ok]
    have := copyAt_append [] (0 + (b :: t).length) (b :: t) 0 rfl (by omega)
    simp only [List.nil_append] at this
    unfold makeBytes
    rw [this, Res.bind_ok]
    exact ⟨_, rfl⟩
  · rw [decide_eq_false c]
    simp only [Bool.not_false, if_true, Res.bind_ok]
    rw [AV1.leb128Size_eq]
    generalize ((b :: t).length - 1) % 2 ^ 32 = v
    have hl := AV1.lebBytes_length_pos v
    rw [idx_zero_cons, Res.bind_ok]
    have h1 := setAt_append [] (0 + (b :: t).length + (Spec.lebBytes v).length) (b ||| 0b00000010) 0 rfl
      (by simp only [List.length_cons]; omega)
    simp only [List.nil_append] at h1
    unfold makeBytes
    rw [h1, Res.bind_ok]
    have h2 := AV1.leb128MarshalTo_spec [b ||| 0b00000010] (0 + (b :: t).length + (Spec.lebBytes v).length - 1) v
      (by simp only [List.length_cons]; omega)
    have e1 : [b ||| 0b00000010].length = 0 + 1 := rfl
    rw [e1] at h2
    rw [h2, Res.bind_ok]
    simp only
    rw [sliceFrom_ok (by simp), Res.bind_ok]
    simp only [List.drop_succ_cons, List.drop_zero]
    rw [copyAt_append _ _ _ _ (by simp only [List.length_append, List.length_singleton]) (by simp only [List.length_cons]; omega),
      Res.bind_ok]
    exact ⟨_, rfl⟩

/-- A write of `k` bits. -/
def Room (k : Nat) (w : BitW) : Prop :=
  ∀ buf pos, pos + k ≤ 8 * buf.length → Ends (fun r => r.1.length = buf.length ∧ r.2 = pos + k) (fun _ => True) (w buf pos)

theorem room_modify (buf : Bytes) (i : Nat) (g : UInt8 → UInt8) (h : i < buf.length) :
    Bits.modifyAt buf i g = .ok (buf.modify i g) := by
  unfold Bits.modifyAt; rw [if_pos h]

theorem room_tail (v : Nat) : ∀ n buf pos, pos + n ≤ 8 * buf.length →
    Ends (fun r => r.1.length = buf.length ∧ r.2 = pos + n) (fun _ => True) (Bits.writeBitsTail buf pos v n) := by
  intro n
  induction n using Nat.strongRecOn with
  | ind n ih =>
    intro buf pos h
    unfold Bits.writeBitsTail
    refine ends_if (fun h8 => ?_) fun _ => ends_if (fun h0 => ?_) fun h0 => ?_
    · rw [room_modify _ _ _ (by rw [Nat.shiftRight_eq_div_pow]; omega), Res.bind_ok]
      refine ends_imp (ih (n - 8) (by omega) _ _ (by simp; omega)) fun r hr => ⟨?_, by omega⟩
      simpa using hr.1
    · rw [room_modify _ _ _ (by rw [Nat.shiftRight_eq_div_pow]; omega), Res.bind_ok]
      exact ends_ok ⟨by simp, rfl⟩
    · exact ends_ok ⟨rfl, by show pos = pos + n; omega⟩

theorem room_bits (v n : Nat) (hn : 1 ≤ n) : Room n (BitW.bits v n) := by
  intro buf pos h
  unfold BitW.bits Bits.writeBitsUnsafe
  have e : pos &&& 7 = pos % 8 := Nat.and_two_pow_sub_one_eq_mod pos 3
  simp only [e]
  refine ends_if (fun h8 => ?_) fun h8 => ?_
  · rw [room_modify _ _ _ (by rw [Nat.shiftRight_eq_div_pow]; omega), Res.bind_ok]
    exact ends_ok ⟨by simp, rfl⟩
  · rw [room_modify _ _ _ (by rw [Nat.shiftRight_eq_div_pow]; omega), Res.bind_ok]
    refine ends_imp (room_tail v _ _ _ (by simp; omega)) fun r hr => ⟨?_, by omega⟩
    simpa using hr.1

theorem room_seq {j k : Nat} {a b : BitW} (h1 : Room j a) (h2 : Room k b) : Room (j + k) (BitW.seq a b) := by
  intro buf pos h
  refine ends_bind (h1 buf pos (by omega)) fun r hr => ?_
  refine ends_imp (h2 r.1 r.2 (by rw [hr.1, hr.2]; omega)) fun q hq => ⟨by rw [hq.1, hr.1], by rw [hq.2, hr.2]; omega⟩

theorem room_nop : Room 0 BitW.nop := fun _ _ _ => ends_ok ⟨rfl, rfl⟩

theorem room_flag (v : Bool) : Room 1 (BitW.flag v) := by
  cases v
  · exact room_bits 0 1 (by omega)
  · exact room_bits 1 1 (by omega)

theorem room_rate (r : Nat) : Room (MPEG4Audio.rateSize r) (MPEG4Audio.rateW r) := by
  unfold MPEG4Audio.rateSize MPEG4Audio.rateW
  split
  · exact room_seq (room_bits _ 4 (by omega)) (room_bits _ 24 (by omega))
  · exact room_bits _ 4 (by omega)

theorem room_config (c : MPEG4Audio.ASC) : Room 4 (MPEG4Audio.configW c) := by
  unfold MPEG4Audio.configW
  split
  · split
    · exact room_bits _ 4 (by omega)
    · split
      · exact room_bits _ 4 (by omega)
      · exact fun _ _ _ => ends_err trivial
  · exact room_bits _ 4 (by omega)

/-- `AudioSpecificConfig.Marshal` does not panic, whatever the configuration. -/
theorem codec_asc_noPanic (c : MPEG4Audio.ASC) : c.marshal.NoPanic := by
  have hw : Room c.marshalSizeBits c.marshalW := by
    have key : Room (5 + (MPEG4Audio.rateSize c.sampleRate + (4 +
        ((if c.extensionType = 5 ∨ c.extensionType = 29 then MPEG4Audio.rateSize c.extensionSampleRate + 5 else 0) + (1 + (1 +
          ((if c.dependsOnCoreCoder then 14 else 0) + (1 + 0)))))))) c.marshalW := by
      refine room_seq (room_bits _ 5 (by omega)) (room_seq (room_rate _) (room_seq (room_config c) (room_seq ?_
        (room_seq (room_flag _) (room_seq (room_flag _) (room_seq ?_ (room_seq ?_ room_nop)))))))
      · split
        · exact room_seq (room_rate _) (room_bits _ 5 (by omega))
        · exact room_nop
      · split
        · exact room_bits _ 14 (by omega)
        · exact room_nop
      · exact fun _ _ _ => ends_ok ⟨rfl, rfl⟩
    unfold MPEG4Audio.ASC.marshalSizeBits
    have e : ∀ a b d : Nat, 5 + (a + (4 + (b + (1 + (1 + (d + (1 + 0))))))) = 5 + 4 + 2 + 1 + a + b + d := by intros; omega
    rw [← e]
    exact key
  unfold MPEG4Audio.ASC.marshal
  refine ends_noPanic (P := fun _ => True) (E := fun _ => True)
    (ends_bind (hw _ 0 ?_) fun _ _ => ends_ok trivial)
  unfold makeBytes MPEG4Audio.ceil8
  rw [List.length_replicate]
  split <;> omega

theorem codec_ascBytes (c : MPEG4Audio.ASC) : ∃ b, ascBytes c = .ok b := by
  have := codec_asc_noPanic c
  unfold ascBytes
  cases h : c.marshal with
  | ok b => exact ⟨b, rfl⟩
  | err e => exact ⟨[], rfl⟩
  | panic => exact absurd h this

theorem ends_of_ok {α : Type} {x : Res α} (h : ∃ a, x = .ok a) : Ends (fun _ => True) E x := by
  obtain ⟨a, rfl⟩ := h; exact ends_ok trivial

theorem codec_index (l : Bytes) (n : Nat) (h : n < l.length) : ∃ b, idx l n = .ok b := ⟨_, idx_of_lt h⟩

/-- What `Fill` finds is what `WriteCodecBoxes` looks at: the boxes of a codec are written, unless there is no STREAMINFO, or the channels
or the rate are refused. -/
theorem codec_ends (c : Codec) (info : CodecInfo) (e : fill (some c) = .ok info) (hf : c ≠ .flac none)
    (hm : ∀ a, c = .mpeg4Audio a → Ends (fun _ => True) E (ascChannels a)) (h3 : ∀ a, c = .ac3 a → Ends (fun _ => True) E (fscodOf a.sampleRate))
    (h4 : ∀ a, c = .eac3 a → Ends (fun _ => True) E (fscodOf a.sampleRate)) :
    Ends (fun _ => True) E (sampleEntry info c) ∧ ∀ id avg max, Ends (fun _ => True) E (configBox id info avg max c) := by
  cases c with
  | av1 sh =>
    obtain ⟨h, eh, e⟩ := Res.bind_eq_ok.1 e
    cases e
    refine ⟨ends_ok trivial, fun id avg max => ?_⟩
    obtain ⟨obus, ho⟩ := codec_av1_obus _ _ _ eh
    obtain ⟨-, -, n, hn, -, -, -, hl, ht, -⟩ := C52_bounds_partial _ _ _ eh
    refine ends_bind (ends_of_ok ⟨_, ho⟩) fun obus' _ => ends_bind (ends_ok (P := (· = h)) rfl) fun h' hh => ?_
    subst hh
    refine ends_bind (ends_of_ok ?_) fun _ _ => ends_ok trivial
    unfold av1Config
    rw [idx_of_lt (show 0 < _ by omega), Res.bind_ok, idx_of_lt (show 0 < _ by omega), Res.bind_ok]
    exact ⟨_, rfl⟩
  | vp9 v => exact ⟨ends_ok trivial, fun _ _ _ => ends_ok trivial⟩
  | h265 vps sps pps =>
    unfold fill at e
    dsimp only at e
    split at e
    · cases e
    · obtain ⟨s, es, e⟩ := Res.bind_eq_ok.1 e
      obtain ⟨w, _, e⟩ := Res.bind_eq_ok.1 e
      obtain ⟨h, _, e⟩ := Res.bind_eq_ok.1 e
      cases e
      refine ⟨ends_ok trivial, fun id avg max => ?_⟩
      have hl := codec_h265_length _ _ _ es
      refine ends_bind (ends_ok (P := (· = s)) rfl) fun s' hs => ?_
      subst hs
      refine ends_bind (ends_of_ok ?_) fun _ _ => ends_ok trivial
      unfold h265Config constraintBytes
      simp only [idx_of_lt (show 7 < sps.length by omega), idx_of_lt (show 8 < sps.length by omega), idx_of_lt (show 9 < sps.length by omega),
        idx_of_lt (show 10 < sps.length by omega), idx_of_lt (show 11 < sps.length by omega), idx_of_lt (show 12 < sps.length by omega),
        Res.bind_ok]
      exact ⟨_, rfl⟩
  | h264 sps pps =>
    unfold fill at e
    dsimp only at e
    split at e
    · cases e
    · obtain ⟨s, es, e⟩ := Res.bind_eq_ok.1 e
      cases e
      refine ⟨ends_ok trivial, fun id avg max => ?_⟩
      have hl := codec_h264_length _ _ _ es
      refine ends_bind (ends_ok (P := (· = s)) rfl) fun s' hs => ?_
      subst hs
      refine ends_bind (ends_of_ok ?_) fun _ _ => ends_ok trivial
      unfold h264Config
      rw [idx_of_lt (show 2 < sps.length by omega), Res.bind_ok]
      exact ⟨_, rfl⟩
  | mpeg4Video v => exact ⟨ends_ok trivial, fun _ _ _ => ends_ok trivial⟩
  | mpeg1Video v => exact ⟨ends_ok trivial, fun _ _ _ => ends_ok trivial⟩
  | mjpeg w h => exact ⟨ends_ok trivial, fun _ _ _ => ends_ok trivial⟩
  | opus v => exact ⟨ends_ok trivial, fun _ _ _ => ends_ok trivial⟩
  | flac si =>
    cases si with
    | none => exact absurd rfl hf
    | some si => exact ⟨ends_ok trivial, fun _ _ _ => ends_ok trivial⟩
  | mpeg4Audio a =>
    obtain ⟨b, hb⟩ := codec_ascBytes a
    refine ⟨ends_bind (hm a rfl) fun _ _ => ends_ok trivial, fun _ _ _ => ?_⟩
    exact ends_bind (ends_of_ok ⟨b, hb⟩) fun _ _ => ends_ok trivial
  | mpeg1Audio r c => exact ⟨ends_ok trivial, fun _ _ _ => ends_ok trivial⟩
  | ac3 a => exact ⟨ends_ok trivial, fun _ _ _ => ends_bind (h3 a rfl) fun _ _ => ends_ok trivial⟩
  | eac3 a => exact ⟨ends_ok trivial, fun _ _ _ => ends_bind (h4 a rfl) fun _ _ => ends_ok trivial⟩
  | lpcm v => exact ⟨ends_ok trivial, fun _ _ _ => ends_ok trivial⟩

theorem codec_fill_noPanic (c : Option Codec) : (fill c).NoPanic := by
  unfold fill
  split
  · simp
  · exact Res.noPanic_bind (C52_no_panic _ _) (by simp)
  · split <;> simp
  · split
    · simp
    · refine Res.noPanic_bind (C51_no_panic _ _) fun s hs => ?_
      obtain ⟨⟨w, hw⟩, h, hh⟩ := codec_h265_width _ _ _ hs
      rw [hw, Res.bind_ok, hh, Res.bind_ok]
      simp
  · split
    · simp
    · exact Res.noPanic_bind (C50_no_panic _ _) (by simp)
  · split <;> simp
  · split <;> simp
  · split <;> simp
  · simp

theorem codec_fill_some {c : Option Codec} {info : CodecInfo} (h : fill c = .ok info) : ∃ v, c = some v := by
  cases c with
  | none => cases h
  | some v => exact ⟨v, rfl⟩

theorem ends_ascChannels (a : MPEG4Audio.ASC) : Ends (fun _ => True) (fun _ => True) (ascChannels a) :=
  ends_if (fun _ => ends_ok trivial) fun _ => ends_if (fun _ => ends_ok trivial) fun _ => ends_if (fun _ => ends_ok trivial) fun _ =>
    ends_err trivial

theorem ends_fscodOf (r : Int) : Ends (fun _ => True) (fun _ => True) (fscodOf r) :=
  ends_if (fun _ => ends_ok trivial) fun _ => ends_if (fun _ => ends_ok trivial) fun _ => ends_if (fun _ => ends_ok trivial) fun _ =>
    ends_err trivial

/-! ## C73 -/

/-- C73: `Init.Marshal` does not panic, whatever the tracks, the codecs and the file, unless a FLAC track has no STREAMINFO. -/
theorem C73_no_panic_partial (f : SBuf) (hf : 0 ≤ f.pos) (i : Init) (h : ∀ it ∈ i.tracks, it.codec ≠ some (.flac none)) :
    (marshal f i).NoPanic := by
  refine ends_noPanic (ends_marshal (E := fun _ => True) trivial f i hf fun it hi => ?_)
  refine ends_imp (ends_any (codec_fill_noPanic it.codec)) fun info hinfo => ?_
  obtain ⟨v, e⟩ := codec_fill_some hinfo
  have hv : v ≠ .flac none := fun e' => h it hi (by rw [e, e'])
  rw [e] at hinfo
  obtain ⟨g1, g2⟩ := codec_ends (E := fun _ => True) v info hinfo hv (fun a _ => ends_ascChannels a) (fun a _ => ends_fscodOf _)
    fun a _ => ends_fscodOf _
  exact ⟨v, e, g1, g2⟩

/-- C73 as it is meant, without exception, is false: `Fill` accepts a FLAC track without STREAMINFO, `WriteCodecBoxes` dereferences it. -/
theorem C73_false : ¬ ∀ (f : SBuf) (i : Init), 0 ≤ f.pos → (marshal f i).NoPanic :=
  fun h => h ⟨[], 0⟩ { tracks := [{ id := 1, timeScale := 44100, codec := some (.flac none) }] } (by decide) (by decide +kernel)

/-- What `Init.Marshal` accepts of a codec: parameters that can be parsed, and the rates and channels that the boxes can express. -/
def Accepted (c : Codec) : Prop :=
  (∃ info, fill (some c) = .ok info) ∧ c ≠ .flac none ∧
  (∀ a, c = .mpeg4Audio a → a.channelCount ≠ 0 ∨ (1 ≤ a.channelConfig ∧ a.channelConfig ≤ 7)) ∧
  (∀ a, c = .ac3 a → a.sampleRate = 48000 ∨ a.sampleRate = 44100 ∨ a.sampleRate = 32000) ∧
  (∀ a, c = .eac3 a → a.sampleRate = 48000 ∨ a.sampleRate = 44100 ∨ a.sampleRate = 32000)

theorem codec_fscod (r : Int) (h : r = 48000 ∨ r = 44100 ∨ r = 32000) : ∃ v, fscodOf r = .ok v := by
  rcases h with rfl | rfl | rfl
  · exact ⟨0, rfl⟩
  · exact ⟨1, rfl⟩
  · exact ⟨2, rfl⟩

theorem codec_channels (a : MPEG4Audio.ASC) (h : a.channelCount ≠ 0 ∨ (1 ≤ a.channelConfig ∧ a.channelConfig ≤ 7)) :
    ∃ v, ascChannels a = .ok v := by
  unfold ascChannels
  by_cases c : a.channelCount ≠ 0
  · rw [if_pos c]; exact ⟨_, rfl⟩
  · rw [if_neg c]
    split
    · exact ⟨_, rfl⟩
    · rw [if_pos (by omega)]; exact ⟨_, rfl⟩

theorem codec_accepted (c : Codec) (h : Accepted c) : ∃ info, fill (some c) = .ok info ∧ Ends (fun _ => True) E (sampleEntry info c) ∧
    ∀ id avg max, Ends (fun _ => True) E (configBox id info avg max c) := by
  obtain ⟨⟨info, e⟩, hf, h1, h2, h3⟩ := h
  obtain ⟨g1, g2⟩ := codec_ends (E := E) c info e hf (fun a ha => ends_of_ok (codec_channels a (h1 a ha)))
    (fun a ha => ends_of_ok (codec_fscod _ (h2 a ha))) fun a ha => ends_of_ok (codec_fscod _ (h3 a ha))
  exact ⟨info, e, g1, g2⟩

/-- C73: with these codecs `Init.Marshal` fails only when a box does not fit in 4 GiB. -/
theorem C73_accepts (f : SBuf) (hf : 0 ≤ f.pos) (i : Init) (h : ∀ it ∈ i.tracks, ∃ c, it.codec = some c ∧ Accepted c) :
    (∃ f', marshal f i = .ok f') ∨ marshal f i = .err "header size changed" := by
  have key := ends_marshal (E := fun e => e = "header size changed") rfl f i hf fun it hi => by
    obtain ⟨c, e, ha⟩ := h it hi
    obtain ⟨info, g0, g1, g2⟩ := codec_accepted (E := fun e => e = "header size changed") c ha
    show Ends _ _ (fill it.codec)
    rw [e, g0]
    exact ends_ok ⟨c, rfl, g1, g2⟩
  revert key
  cases marshal f i with
  | ok a => exact fun _ => .inl ⟨a, rfl⟩
  | err e => intro k; right; rw [show e = _ from k]
  | panic => exact fun k => k.elim

theorem codec_of_written (c : Codec) (info : CodecInfo) (hf : fill (some c) = .ok info) (h1 : ∃ x, sampleEntry info c = .ok x)
    (h2 : ∃ id avg max x, configBox id info avg max c = .ok x) : Accepted c := by
  have fs : ∀ r v, fscodOf r = .ok v → r = 48000 ∨ r = 44100 ∨ r = 32000 := by
    intro r v h
    unfold fscodOf at h
    split at h
    · exact .inl ‹_›
    · split at h
      · exact .inr (.inl ‹_›)
      · split at h
        · exact .inr (.inr ‹_›)
        · cases h
  refine ⟨⟨info, hf⟩, ?_, ?_, ?_, ?_⟩
  · rintro rfl
    obtain ⟨x, hx⟩ := h1
    cases hx
  · rintro a rfl
    obtain ⟨x, hx⟩ := h1
    obtain ⟨v, hv, -⟩ := Res.bind_eq_ok.1 hx
    unfold ascChannels at hv
    split at hv
    · exact .inl ‹_›
    · split at hv
      · exact .inr ⟨by omega, by omega⟩
      · split at hv
        · exact .inr ⟨by omega, by omega⟩
        · cases hv
  · rintro a rfl
    obtain ⟨id, avg, max, x, hx⟩ := h2
    obtain ⟨v, hv, -⟩ := Res.bind_eq_ok.1 hx
    exact fs _ _ hv
  · rintro a rfl
    obtain ⟨id, avg, max, x, hx⟩ := h2
    obtain ⟨v, hv, -⟩ := Res.bind_eq_ok.1 hx
    exact fs _ _ hv

theorem codec_of_track (f f' : SBuf) (it : InitTrack) (h : marshalTrack f it = .ok f') : ∃ c, it.codec = some c ∧ Accepted c := by
  obtain ⟨r1, _, h⟩ := Res.bind_eq_ok.1 h
  obtain ⟨info, hf, h⟩ := Res.bind_eq_ok.1 h
  obtain ⟨c, hc, h⟩ := Res.bind_eq_ok.1 h
  obtain ⟨v, e⟩ := codec_fill_some hf
  rw [e] at hc hf
  cases hc
  refine ⟨c, e, ?_⟩
  obtain ⟨_, _, h⟩ := Res.bind_eq_ok.1 h
  obtain ⟨_, _, h⟩ := Res.bind_eq_ok.1 h
  obtain ⟨_, _, h⟩ := Res.bind_eq_ok.1 h
  obtain ⟨_, _, h⟩ := Res.bind_eq_ok.1 h
  obtain ⟨_, _, h⟩ := Res.bind_eq_ok.1 h
  obtain ⟨_, _, h⟩ := Res.bind_eq_ok.1 h
  obtain ⟨_, _, h⟩ := Res.bind_eq_ok.1 h
  obtain ⟨_, hs, _⟩ := Res.bind_eq_ok.1 h
  obtain ⟨_, _, hs⟩ := Res.bind_eq_ok.1 hs
  obtain ⟨_, hs, _⟩ := Res.bind_eq_ok.1 hs
  obtain ⟨_, _, hs⟩ := Res.bind_eq_ok.1 hs
  obtain ⟨_, hs, _⟩ := Res.bind_eq_ok.1 hs
  obtain ⟨x, h1, hs⟩ := Res.bind_eq_ok.1 hs
  obtain ⟨_, _, hs⟩ := Res.bind_eq_ok.1 hs
  obtain ⟨y, h2, hs⟩ := Res.bind_eq_ok.1 hs
  exact codec_of_written c info hf ⟨x, h1⟩ ⟨_, _, _, y, h2⟩

/-- C73: every other codec is refused. -/
theorem C73_refuses (f f' : SBuf) (i : Init) (h : marshal f i = .ok f') : ∀ it ∈ i.tracks, ∃ c, it.codec = some c ∧ Accepted c := by
  obtain ⟨_, _, h⟩ := Res.bind_eq_ok.1 h
  obtain ⟨_, _, h⟩ := Res.bind_eq_ok.1 h
  obtain ⟨r, _, h⟩ := Res.bind_eq_ok.1 h
  obtain ⟨g, hg, _⟩ := Res.bind_eq_ok.1 h
  clear h
  revert hg
  generalize i.tracks = l
  generalize r.2 = f0
  induction l generalizing f0 with
  | nil => intro _ it hi; cases hi
  | cons t l ih =>
    intro hg it hi
    obtain ⟨f1, h1, h2⟩ := Res.bind_eq_ok.1 hg
    rcases List.mem_cons.1 hi with rfl | hi
    · exact codec_of_track _ _ _ h1
    · exact ih _ h2 it hi

/-- An accepted codec of each kind that is checked. -/
example : Accepted (.mpeg4Audio ⟨2, 44100, 2, 2, 0, 0, false, false, 0⟩) :=
  ⟨⟨_, rfl⟩, by simp, (by intro a h; cases h; exact .inl (by decide)), (by intro a h; cases h), (by intro a h; cases h)⟩

example : Accepted (.ac3 ⟨32000, 6, 0, 8, 0, 7, true, 15⟩) :=
  ⟨⟨_, rfl⟩, by simp, (by intro a h; cases h), (by intro a h; cases h; exact .inr (.inr rfl)), (by intro a h; cases h)⟩

/-- A program configuration element instead of a channel configuration, and AC-3 at 24 kHz, are refused. -/
example : marshal ⟨[], 0⟩ { tracks := [{ id := 1, timeScale := 1, codec := some (.mpeg4Audio ⟨2, 44100, 0, 0, 0, 0, false, false, 0⟩) }] }
    = .err "MPEG-4 audio channelConfig = 0 is not supported (yet)" := by decide +kernel

example : marshal ⟨[], 0⟩ { tracks := [{ id := 1, timeScale := 1, codec := some (.ac3 ⟨24000, 6, 0, 8, 0, 7, true, 15⟩) }] }
    = .err "unsupported sample rate" := by decide +kernel

end Verif.Props
