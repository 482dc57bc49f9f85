import Verif.Props.CodecWrite
import Verif.Props.FMP4Hostile
import Verif.Props.ASC
import Verif.Props.FlacOpus
import Verif.Props.FMP4InitSamples

/-!
# C74, C75: hostile initialization segments, and writing what was read
-/

namespace Verif.Props
open FMP4Init MP4Codec MP4Box
open FMP4 (takeBE readBoxInfo BoxInfo)

/-! ## Boxes -/

theorem sound_imp {α : Type} {P Q : α → Prop} {x : Res α} (h : Sound P x) (hi : ∀ a, P a → Q a) : Sound Q x := by
  cases x with
  | ok a => exact hi a h
  | err e => exact h
  | panic => exact h

theorem sound_unpack (ws : List Nat) (b : Bytes) : Sound (fun _ => True) (unpack ws b) :=
  sound_bind (sound_takeBE _ _) fun _ _ => sound_ok trivial

theorem sound_unpack_values (ws : List Nat) (b : Bytes) : Sound (fun x => ∃ n, x.1 = unpackNat ws n) (unpack ws b) :=
  sound_bind (sound_takeBE _ _) fun x _ => sound_ok ⟨x.1, rfl⟩

theorem sound_takeBytes (k : Nat) (b : Bytes) : Sound (fun _ => True) (takeBytes k b) :=
  sound_if (fun _ => sound_err (by decide)) fun _ => sound_ok trivial

theorem sound_orError {α : Type} (text : String) (ht : text ≠ "out of fuel") (x : Res α) (h : x.NoPanic) :
    Sound (fun a => x = .ok a) (orError text x) := by
  cases x with
  | ok a => exact rfl
  | err e => exact ht
  | panic => exact h rfl

theorem sound_idx {α : Type} (l : List α) (n : Nat) (h : n < l.length) : Sound (fun a => a ∈ l) (idx l n) := by
  rw [idx_of_lt h]; exact List.getElem_mem h

theorem sound_sets : ∀ (n : Nat) (b : Bytes), Sound (fun r => r.1.length = n) (decodeSets n b) := by
  intro n
  induction n with
  | zero => intro b; exact sound_ok rfl
  | succ n ih =>
    intro b
    exact sound_bind (sound_unpack _ _) fun _ _ => sound_bind (sound_takeBytes _ _) fun _ _ => sound_bind (ih _) fun r hr =>
      sound_ok (by show r.1.length + 1 = n + 1; omega)

theorem sound_avcC (b : Bytes) : Sound (fun _ => True) (decodeAvcC b) :=
  sound_bind (sound_unpack _ _) fun _ _ => sound_bind (sound_sets _ _) fun _ _ => sound_bind (sound_unpack _ _) fun _ _ =>
    sound_bind (sound_sets _ _) fun _ _ => sound_ok trivial

theorem sound_arrays : ∀ (n : Nat) (b : Bytes), Sound (fun l => ∀ a ∈ l, a.nalus.length = a.numNalus) (decodeArrays n b) := by
  intro n
  induction n with
  | zero => intro b; exact sound_ok (by intro a h; cases h)
  | succ n ih =>
    intro b
    refine sound_bind (sound_unpack _ _) fun f _ => sound_bind (sound_sets _ _) fun s hs => sound_bind (ih _) fun l hl => sound_ok ?_
    intro a ha
    rcases List.mem_cons.1 ha with rfl | ha
    · exact hs
    · exact hl a ha

theorem sound_hvcC (b : Bytes) : Sound (fun l => ∀ a ∈ l, a.nalus.length = a.numNalus) (decodeHvcC b) :=
  sound_bind (sound_unpack _ _) fun _ _ => sound_arrays _ _

theorem sound_size : ∀ (n : Nat) (b : Bytes) (acc : Nat), Sound (fun _ => True) (decodeSize n b acc) := by
  intro n
  induction n with
  | zero => intro b acc; exact sound_err (by decide)
  | succ n ih =>
    intro b acc
    exact sound_bind (sound_unpack _ _) fun _ _ => sound_if (fun _ => sound_ok trivial) fun _ => ih _ _

theorem sound_es (b : Bytes) : Sound (fun _ => True) (decodeES b) :=
  sound_bind (sound_unpack _ _) fun _ _ => sound_bind (sound_takeBytes _ _) fun _ _ => sound_bind (sound_unpack _ _) fun _ _ =>
    sound_bind (sound_takeBytes _ _) fun _ _ => sound_bind (sound_takeBytes _ _) fun _ _ => sound_ok trivial

theorem sound_descriptor (tag size : Nat) (b : Bytes) : Sound (fun _ => True) (decodeDescriptor tag size b) :=
  sound_if (fun _ => sound_bind (sound_es _) fun _ _ => sound_ok trivial) fun _ =>
    sound_if (fun _ => sound_bind (sound_unpack _ _) fun _ _ => sound_ok trivial) fun _ =>
      sound_bind (sound_takeBytes _ _) fun _ _ => sound_ok trivial

theorem sound_descriptors : ∀ (n : Nat) (b : Bytes), Sound (fun _ => True) (decodeDescriptors n b) := by
  intro n
  induction n with
  | zero => intro b; exact sound_if (fun _ => sound_ok trivial) fun _ => sound_err (by decide)
  | succ n ih =>
    intro b
    exact sound_if (fun _ => sound_ok trivial) fun _ => sound_bind (sound_unpack _ _) fun _ _ => sound_bind (sound_size _ _ _) fun _ _ =>
      sound_bind (sound_descriptor _ _ _) fun _ _ => sound_bind (ih _) fun _ _ => sound_ok trivial

theorem sound_esds (b : Bytes) : Sound (fun _ => True) (decodeEsds b) :=
  sound_bind (sound_unpack _ _) fun _ _ => sound_descriptors _ _

theorem sound_chanLoc (n low : Nat) (b : Bytes) : Sound (fun _ => True) (decodeChanLoc n low b) :=
  sound_if (fun _ => sound_ok trivial) fun _ => sound_bind (sound_unpack _ _) fun _ _ => sound_ok trivial

theorem sound_indSubs : ∀ (n : Nat) (b : Bytes), Sound (fun l => l.length = n) (decodeIndSubs n b) := by
  intro n
  induction n with
  | zero => intro b; exact sound_ok rfl
  | succ n ih =>
    intro b
    exact sound_bind (sound_unpack _ _) fun _ _ => sound_bind (sound_chanLoc _ _ _) fun _ _ => sound_bind (ih _) fun r hr =>
      sound_ok (by show r.length + 1 = n + 1; omega)

theorem sound_dec3 (b : Bytes) : Sound (fun r => 0 < r.2.2.length) (decodeDec3 b) :=
  sound_bind (sound_unpack _ _) fun _ _ => sound_bind (sound_indSubs _ _) fun l hl => sound_ok (by show 0 < l.length; omega)

/-! ## Codecs -/

/-- `Fill` and `WriteCodecBoxes` find what they need. -/
def Readable (c : Codec) : Prop := (∃ info, fill (some c) = .ok info) ∧ c ≠ .flac none

theorem sound_firstSequenceHeader : ∀ l : List Bytes, (∀ o ∈ l, 0 < o.length) → Sound (fun sh => Readable (.av1 sh)) (firstSequenceHeader l) := by
  intro l
  induction l with
  | nil => intro _; exact sound_err (by decide)
  | cons o l ih =>
    intro h
    refine sound_bind (sound_idx o 0 (h o (by simp))) fun b _ => sound_if (fun _ => ?_) fun _ => ih fun x hx => h x (by simp [hx])
    refine sound_bind (sound_orError _ (by decide) _ (C52_no_panic _ _)) fun hd he => sound_ok ⟨?_, by simp⟩
    unfold fill
    dsimp only
    rw [he, Res.bind_ok]
    exact ⟨_, rfl⟩

theorem sound_av1Find (b : Bytes) : Sound (fun sh => Readable (.av1 sh)) (av1FindSequenceHeader b) := by
  refine sound_bind (sound_orError _ (by decide) _ (C18_bitstream_no_panic b)) fun l hl => sound_firstSequenceHeader l fun o ho => ?_
  obtain ⟨_, _, rfl, _⟩ := (C18_bitstream_bounds b l hl).2.2 o ho
  simp

theorem codec_h264_readable (s p : Bytes) (x : H264.SPS) (h : ({} : H264.SPS).unmarshal s = .ok x) (hp : p.length ≠ 0) :
    Readable (.h264 s p) := by
  have := codec_h264_length _ _ _ h
  refine ⟨?_, by simp⟩
  unfold fill
  dsimp only
  rw [if_neg (by omega), h, Res.bind_ok]
  exact ⟨_, rfl⟩

theorem sound_h264Find (sps pps : List Bytes) : Sound (fun r => Readable (.h264 r.1 r.2)) (h264FindParams sps pps) := by
  refine sound_if (fun _ => sound_err (by decide)) fun h1 => sound_if (fun _ => sound_err (by decide)) fun _ =>
    sound_if (fun _ => sound_err (by decide)) fun h2 => sound_if (fun _ => sound_err (by decide)) fun _ =>
      sound_bind (sound_idx _ _ (by omega)) fun s _ => sound_bind (sound_orError _ (by decide) _ (C50_no_panic _ _)) fun x hx =>
        sound_bind (sound_idx _ _ (by omega)) fun p _ => sound_if (fun _ => sound_err (by decide)) fun hp => sound_ok ?_
  exact codec_h264_readable s p x hx hp

/-- The SPS that was found, if any, can be parsed. -/
def SpsParsed (sps : Bytes) : Prop := sps = [] ∨ ∃ x, ({} : H265.SPS).unmarshal sps = .ok x

theorem sound_h265Array (arr : NaluArray) (vps sps pps : Bytes) (h : arr.nalus.length = arr.numNalus) (hs : SpsParsed sps) :
    Sound (fun r => SpsParsed r.2.1) (h265Array arr vps sps pps) := by
  refine sound_if (fun _ => sound_if (fun _ => sound_err (by decide)) fun h1 => ?_) fun _ => sound_ok hs
  refine sound_bind (sound_idx _ 0 (by omega)) fun n _ => ?_
  refine sound_if (fun _ => sound_ok hs) fun _ => sound_if (fun _ => ?_) fun _ => sound_ok hs
  exact sound_bind (sound_orError _ (by decide) _ (C51_no_panic _ _)) fun x hx => sound_ok (.inr ⟨x, hx⟩)

theorem sound_h265Arrays : ∀ (l : List NaluArray) (vps sps pps : Bytes), (∀ a ∈ l, a.nalus.length = a.numNalus) → SpsParsed sps →
    Sound (fun r => SpsParsed r.2.1) (h265Arrays l vps sps pps) := by
  intro l
  induction l with
  | nil => intro vps sps pps _ hs; exact sound_ok hs
  | cons a l ih =>
    intro vps sps pps h hs
    exact sound_bind (sound_h265Array a vps sps pps (h a (by simp)) hs) fun r hr => ih _ _ _ (fun x hx => h x (by simp [hx])) hr

theorem codec_h265_readable (v s p : Bytes) (x : H265.SPS) (h : ({} : H265.SPS).unmarshal s = .ok x) (hv : v.length ≠ 0) (hp : p.length ≠ 0) :
    Readable (.h265 v s p) := by
  have := codec_h265_length _ _ _ h
  obtain ⟨⟨w, hw⟩, hh, hhh⟩ := codec_h265_width _ _ _ h
  refine ⟨?_, by simp⟩
  unfold fill
  dsimp only
  rw [if_neg (by omega), h, Res.bind_ok, hw, Res.bind_ok, hhh, Res.bind_ok]
  exact ⟨_, rfl⟩

theorem sound_h265Find (l : List NaluArray) (h : ∀ a ∈ l, a.nalus.length = a.numNalus) :
    Sound (fun r => Readable (.h265 r.1 r.2.1 r.2.2)) (h265FindParams l) := by
  refine sound_bind (sound_h265Arrays l [] [] [] h (.inl rfl)) fun r hr => sound_if (fun _ => sound_err (by decide)) fun h1 =>
    sound_if (fun _ => sound_err (by decide)) fun h2 => sound_if (fun _ => sound_err (by decide)) fun h3 => sound_ok ?_
  rcases hr with hr | ⟨x, hx⟩
  · rw [hr] at h2; exact absurd rfl h2
  · exact codec_h265_readable _ _ _ x hx h1 h3

/-- What holds of the reader of the codec boxes. -/
def CodecInv (r : CodecReader) : Prop := (∀ c, r.codec = some c → Readable c) ∧ (r.state = .waitingVpcC → r.width ≠ 0)

/-- What holds after a box. -/
def ActionInv : Action → Prop
  | .ended => True
  | .done r => CodecInv r
  | .expand r => CodecInv r

theorem sound_found (r : CodecReader) (c : Codec) (h : Readable c) : Sound ActionInv (r.found c) := by
  refine sound_ok ⟨?_, ?_⟩
  · intro v hv
    have : v = c := by simpa using hv.symm
    rw [this]; exact h
  · intro h; cases h

theorem codec_simple_readable (c : Codec) (info : CodecInfo) (h : fill (some c) = .ok info) (hf : c ≠ .flac none) : Readable c := ⟨⟨info, h⟩, hf⟩

theorem sound_videoEsds (r : CodecReader) (t : Nat) (spec : Bytes) : Sound ActionInv (r.videoEsds t spec) := by
  refine sound_if (fun _ => sound_if (fun _ => sound_err (by decide)) fun h => sound_found _ _ ⟨⟨_, if_neg h⟩, by simp⟩) fun _ =>
    sound_if (fun _ => sound_if (fun _ => sound_err (by decide)) fun h => sound_found _ _ ⟨⟨_, if_neg h⟩, by simp⟩) fun _ =>
      sound_if (fun _ => sound_if (fun _ => sound_err (by decide)) fun h => sound_found _ _ ⟨⟨_, if_neg ?_⟩, by simp⟩) fun _ =>
        sound_err (by decide)
  omega

theorem sound_audioEsds (r : CodecReader) (t : Nat) (spec : Bytes) : Sound ActionInv (r.audioEsds t spec) := by
  refine sound_if (fun _ => sound_if (fun _ => sound_err (by decide)) fun h => ?_) fun _ =>
    sound_if (fun _ => sound_found _ _ ⟨⟨_, rfl⟩, by simp⟩) fun _ => sound_err (by decide)
  exact sound_bind (sound_orError _ (by decide) _ (C23_no_panic _)) fun _ _ => sound_found _ _ ⟨⟨_, rfl⟩, by simp⟩

theorem sound_readEsds (r : CodecReader) (b : Bytes) : Sound ActionInv (r.readEsds b) := by
  refine sound_bind (sound_esds _) fun l _ => ?_
  split
  · exact sound_err (by decide)
  · split
    · exact sound_videoEsds _ _ _
    · exact sound_audioEsds _ _ _
    · exact sound_err (by decide)

theorem sound_enter (r : CodecReader) (s : RState) (h : CodecInv r) (hs : s ≠ .waitingVpcC) : Sound ActionInv (r.enter s) :=
  sound_if (fun _ => sound_err (by decide)) fun _ => sound_ok ⟨h.1, fun e => absurd e hs⟩

theorem sound_visual (b : Bytes) : Sound (fun _ => True) (decodeVisual b) := sound_bind (sound_unpack _ _) fun _ _ => sound_ok trivial

theorem sound_audio (b : Bytes) : Sound (fun _ => True) (decodeAudio b) := sound_bind (sound_unpack _ _) fun _ _ => sound_ok trivial

theorem sound_enterVp09 (r : CodecReader) (b : Bytes) (h : CodecInv r) : Sound ActionInv (r.enterVp09 b) :=
  sound_if (fun _ => sound_err (by decide)) fun _ => sound_bind (sound_visual _) fun x _ =>
    sound_if (fun _ => sound_err (by decide)) fun hw => sound_ok ⟨h.1, fun _ => by show x.1 ≠ 0; omega⟩

theorem sound_enterMp4v (r : CodecReader) (b : Bytes) (h : CodecInv r) : Sound ActionInv (r.enterMp4v b) :=
  sound_if (fun _ => sound_err (by decide)) fun _ => sound_bind (sound_visual _) fun _ _ => sound_ok ⟨h.1, fun e => by cases e⟩

theorem sound_enterAudio (r : CodecReader) (b : Bytes) (s : RState) (h : CodecInv r) (hs : s ≠ .waitingVpcC) :
    Sound ActionInv (r.enterAudio b s) :=
  sound_if (fun _ => sound_err (by decide)) fun _ => sound_bind (sound_audio _) fun _ _ => sound_ok ⟨h.1, fun e => absurd e hs⟩

theorem sound_readCodecBox (r : CodecReader) (typ b : Bytes) (h : CodecInv r) : Sound ActionInv (r.readBox typ b) := by
  unfold CodecReader.readBox
  refine sound_if (fun _ => sound_if (fun _ => sound_err (by decide)) fun _ => sound_ok ⟨h.1, fun e => by cases e⟩) fun _ =>
    sound_if (fun _ => sound_enter _ _ h (by decide)) fun _ => sound_if (fun _ => ?avcC) fun _ =>
    sound_if (fun _ => sound_enterVp09 _ _ h) fun _ => sound_if (fun _ => ?vpcC) fun _ =>
    sound_if (fun _ => sound_enter _ _ h (by decide)) fun _ => sound_if (fun _ => ?hvcC) fun _ =>
    sound_if (fun _ => sound_enterAudio _ _ _ h (by decide)) fun _ =>
    sound_if (fun _ => sound_enter _ _ h (by decide)) fun _ => sound_if (fun _ => ?av1C) fun _ =>
    sound_if (fun _ => sound_enter _ _ h (by decide)) fun _ => sound_if (fun _ => ?dOps) fun _ =>
    sound_if (fun _ => sound_enterAudio _ _ _ h (by decide)) fun _ => sound_if (fun _ => ?dfLa) fun _ =>
    sound_if (fun _ => sound_enterMp4v _ _ h) fun _ => sound_if (fun _ => sound_readEsds _ _) fun _ =>
    sound_if (fun _ => sound_enterAudio _ _ _ h (by decide)) fun _ => sound_if (fun _ => ?dac3) fun _ =>
    sound_if (fun _ => sound_enterAudio _ _ _ h (by decide)) fun _ => sound_if (fun _ => ?dec3) fun _ =>
    sound_if (fun _ => sound_enterAudio _ _ _ h (by decide)) fun _ => sound_if (fun _ => ?pcmC) fun _ => sound_ok h
  case avcC =>
    exact sound_if (fun _ => sound_err (by decide)) fun _ => sound_bind (sound_avcC _) fun _ _ =>
      sound_bind (sound_h264Find _ _) fun _ hr => sound_found _ _ hr
  case vpcC =>
    refine sound_if (fun _ => sound_err (by decide)) fun hs => sound_bind (sound_bind (sound_unpack _ _) fun _ _ =>
      sound_ok (P := fun _ => True) trivial) fun _ _ => sound_found _ _ ⟨⟨_, if_neg ?_⟩, by simp⟩
    have := h.2 (by simpa using hs)
    show ¬ ((r.width : Nat) : Int) = 0
    omega
  case hvcC =>
    exact sound_if (fun _ => sound_err (by decide)) fun _ => sound_bind (sound_hvcC _) fun _ hl =>
      sound_bind (sound_h265Find _ hl) fun _ hr => sound_found _ _ hr
  case av1C =>
    exact sound_if (fun _ => sound_err (by decide)) fun _ => sound_bind (sound_bind (sound_unpack _ _) fun _ _ =>
      sound_ok (P := fun _ => True) trivial) fun _ _ => sound_bind (sound_av1Find _) fun _ hr => sound_found _ _ hr
  case dOps =>
    exact sound_if (fun _ => sound_err (by decide)) fun _ => sound_bind (sound_bind (sound_unpack _ _) fun _ _ =>
      sound_ok (P := fun _ => True) trivial) fun _ _ => sound_found _ _ ⟨⟨_, rfl⟩, by simp⟩
  case dfLa =>
    refine sound_if (fun _ => sound_err (by decide)) fun _ => sound_bind (sound_bind (sound_unpack _ _) fun _ _ =>
      sound_ok (P := fun _ => True) trivial) fun bl _ => sound_if (fun _ => sound_err (by decide)) fun hl => ?_
    rw [sliceFrom_ok (by omega), Res.bind_ok]
    exact sound_bind (sound_orError _ (by decide) _ (C29_no_panic _)) fun _ _ => sound_found _ _ ⟨⟨_, rfl⟩, by simp⟩
  case dac3 =>
    exact sound_if (fun _ => sound_err (by decide)) fun _ => sound_bind (sound_bind (sound_unpack _ _) fun _ _ =>
      sound_ok (P := fun _ => True) trivial) fun _ _ => sound_found _ _ ⟨⟨_, rfl⟩, by simp⟩
  case dec3 =>
    exact sound_if (fun _ => sound_err (by decide)) fun _ => sound_bind (sound_dec3 _) fun _ hl =>
      sound_if (fun _ => sound_err (by decide)) fun _ => sound_bind (sound_idx _ _ hl) fun _ _ => sound_found _ _ ⟨⟨_, rfl⟩, by simp⟩
  case pcmC =>
    exact sound_if (fun _ => sound_err (by decide)) fun _ => sound_bind (sound_bind (sound_unpack _ _) fun _ _ =>
      sound_ok (P := fun _ => True) trivial) fun _ _ => sound_found _ _ ⟨⟨_, rfl⟩, by simp⟩

theorem sound_readCodec (r : CodecReader) (depth : Nat) (typ b : Bytes) (h : CodecInv r) : Sound ActionInv (r.read depth typ b) :=
  sound_if (fun _ => sound_if (fun _ => sound_err (by decide)) fun _ => sound_ok trivial) fun _ => sound_readCodecBox _ _ _ h

/-! ## The tree of boxes -/

/-- A handler that keeps an invariant keeps it over the tree, and the fuel is enough. -/
theorem sound_readTree {σ : Type} (fields : Fields) (h : Handler σ) (I : σ → Prop)
    (hh : ∀ bi depth payload expand r, I r → (∀ r, I r → Sound I (expand r)) → Sound I (h bi depth payload expand r)) :
    ∀ (n : Nat) (b : Bytes) (pos : Nat) (left : Option Nat) (depth : Nat) (r : σ), I r → 0 < n → b.length < pos + n →
      Sound I (readTree fields h n b pos left depth r) := by
  intro n
  induction n with
  | zero => intro b pos left depth r _ h0 _; omega
  | succ n ih =>
    intro b pos left depth r hr _ hf
    unfold readTree
    refine sound_if (fun _ => sound_if (fun _ => sound_ok hr) fun _ => sound_err (by decide)) fun _ => ?_
    refine sound_bind (sound_readBoxInfo b pos) fun o ho => ?_
    match o, ho with
    | none, _ => exact sound_if (fun _ => sound_ok hr) fun _ => sound_err (by decide)
    | some bi, hbi =>
      obtain ⟨h1, h2, h3, h4⟩ := hbi bi rfl
      refine sound_if (fun _ => sound_err (by decide)) fun _ => ?_
      refine sound_bind (hh bi depth _ _ r hr fun r' hr' => ?_) fun r' hr' => ih _ _ _ _ _ hr' (by omega) (by omega)
      unfold expandBox
      split
      · exact sound_err (by decide)
      · exact sound_if (fun _ => sound_err (by decide)) fun _ => ih _ _ _ _ _ hr' (by omega) (by omega)

/-! ## Initialization segments -/

def IdFits (t : InitTrack) : Prop := 0 ≤ t.id ∧ t.id < 2 ^ 32

/-- What `Init.Unmarshal` returns as a track. -/
def Settled (t : InitTrack) : Prop :=
  IdFits t ∧ 0 < t.timeScale ∧ t.timeScale < 2 ^ 32 ∧ ∃ c, t.codec = some c ∧ Readable c

/-- The last track is being read, the others have been. -/
def Current (r : Reader) (Q : InitTrack → Prop) : Prop := ∃ l t, r.tracks = l ++ [t] ∧ (∀ x ∈ l, Settled x) ∧ Q t

def TimeFits (t : InitTrack) : Prop := IdFits t ∧ 0 < t.timeScale ∧ t.timeScale < 2 ^ 32

/-- What holds between boxes. -/
def InitInv (r : Reader) : Prop :=
  match r.state with
  | .waitingTkhd => Current r fun _ => True
  | .waitingMdhd => Current r IdFits
  | .waitingStsd => Current r TimeFits
  | .readingCodec => Current r TimeFits ∧ ∃ c, r.codecReader = some c ∧ CodecInv c
  | _ => ∀ t ∈ r.tracks, Settled t

theorem init_onTrack (r : Reader) (g : InitTrack → InitTrack) (l : List InitTrack) (t : InitTrack) (h : r.tracks = l ++ [t]) :
    r.onTrack g = .ok { r with tracks := l ++ [g t] } := by
  unfold Reader.onTrack
  rw [h, List.reverse_append]
  simp

theorem init_dropTrack (r : Reader) (l : List InitTrack) (t : InitTrack) (h : r.tracks = l ++ [t]) :
    r.dropTrack = .ok { r with tracks := l } := by
  unfold Reader.dropTrack
  rw [h, List.reverse_append]
  simp

theorem sound_tkhd (b : Bytes) : Sound (fun v => v < 2 ^ 32) (decodeTkhd b) := by
  refine sound_bind (sound_unpack_values _ _) fun x hx => ?_
  obtain ⟨n, hn⟩ := hx
  refine sound_ok ?_
  rw [hn]
  exact Nat.mod_lt _ (by decide)

theorem sound_mdhd (b : Bytes) : Sound (fun v => v < 2 ^ 32) (decodeMdhd b) := by
  refine sound_bind (sound_unpack_values _ _) fun x hx => ?_
  obtain ⟨n, hn⟩ := hx
  refine sound_ok ?_
  rw [hn]
  exact Nat.mod_lt _ (by decide)

/-- Between tracks. -/
def Idle (s : State) : Prop := s = .waitingFtyp ∨ s = .waitingMoov ∨ s = .waitingMvhd ∨ s = .waitingTrak ∨ s = .readingUserData

theorem init_inv_idle {r : Reader} (h : Idle r.state) : InitInv r ↔ ∀ t ∈ r.tracks, Settled t := by
  unfold InitInv
  rcases h with h | h | h | h | h <;> rw [h]

theorem sound_initEnter (r : Reader) (want next : State) (expand : Reader → Res Reader) (hr : InitInv r) (h1 : Idle want) (h2 : Idle next)
    (he : ∀ r, InitInv r → Sound InitInv (expand r)) : Sound InitInv (r.enter want next expand) := by
  refine sound_if (fun _ => sound_err (by decide)) fun hs => he _ ?_
  have hs : r.state = want := by simpa using hs
  exact (init_inv_idle (r := { r with state := next }) h2).2 ((init_inv_idle (r := r) (hs ▸ h1)).1 hr)

theorem sound_initSame (r : Reader) (want : State) (expand : Reader → Res Reader) (hr : InitInv r)
    (he : ∀ r, InitInv r → Sound InitInv (expand r)) : Sound InitInv (r.enter want want expand) := by
  refine sound_if (fun _ => sound_err (by decide)) fun hs => he _ ?_
  have hs : r.state = want := by simpa using hs
  subst hs
  exact hr

theorem sound_enterTrak (r : Reader) (expand : Reader → Res Reader) (hr : InitInv r)
    (he : ∀ r, InitInv r → Sound InitInv (expand r)) : Sound InitInv (r.enterTrak expand) := by
  refine sound_if (fun _ => sound_err (by decide)) fun hs => he _ ?_
  have hs : r.state = .waitingTrak := by simpa using hs
  exact ⟨r.tracks, {}, rfl, (init_inv_idle (by simp [Idle, hs])).1 hr, trivial⟩

theorem sound_readTkhd (r : Reader) (payload : Bytes) (hr : InitInv r) : Sound InitInv (r.readTkhd payload) := by
  refine sound_if (fun _ => sound_err (by decide)) fun hs => sound_bind (sound_tkhd _) fun id hid => ?_
  have hs : r.state = .waitingTkhd := by simpa using hs
  unfold InitInv at hr
  rw [hs] at hr
  obtain ⟨l, t, hl, hset, _⟩ := hr
  rw [init_onTrack r _ l t hl, Res.bind_ok]
  refine sound_ok ⟨l, _, rfl, hset, ?_, ?_⟩
  · show (0 : Int) ≤ (id : Int); omega
  · show (id : Int) < 2 ^ 32; omega

theorem sound_readMdhd (r : Reader) (payload : Bytes) (hr : InitInv r) : Sound InitInv (r.readMdhd payload) := by
  refine sound_if (fun _ => sound_err (by decide)) fun hs => sound_bind (sound_mdhd _) fun ts hts =>
    sound_if (fun _ => sound_err (by decide)) fun h0 => ?_
  have hs : r.state = .waitingMdhd := by simpa using hs
  unfold InitInv at hr
  rw [hs] at hr
  obtain ⟨l, t, hl, hset, hid⟩ := hr
  rw [init_onTrack r _ l t hl, Res.bind_ok]
  exact sound_ok ⟨l, _, rfl, hset, hid, Nat.pos_of_ne_zero h0, hts⟩

theorem sound_enterStsd (r : Reader) (expand : Reader → Res Reader) (hr : InitInv r)
    (he : ∀ r, InitInv r → Sound InitInv (expand r)) : Sound InitInv (r.enterStsd expand) := by
  refine sound_if (fun _ => sound_err (by decide)) fun hs => he _ ?_
  have hs : r.state = .waitingStsd := by simpa using hs
  unfold InitInv at hr
  rw [hs] at hr
  refine ⟨hr, {}, rfl, ?_, ?_⟩
  · intro c h; cases h
  · intro h; cases h

theorem sound_initBox (r : Reader) (typ payload : Bytes) (expand : Reader → Res Reader) (hr : InitInv r)
    (he : ∀ r, InitInv r → Sound InitInv (expand r)) : Sound InitInv (r.readBox typ payload expand) := by
  unfold Reader.readBox
  refine sound_if (fun _ => sound_if (fun _ => sound_err (by decide)) fun hs => sound_ok ?_) fun _ =>
    sound_if (fun _ => sound_initEnter _ _ _ _ hr (by simp [Idle]) (by simp [Idle]) he) fun _ =>
    sound_if (fun _ => sound_initEnter _ _ _ _ hr (by simp [Idle]) (by simp [Idle]) he) fun _ =>
    sound_if (fun _ => sound_initEnter _ _ _ _ hr (by simp [Idle]) (by simp [Idle]) he) fun _ =>
    sound_if (fun _ => sound_enterTrak _ _ hr he) fun _ =>
    sound_if (fun _ => sound_readTkhd _ _ hr) fun _ =>
    sound_if (fun _ => sound_initSame _ _ _ hr he) fun _ =>
    sound_if (fun _ => sound_readMdhd _ _ hr) fun _ =>
    sound_if (fun _ => sound_initSame _ _ _ hr he) fun _ =>
    sound_if (fun _ => sound_enterStsd _ _ hr he) fun _ => sound_ok hr
  have hs : r.state = .waitingFtyp := by simpa using hs
  exact (init_inv_idle (r := { r with state := .waitingMoov }) (by simp [Idle])).2 ((init_inv_idle (r := r) (by simp [Idle, hs])).1 hr)

theorem sound_codecEnded (r : Reader) (c : CodecReader) (hr : Current r TimeFits) (hc : CodecInv c) :
    Sound (fun r => ∀ t ∈ r.tracks, Settled t) (r.codecEnded c) := by
  obtain ⟨l, t, hl, hset, hid⟩ := hr
  refine sound_if (fun hi => ?_) fun _ => ?_
  · rw [init_onTrack r _ l t hl]
    obtain ⟨v, hv⟩ := Option.isSome_iff_exists.1 hi
    refine sound_ok ?_
    intro x hx
    rcases List.mem_append.1 hx with hx | hx
    · exact hset x hx
    · rw [List.mem_singleton.1 hx]
      exact ⟨hid.1, hid.2.1, hid.2.2, v, hv, hc.1 v hv⟩
  · rw [init_dropTrack r l t hl]
    exact sound_ok hset

theorem sound_afterCodec (r : Reader) (c : CodecReader) (typ payload : Bytes) (expand : Reader → Res Reader) (hs : r.state = .readingCodec)
    (hr : Current r TimeFits) (hc : CodecInv c) (he : ∀ r, InitInv r → Sound InitInv (expand r)) (a : Action) (ha : ActionInv a) :
    Sound InitInv (r.afterCodec c typ payload expand a) := by
  cases a with
  | ended =>
    refine sound_bind (sound_codecEnded r c hr hc) fun r' hr' => sound_initBox _ _ _ _ ?_ he
    exact (init_inv_idle (r := { r' with state := .waitingTrak }) (by simp [Idle])).2 hr'
  | done c' =>
    refine sound_ok ?_
    unfold InitInv
    simp only [hs]
    exact ⟨hr, c', rfl, ha⟩
  | expand c' =>
    refine he _ ?_
    unfold InitInv
    simp only [hs]
    exact ⟨hr, c', rfl, ha⟩

theorem sound_initHandle (fields : Fields) (bi : BoxInfo) (depth : Nat) (payload : Bytes) (expand : Reader → Res Reader) (r : Reader)
    (hr : InitInv r) (he : ∀ r, InitInv r → Sound InitInv (expand r)) : Sound InitInv (handle fields bi depth payload expand r) := by
  unfold handle
  split
  case h_1 hs =>
    have hr' : ∀ t ∈ r.tracks, Settled t := (init_inv_idle (by simp [Idle, hs])).1 hr
    refine sound_if (fun _ => sound_initBox _ _ _ _ ?_ he) fun _ => ?_
    · exact (init_inv_idle (r := { r with state := .waitingTrak }) (by simp [Idle])).2 hr'
    · unfold Reader.readUserData
      split
      · exact sound_err (by decide)
      · exact sound_ok ((init_inv_idle (r := { r with userData := _ }) (by simp [Idle, hs])).2 hr')
  case h_2 hs =>
    unfold InitInv at hr
    rw [hs] at hr
    obtain ⟨hcur, c, hc, hci⟩ := hr
    rw [hc]
    show Sound InitInv (c.read depth bi.typ payload >>= _)
    exact sound_bind (sound_readCodec c depth _ _ hci) fun a ha => sound_afterCodec r c _ _ _ hs hcur hci he a ha
  case h_3 => exact sound_initBox _ _ _ _ hr he

/-- **C74**: `Init.Unmarshal` on any bytes, with any lengths of fields that `go-mp4` may find, neither panics nor runs forever, and the tracks
it returns are complete. -/
theorem C74_sound (fields : Fields) (b : Bytes) :
    Sound (fun i => i.tracks ≠ [] ∧ ∀ t ∈ i.tracks, Settled t) (unmarshal fields b) := by
  refine sound_bind (sound_readTree fields (handle fields) InitInv (sound_initHandle fields) (b.length + 1) b 0 none 1 {} ?_ (by omega) (by omega))
    fun r hr => sound_if (fun _ => sound_err (by decide)) fun hs => sound_if (fun _ => sound_err (by decide)) fun hl => sound_ok ⟨?_, ?_⟩
  · intro t h; cases h
  · intro h; exact hl (by rw [show r.tracks = [] from h]; rfl)
  · exact (init_inv_idle (by unfold Idle; by_cases h : r.state = .waitingTrak <;> simp_all)).1 hr

theorem C74_no_panic (fields : Fields) (b : Bytes) : (unmarshal fields b).NoPanic := by
  have h := C74_sound fields b
  intro hp
  rw [hp] at h
  exact h

theorem C74_terminates (fields : Fields) (b : Bytes) : unmarshal fields b ≠ .err "out of fuel" := by
  have h := C74_sound fields b
  intro hp
  rw [hp] at h
  exact h rfl

theorem C74_result (fields : Fields) (b : Bytes) (i : Init) (h : unmarshal fields b = .ok i) :
    i.tracks ≠ [] ∧ ∀ t ∈ i.tracks, (0 ≤ t.id ∧ t.id < 2 ^ 32) ∧ (0 < t.timeScale ∧ t.timeScale < 2 ^ 32) ∧
      ∃ c, t.codec = some c ∧ (∃ info, fill (some c) = .ok info) ∧ c ≠ .flac none := by
  have hs := C74_sound fields b
  rw [h] at hs
  exact ⟨hs.1, fun t ht => let ⟨a, b, c, d⟩ := hs.2 t ht; ⟨a, ⟨b, c⟩, d⟩⟩

/-- A file of the test suite meets the hypothesis. -/
example : ∃ i, unmarshal isoFields initSampleH264Mpeg4AudioBytes = .ok i ∧ i.tracks.length = 2 := ⟨initSampleH264Mpeg4Audio, by decide +kernel, rfl⟩

/-- **C75**, as FuzzInitUnmarshal has it (what `Init.Unmarshal` returns is accepted by `Init.Marshal`), for the codecs that the boxes can
express. -/
theorem C75_partial (fields : Fields) (b : Bytes) (i : Init) (h : unmarshal fields b = .ok i)
    (hm : ∀ t ∈ i.tracks, ∀ a, t.codec = some (.mpeg4Audio a) → a.channelCount ≠ 0 ∨ (1 ≤ a.channelConfig ∧ a.channelConfig ≤ 7))
    (h3 : ∀ t ∈ i.tracks, ∀ a, t.codec = some (.ac3 a) → a.sampleRate = 48000 ∨ a.sampleRate = 44100 ∨ a.sampleRate = 32000)
    (he : ∀ t ∈ i.tracks, ∀ a, t.codec = some (.eac3 a) → a.sampleRate = 48000 ∨ a.sampleRate = 44100 ∨ a.sampleRate = 32000) :
    (∃ f, marshal ⟨[], 0⟩ i = .ok f) ∨ marshal ⟨[], 0⟩ i = .err "header size changed" := by
  refine C73_accepts ⟨[], 0⟩ (by decide) i fun t ht => ?_
  obtain ⟨_, _, c, hc, h1, h2⟩ := (C74_result fields b i h).2 t ht
  exact ⟨c, hc, h1, h2, fun a e => hm t ht a (by rw [hc, e]), fun a e => h3 t ht a (by rw [hc, e]), fun a e => he t ht a (by rw [hc, e])⟩

/-- C75, the converse: other codecs that were read cannot be written. -/
theorem C75_refused (fields : Fields) (b : Bytes) (i : Init) (_h : unmarshal fields b = .ok i)
    (hn : ∃ t ∈ i.tracks, (∃ a, t.codec = some (.mpeg4Audio a) ∧ a.channelCount = 0 ∧ a.channelConfig = 0) ∨
      (∃ a, t.codec = some (.ac3 a) ∧ a.sampleRate ≠ 48000 ∧ a.sampleRate ≠ 44100 ∧ a.sampleRate ≠ 32000) ∨
      ∃ a, t.codec = some (.eac3 a) ∧ a.sampleRate ≠ 48000 ∧ a.sampleRate ≠ 44100 ∧ a.sampleRate ≠ 32000) :
    ∀ f, marshal ⟨[], 0⟩ i ≠ .ok f := by
  intro f hf
  obtain ⟨t, ht, hn⟩ := hn
  obtain ⟨c, hc, ha⟩ := C73_refuses _ _ i hf t ht
  rcases hn with ⟨a, e, h1, h2⟩ | ⟨a, e, h1, h2, h3⟩ | ⟨a, e, h1, h2, h3⟩
  · rw [e] at hc
    rcases ha.2.2.1 a (by simpa using hc.symm) with h | h
    · exact h h1
    · omega
  · rw [e] at hc
    rcases ha.2.2.2.1 a (by simpa using hc.symm) with h | h | h
    · exact h1 h
    · exact h2 h
    · exact h3 h
  · rw [e] at hc
    rcases ha.2.2.2.2 a (by simpa using hc.symm) with h | h | h
    · exact h1 h
    · exact h2 h
    · exact h3 h

/-- The AC-3 file of the test suite with 24000 Hz, a rate of the half-rate variants, in its sample entry. -/
def initHalfRate : Bytes := (initSampleAc3Bytes.set 449 0x5D).set 450 0xC0

/-- The MPEG-4 audio file of the test suite with a program configuration element (channel configuration 0). -/
def initNoChannels : Bytes := initSampleMpeg4AudioBytes.set 497 0x00

/-- C75 as FuzzInitUnmarshal has it is false. -/
theorem C75_false : ¬ ∀ (b : Bytes) (i : Init), unmarshal isoFields b = .ok i → ∃ f, marshal ⟨[], 0⟩ i = .ok f := by
  intro h
  obtain ⟨f, hf⟩ := h initHalfRate { tracks := [{ id := 1, timeScale := 90000, codec := some (.ac3 ⟨24000, 6, 0, 8, 0, 7, true, 15⟩) }] }
    (by decide +kernel)
  have : marshal ⟨[], 0⟩ { tracks := [{ id := 1, timeScale := 90000, codec := some (.ac3 ⟨24000, 6, 0, 8, 0, 7, true, 15⟩) }] }
    = .err "unsupported sample rate" := by decide +kernel
  rw [this] at hf
  cases hf

theorem C75_false_channels : ∃ i, unmarshal isoFields initNoChannels = .ok i ∧ ∀ f, marshal ⟨[], 0⟩ i ≠ .ok f := by
  refine ⟨{ tracks := [{ id := 1, timeScale := 44100, codec := some (.mpeg4Audio ⟨2, 44100, 0, 0, 0, 0, false, false, 0⟩) }] },
    by decide +kernel, fun f hf => ?_⟩
  have : marshal ⟨[], 0⟩ { tracks := [{ id := 1, timeScale := 44100, codec := some (.mpeg4Audio ⟨2, 44100, 0, 0, 0, 0, false, false, 0⟩) }] }
    = .err "MPEG-4 audio channelConfig = 0 is not supported (yet)" := by decide +kernel
  rw [this] at hf
  cases hf

end Verif.Props
