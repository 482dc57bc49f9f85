import Verif.Spec.CodecEntries
import Verif.Props.CodecRecords
import Verif.Props.H264
import Verif.Props.AV1
import Verif.Model.FMP4Sample

/-!
# C91: what the reader takes from sample entries and configuration records

For every sample entry and configuration record of the standards, not only the ones that `WriteCodecBoxes` writes.
-/

namespace Verif.Props
open MP4Box MP4Codec
open FMP4Init (isoFields)
open Records
open Spec (bitsOf natOfBits bitsOfNat bitsOfNat_mod)
open Spec.Records (Carries Fields fourcc field)

/-! ## Fields -/

theorem taken_pack {b : Bytes} {fs : Fields} (h : Carries b fs) (h8 : (widths fs).sum % 8 = 0) : b = pack fs :=
  Spec.bitsOf_inj (h.2.trans (bits_pack fs h8).symm)

theorem taken_values (fs : Fields) (h : ∀ f ∈ fs, f.2 < 2 ^ f.1) : fs.map (fun f => f.2 % 2 ^ f.1) = fs.map (·.2) := by
  refine List.map_congr_left fun f hf => ?_
  exact Nat.mod_eq_of_lt (h f hf)

theorem taken_read {b : Bytes} {fs : Fields} (ws : List Nat) (rest : Bytes) (h : Carries b fs) (hw : widths fs = ws)
    (h8 : (widths fs).sum % 8 = 0) : unpack ws (b ++ rest) = .ok (fs.map (·.2), rest) := by
  rw [taken_pack h h8, pack_read fs ws rest hw h8, taken_values fs h.1]

theorem taken_read_all {b : Bytes} {fs : Fields} (ws : List Nat) (h : Carries b fs) (hw : widths fs = ws)
    (h8 : (widths fs).sum % 8 = 0) : unpack ws b = .ok (fs.map (·.2), []) := by
  have := taken_read ws [] h hw h8
  rwa [List.append_nil] at this

/-- Whole fields one after the other are bytes one after the other. -/
theorem taken_split {b : Bytes} {fs gs : Fields} (h : Carries b (fs ++ gs)) (hf : (widths fs).sum % 8 = 0) (hg : (widths gs).sum % 8 = 0) :
    ∃ x y, b = x ++ y ∧ Carries x fs ∧ Carries y gs := by
  have h8 : (widths (fs ++ gs)).sum % 8 = 0 := by
    unfold widths at hf hg ⊢
    rw [List.map_append, List.sum_append]; omega
  refine ⟨pack fs, pack gs, (taken_pack h h8).trans (pack_append _ _ hf hg), carries_self hf fun f hm => h.1 f ?_,
    carries_self hg fun f hm => h.1 f ?_⟩
  · exact List.mem_append_left _ hm
  · exact List.mem_append_right _ hm

theorem taken_bytes {b x : Bytes} (h : Carries b (Spec.Records.bytes x)) : b = x :=
  Spec.bitsOf_inj (h.2.trans (flat_bytes x))

theorem taken_bytes_whole (x : Bytes) : (widths (Spec.Records.bytes x)).sum = 8 * x.length := pack_bytes x

theorem taken_length {b : Bytes} {fs : Fields} (h : Carries b fs) (h8 : (widths fs).sum % 8 = 0) : b.length = (widths fs).sum / 8 := by
  rw [taken_pack h h8, pack_length]

/-! ## The reader -/

theorem taken_found (r : CodecReader) (c d : Codec) : r.found c = r.found d ↔ c = d := by
  refine ⟨fun h => ?_, fun h => h ▸ rfl⟩
  unfold CodecReader.found at h
  injection h with h
  injection h with h
  injection h with h
  injection h

theorem taken_iff {typ entry ctyp config : Bytes} {c : Codec} {r : CodecReader} (h1 : typ.length = 4) (h2 : ctyp.length = 4)
    (h3 : ∀ rest, isoFields typ (entry ++ rest) = some entry.length)
    (h4 : ∀ rest, ({} : CodecReader).readBox typ (entry ++ rest) = .ok (.expand r)) :
    CodecReads typ entry ctyp config c ↔ r.readBox ctyp config = r.found c := by
  constructor
  · rintro ⟨_, _, _, r', h5, h6⟩
    have e := (h4 []).symm.trans (h5 [])
    injection e with e
    injection e with e
    subst e
    exact h6
  · exact fun h => ⟨h1, h2, h3, r, h4, h⟩

theorem taken_visual {entry : Bytes} {e : Spec.Records.VisualEntry} (h : Spec.Records.IsVisualEntry entry e) (rest : Bytes) :
    decodeVisual (entry ++ rest) = .ok (e.width, e.height) := by
  unfold decodeVisual
  rw [taken_read _ rest h (by rfl) (by unfold Spec.Records.VisualEntry.fields; record_whole), Res.bind_ok]
  rfl

theorem taken_visual_length {entry : Bytes} {e : Spec.Records.VisualEntry} (h : Spec.Records.IsVisualEntry entry e) : entry.length = 78 := by
  rw [taken_length h (by unfold Spec.Records.VisualEntry.fields; record_whole)]
  unfold Spec.Records.VisualEntry.fields
  simp [widths]

theorem taken_audio_length {entry : Bytes} {e : Spec.Records.AudioEntry} (h : Spec.Records.IsAudioEntry entry e) : entry.length = 28 := by
  rw [taken_length h (by unfold Spec.Records.AudioEntry.fields; record_whole)]
  unfold Spec.Records.AudioEntry.fields
  simp [widths]

theorem taken_audio_rate {entry : Bytes} {e : Spec.Records.AudioEntry} (h : Spec.Records.IsAudioEntry entry e) : e.rate < 2 ^ 16 ∧ e.rateFraction < 2 ^ 16 := by
  have := h.1
  unfold Spec.Records.AudioEntry.fields at this
  exact ⟨this (16, e.rate) (by simp), this (16, e.rateFraction) (by simp)⟩

theorem taken_audio {entry : Bytes} {e : Spec.Records.AudioEntry} (h : Spec.Records.IsAudioEntry entry e) (rest : Bytes) :
    decodeAudio (entry ++ rest) = .ok (e.channels, e.rate * 2 ^ 16 + e.rateFraction) := by
  unfold decodeAudio
  have hr := taken_audio_rate h
  have hc : Carries entry ([(48, e.reserved), (16, e.dataReference), (16, e.reserved2), (48, e.reserved3), (16, e.channels), (16, e.size),
      (16, e.preDefined), (16, e.reserved4)] ++ [(32, e.rate * 2 ^ 16 + e.rateFraction)]) := by
    refine ⟨fun f hf => ?_, ?_⟩
    · rcases List.mem_append.1 hf with hf | hf
      · refine h.1 f ?_
        unfold Spec.Records.AudioEntry.fields
        simp only [List.mem_cons, List.not_mem_nil, or_false] at hf ⊢
        rcases hf with h | h | h | h | h | h | h | h <;> simp [h]
      · rw [List.mem_singleton.1 hf]
        dsimp only
        omega
    · have hj := flat_join 16 16 e.rate e.rateFraction hr.2 []
      rw [h.2]
      unfold Spec.Records.AudioEntry.fields
      show flat ([(48, e.reserved), (16, e.dataReference), (16, e.reserved2), (48, e.reserved3), (16, e.channels), (16, e.size),
      (16, e.preDefined), (16, e.reserved4)] ++ [(16, e.rate), (16, e.rateFraction)]) = flat _
      rw [flat_append, hj, ← flat_append]
  rw [taken_read _ rest hc (by rfl) (by record_whole), Res.bind_ok]
  rfl

theorem taken_enterAudio {entry : Bytes} {e : Spec.Records.AudioEntry} (h : Spec.Records.IsAudioEntry entry e) (s : RState) (rest : Bytes) :
    ({} : CodecReader).enterAudio (entry ++ rest) s = .ok (.expand { state := s, sampleRate := e.rate, channelCount := e.channels }) := by
  unfold CodecReader.enterAudio
  rw [if_neg (by simp), taken_audio h, Res.bind_ok]
  have hr := taken_audio_rate h
  have : (e.rate * 2 ^ 16 + e.rateFraction) / 65536 = e.rate := by omega
  dsimp only
  rw [this]

/-! ## H264 -/

theorem taken_sized_whole (n : Bytes) : (widths (Spec.Records.sized n)).sum = 8 * (2 + n.length) := by
  have := taken_bytes_whole n
  unfold Spec.Records.sized
  unfold widths at this ⊢
  rw [List.map_cons, List.sum_cons, this]
  dsimp only
  omega

theorem taken_sets_whole (l : List Bytes) : (widths (l.flatMap Spec.Records.sized)).sum % 8 = 0 := by
  induction l with
  | nil => rfl
  | cons n l ih =>
    have := taken_sized_whole n
    unfold widths at ih this ⊢
    rw [List.flatMap_cons, List.map_append, List.sum_append, this]
    omega

/-- Parameter sets are read. -/
theorem taken_sets (l : List Bytes) (b rest : Bytes) (h : Carries b (l.flatMap Spec.Records.sized)) :
    decodeSets l.length (b ++ rest) = .ok (l, rest) := by
  induction l generalizing b with
  | nil =>
    have := taken_length h (by rfl)
    rw [List.length_eq_zero_iff.1 this]
    rfl
  | cons n l ih =>
    rw [List.flatMap_cons] at h
    obtain ⟨x, y, rfl, hx, hy⟩ := taken_split h (by rw [taken_sized_whole]; omega) (taken_sets_whole l)
    obtain ⟨u, v, rfl, hu, hv⟩ := taken_split (fs := [(16, n.length)]) (gs := Spec.Records.bytes n) hx (by record_whole)
      (by rw [taken_bytes_whole]; omega)
    obtain rfl := taken_bytes hv
    show (unpack [16] _ >>= _) = _
    rw [List.append_assoc, List.append_assoc, taken_read _ _ hu (by rfl) (by record_whole), Res.bind_ok]
    show (takeBytes v.length (v ++ (y ++ rest)) >>= _) = _
    rw [takeBytes_append, Res.bind_ok]
    dsimp only
    rw [ih _ hy, Res.bind_ok]

theorem taken_avcC {config : Bytes} {r : Spec.Records.Avc} (h : Carries config r.fields) : decodeAvcC config = .ok (r.sps, r.pps) := by
  unfold Spec.Records.Avc.fields at h
  have hh : (widths (match r.high with | none => [] | some h => h.fields)).sum % 8 = 0 := by
    cases r.high with
    | none => rfl
    | some h =>
      have := taken_sets_whole h.ext
      dsimp only
      unfold Spec.Records.AvcHigh.fields
      unfold widths at this ⊢
      rw [List.map_append, List.sum_append]
      simp
      omega
  have h1 := taken_sets_whole r.sps
  have h2 := taken_sets_whole r.pps
  obtain ⟨x, e, rfl, h, he⟩ := taken_split h (by
    unfold widths at h1 h2 ⊢
    simp only [List.map_append, List.sum_append, List.map_cons, List.sum_cons, List.map_nil, List.sum_nil]
    omega) hh
  obtain ⟨x, d, rfl, h, hd⟩ := taken_split h (by
    unfold widths at h1 h2 ⊢
    simp only [List.map_append, List.sum_append, List.map_cons, List.sum_cons, List.map_nil, List.sum_nil]
    omega) h2
  obtain ⟨x, c, rfl, h, hc⟩ := taken_split h (by
    unfold widths at h1 h2 ⊢
    simp only [List.map_append, List.sum_append, List.map_cons, List.sum_cons, List.map_nil, List.sum_nil]
    omega) (by record_whole)
  obtain ⟨a, b, rfl, ha, hb⟩ := taken_split h (by record_whole) h1
  unfold decodeAvcC
  simp only [List.append_assoc]
  rw [taken_read _ _ ha (by rfl) (by record_whole), Res.bind_ok]
  show (decodeSets r.sps.length (b ++ _) >>= _) = _
  rw [taken_sets _ _ _ hb, Res.bind_ok]
  dsimp only
  rw [taken_read _ _ hc (by rfl) (by record_whole), Res.bind_ok]
  show (decodeSets r.pps.length (d ++ _) >>= _) = _
  rw [taken_sets _ _ _ hd, Res.bind_ok]

theorem taken_orError {α : Type} (e : String) (x : Res α) (y : α) : orError e x = .ok y ↔ x = .ok y := by
  cases x <;> simp [orError]

theorem taken_h264 (l m : List Bytes) (sps pps : Bytes) :
    h264FindParams l m = .ok (sps, pps) ↔ l = [sps] ∧ m = [pps] ∧ (∃ s, ({} : H264.SPS).unmarshal sps = .ok s) ∧ pps ≠ [] := by
  unfold h264FindParams
  constructor
  · intro h
    match l, m, h with
    | [], _, h => cases h
    | _ :: _ :: _, _, h => simp at h
    | [a], [], h => simp at h
    | [a], _ :: _ :: _, h => simp at h
    | [a], [b], h =>
      simp only [List.length_singleton, Nat.one_ne_zero, if_false, Nat.lt_irrefl, gt_iff_lt, idx, List.getElem?_cons_zero, Res.bind_ok] at h
      obtain ⟨s, hs, h⟩ := Res.bind_eq_ok.1 h
      rw [taken_orError] at hs
      split at h
      · cases h
      · cases h
        exact ⟨rfl, rfl, ⟨s, hs⟩, fun e => by simp_all⟩
  · rintro ⟨rfl, rfl, ⟨s, hs⟩, hp⟩
    simp only [List.length_singleton, Nat.one_ne_zero, if_false, Nat.lt_irrefl, gt_iff_lt, idx, List.getElem?_cons_zero, Res.bind_ok]
    rw [(taken_orError _ _ _).2 hs, Res.bind_ok, if_neg (by rwa [List.length_eq_zero_iff])]

theorem taken_bind_found {α : Type} (x : Res α) (r : CodecReader) (f : α → Codec) (c : Codec) :
    (x >>= fun a => r.found (f a)) = r.found c ↔ ∃ a, x = .ok a ∧ c = f a := by
  constructor
  · intro h
    obtain ⟨a, ha, h⟩ := Res.bind_eq_ok.1 h
    exact ⟨a, ha, ((taken_found r _ _).1 h).symm⟩
  · rintro ⟨a, rfl, rfl⟩
    rfl

/-- C91 for H264: the codec is the one of the only SPS and the only PPS of the record; records with none or with several, with an SPS that
does not follow the syntax or with an empty PPS are refused. -/
theorem C91_h264 (entry config : Bytes) (e : Spec.Records.VisualEntry) (r : Spec.Records.Avc) (c : Codec)
    (he : Spec.Records.IsVisualEntry entry e) (hc : Carries config r.fields) :
    CodecReads (fourcc 'a' 'v' 'c' '1') entry (fourcc 'a' 'v' 'c' 'C') config c ↔
      ∃ sps pps, r.sps = [sps] ∧ r.pps = [pps] ∧ (∃ s, ({} : H264.SPS).unmarshal sps = .ok s) ∧ pps ≠ [] ∧ c = .h264 sps pps := by
  rw [taken_iff (r := { state := .waitingAvcC }) (by rfl) (by rfl) (fun rest => by rw [taken_visual_length he]; rfl) (fun rest => rfl)]
  show CodecReader.readBox _ typAvcC config = _ ↔ _
  rw [init_is_avcC]
  unfold CodecReader.readAvcC
  rw [if_neg (by simp), taken_avcC hc, Res.bind_ok]
  dsimp only
  rw [show (h264FindParams r.sps r.pps >>= fun x => match x with
    | (sps, pps) => CodecReader.found { state := .waitingAvcC } (.h264 sps pps)) = (h264FindParams r.sps r.pps >>= fun x =>
      CodecReader.found { state := .waitingAvcC } (.h264 x.1 x.2)) from rfl, taken_bind_found]
  constructor
  · rintro ⟨⟨sps, pps⟩, h, rfl⟩
    obtain ⟨h1, h2, h3, h4⟩ := (taken_h264 _ _ _ _).1 h
    exact ⟨sps, pps, h1, h2, h3, h4, rfl⟩
  · rintro ⟨sps, pps, h1, h2, h3, h4, rfl⟩
    exact ⟨(sps, pps), (taken_h264 _ _ _ _).2 ⟨h1, h2, h3, h4⟩, rfl⟩

/-! ## VP9 -/

theorem taken_vp09 {entry : Bytes} {e : Spec.Records.VisualEntry} (he : Spec.Records.IsVisualEntry entry e) (rest : Bytes) :
    ({} : CodecReader).readBox (fourcc 'v' 'p' '0' '9') (entry ++ rest) =
      if e.width = 0 ∨ e.height = 0 then .err "VP9 parameters not provided"
      else .ok (.expand { width := e.width, height := e.height, state := .waitingVpcC }) := by
  show ({} : CodecReader).enterVp09 (entry ++ rest) = _
  unfold CodecReader.enterVp09
  rw [if_neg (by simp), taken_visual he, Res.bind_ok]

/-- C91 for VP9: the size is the one of the sample entry, the rest is in the record; sizes of zero are refused. -/
theorem C91_vp9 (entry config : Bytes) (e : Spec.Records.VisualEntry) (r : Spec.Records.Vpc) (c : Codec)
    (he : Spec.Records.IsVisualEntry entry e) (hc : Carries config r.fields) :
    CodecReads (fourcc 'v' 'p' '0' '9') entry (fourcc 'v' 'p' 'c' 'C') config c ↔
      e.width ≠ 0 ∧ e.height ≠ 0 ∧ c = .vp9 ⟨e.width, e.height, r.profile, r.bitDepth, r.chromaSubsampling, decide (r.fullRange = 1)⟩ := by
  have hv := taken_vp09 he
  by_cases hz : e.width = 0 ∨ e.height = 0
  · constructor
    · rintro ⟨_, _, _, r', h5, h6⟩
      have := (hv []).symm.trans (h5 [])
      rw [if_pos hz] at this
      cases this
    · rintro ⟨h1, h2, _⟩
      omega
  · rw [taken_iff (r := { width := e.width, height := e.height, state := .waitingVpcC }) (by rfl) (by rfl)
      (fun rest => by rw [taken_visual_length he]; rfl) (fun rest => by rw [hv, if_neg hz])]
    show CodecReader.readBox _ typVpcC config = _ ↔ _
    rw [init_is_vpcC]
    unfold CodecReader.readVpcC decodeVpcC
    rw [if_neg (by simp), taken_read_all _ hc (by rfl) (by unfold Spec.Records.Vpc.fields; record_whole), Res.bind_ok, Res.bind_ok]
    show CodecReader.found _ (.vp9 ⟨e.width, e.height, r.profile, r.bitDepth, r.chromaSubsampling, decide (r.fullRange ≠ 0)⟩) = _ ↔ _
    have hf : r.fullRange < 2 ^ 1 := hc.1 (1, r.fullRange) (by unfold Spec.Records.Vpc.fields; simp)
    have : decide (r.fullRange ≠ 0) = decide (r.fullRange = 1) := by
      rw [decide_eq_decide]; omega
    rw [taken_found, this]
    constructor
    · rintro rfl
      exact ⟨by omega, by omega, rfl⟩
    · rintro ⟨_, _, rfl⟩
      rfl

/-! ## Audio without descriptors -/

/-- C91 for Opus: the number of channels is the one of the record, whatever the sample entry says. -/
theorem C91_opus (entry config : Bytes) (e : Spec.Records.AudioEntry) (r : Spec.Records.DOps) (c : Codec)
    (he : Spec.Records.IsAudioEntry entry e) (hc : Carries config r.fields) :
    CodecReads (fourcc 'O' 'p' 'u' 's') entry (fourcc 'd' 'O' 'p' 's') config c ↔ c = .opus r.channels := by
  rw [taken_iff (r := { state := .waitingDOps }) (by rfl) (by rfl) (fun rest => by rw [taken_audio_length he]; rfl) (fun rest => rfl)]
  show CodecReader.readBox _ typDOps config = _ ↔ _
  rw [init_is_dOps]
  unfold Spec.Records.DOps.fields at hc
  obtain ⟨x, y, rfl, hx, _⟩ := taken_split hc (by record_whole) (by
    split
    · rfl
    · rename_i t _
      have := taken_bytes_whole t.mapping
      unfold widths at this ⊢
      rw [List.map_append, List.sum_append, this]
      simp)
  unfold CodecReader.readDOps decodeDOps
  rw [if_neg (by simp), taken_read _ _ hx (by rfl) (by record_whole), Res.bind_ok, Res.bind_ok, taken_found]
  exact eq_comm

/-- C91 for FLAC: the STREAMINFO block is the first one; other blocks can follow. -/
theorem C91_flac (entry head info more : Bytes) (e : Spec.Records.AudioEntry) (last size : Nat) (c : Codec)
    (he : Spec.Records.IsAudioEntry entry e) (hh : Carries head [(8, 0), (24, 0), (1, last), (7, 0), (24, size)]) (hi : info.length = 34) :
    CodecReads (fourcc 'f' 'L' 'a' 'C') entry (fourcc 'd' 'f' 'L' 'a') (head ++ (info ++ more)) c ↔
      ∃ si : Flac.StreamInfo, StreamInfoInRange si ∧ c = .flac (some si) ∧
        bitsOf info = Spec.streamInfoBits si.minBlockSize si.maxBlockSize si.minFrameSize si.maxFrameSize si.sampleRate si.channelCount.toNat
          si.bitDepth.toNat si.totalSamples si.md5 := by
  rw [taken_iff (r := { state := .waitingDfLa, sampleRate := e.rate, channelCount := e.channels }) (by rfl) (by rfl)
    (fun rest => by rw [taken_audio_length he]; rfl) (by exact fun rest => taken_enterAudio he .waitingDfLa rest)]
  show CodecReader.readBox _ typDfLa _ = _ ↔ _
  rw [init_is_dfLa]
  obtain ⟨x, y, rfl, hx, hy⟩ := taken_split (fs := [(8, 0), (24, 0)]) (gs := [(1, last), (7, 0), (24, size)]) hh (by record_whole) (by record_whole)
  have hl : y.length = 4 := by rw [taken_length hy (by record_whole)]; simp [widths]
  unfold CodecReader.readDfLa decodeDfLa
  rw [if_neg (by simp), List.append_assoc, taken_read _ _ hx (by rfl) (by record_whole), Res.bind_ok, Res.bind_ok,
    if_neg (by simp only [List.length_append]; omega)]
  have hs : sliceFrom (y ++ (info ++ more)) 4 = .ok (info ++ more) := by
    unfold sliceFrom
    rw [if_pos (by simp only [List.length_append]; omega), List.drop_left' hl]
  rw [hs, Res.bind_ok]
  obtain ⟨s, h1, h2, h3⟩ := (C29_decode (info ++ more)).2 (by simp only [List.length_append]; omega)
  rw [h1]
  show CodecReader.found _ (.flac (some s)) = _ ↔ _
  rw [taken_found]
  rw [List.take_left' hi] at h3
  constructor
  · rintro rfl
    exact ⟨s, h2, rfl, h3⟩
  · rintro ⟨si, g1, rfl, g2⟩
    have : specBits si = specBits s := g2.symm.trans h3
    rw [show s = si from (by
      have e1 := C29_round_trip si g1 []
      have e2 := C29_round_trip s h2 []
      have m1 := (C29_encode si g1).2
      have m2 := (C29_encode s h2).2
      have : Flac.marshal si = Flac.marshal s := Spec.bitsOf_inj (by rw [m1, m2, this])
      rw [this, e2] at e1
      injection e1)]

/-- C91 for AC-3: rate and number of channels are the ones of the sample entry, the rest is in the record. -/
theorem C91_ac3 (entry config : Bytes) (e : Spec.Records.AudioEntry) (fscod bsid bsmod acmod lfeon bitRateCode : Nat) (c : Codec)
    (he : Spec.Records.IsAudioEntry entry e) (hc : Carries config (Spec.Records.dac3 fscod bsid bsmod acmod lfeon bitRateCode)) :
    CodecReads (fourcc 'a' 'c' '-' '3') entry (fourcc 'd' 'a' 'c' '3') config c ↔
      c = .ac3 ⟨e.rate, e.channels, fscod, bsid, bsmod, acmod, decide (lfeon = 1), bitRateCode⟩ := by
  rw [taken_iff (r := { state := .waitingDac3, sampleRate := e.rate, channelCount := e.channels }) (by rfl) (by rfl)
    (fun rest => by rw [taken_audio_length he]; rfl) (by exact fun rest => taken_enterAudio he .waitingDac3 rest)]
  show CodecReader.readBox _ typDac3 _ = _ ↔ _
  rw [init_is_dac3]
  unfold CodecReader.readDac3 decodeDac3
  rw [if_neg (by simp), taken_read_all _ hc (by rfl) (by unfold Spec.Records.dac3; record_whole), Res.bind_ok, Res.bind_ok]
  show CodecReader.found _ (.ac3 ⟨e.rate, e.channels, fscod, bsid, bsmod, acmod, decide (lfeon ≠ 0), bitRateCode⟩) = _ ↔ _
  have hf : lfeon < 2 ^ 1 := hc.1 (1, lfeon) (by unfold Spec.Records.dac3; simp)
  have : decide (lfeon ≠ 0) = decide (lfeon = 1) := by rw [decide_eq_decide]; omega
  rw [taken_found, this]
  exact eq_comm

theorem taken_sub_whole (s : Spec.Records.Dec3Sub) : (widths s.fields).sum % 8 = 0 := by
  unfold Spec.Records.Dec3Sub.fields
  split <;> record_whole

theorem taken_subs_whole (l : List Spec.Records.Dec3Sub) : (widths (l.flatMap Spec.Records.Dec3Sub.fields)).sum % 8 = 0 := by
  induction l with
  | nil => rfl
  | cons s l ih =>
    have := taken_sub_whole s
    unfold widths at ih this ⊢
    rw [List.flatMap_cons, List.map_append, List.sum_append]
    omega

/-- What is read of a substream. -/
def takenSub (s : Spec.Records.Dec3Sub) : IndSub :=
  ⟨s.asvc, s.bsmod, s.acmod, s.lfeon, s.numDepSub, if s.numDepSub = 0 then 0 else s.chanLoc⟩

theorem taken_subs (l : List Spec.Records.Dec3Sub) (b : Bytes) (h : Carries b (l.flatMap Spec.Records.Dec3Sub.fields)) :
    decodeIndSubs l.length b = .ok (l.map takenSub) := by
  induction l generalizing b with
  | nil => rfl
  | cons s l ih =>
    rw [List.flatMap_cons] at h
    obtain ⟨x, y, rfl, hx, hy⟩ := taken_split h (taken_sub_whole s) (taken_subs_whole l)
    show (unpack [2, 5, 1, 1, 3, 3, 1, 3, 4, 1] _ >>= _) = _
    unfold Spec.Records.Dec3Sub.fields at hx
    by_cases hn : s.numDepSub = 0
    · rw [if_pos hn] at hx
      rw [taken_read _ _ hx (by rfl) (by record_whole), Res.bind_ok]
      show (decodeChanLoc s.numDepSub 0 y >>= _) = _
      unfold decodeChanLoc
      rw [if_pos hn, Res.bind_ok]
      dsimp only
      rw [ih _ hy, Res.bind_ok]
      simp only [List.map_cons, takenSub, if_pos hn]
      rfl
    · rw [if_neg hn] at hx
      have hl : s.chanLoc < 2 ^ 9 := hx.1 (9, s.chanLoc) (by simp)
      have hx' : Carries x ([(2, s.fscod), (5, s.bsid), (1, 0), (1, s.asvc), (3, s.bsmod), (3, s.acmod), (1, s.lfeon), (3, 0),
          (4, s.numDepSub), (1, s.chanLoc / 2 ^ 8)] ++ [(8, s.chanLoc % 2 ^ 8)]) := by
        refine ⟨fun f hf => ?_, ?_⟩
        · have h' := hx.1
          simp only [List.cons_append, List.nil_append, List.forall_mem_cons] at h'
          obtain ⟨g1, g2, g3, g4, g5, g6, g7, g8, g9, _⟩ := h'
          simp only [List.cons_append, List.nil_append, List.mem_cons, List.not_mem_nil, or_false] at hf
          rcases hf with rfl | rfl | rfl | rfl | rfl | rfl | rfl | rfl | rfl | rfl | rfl
          all_goals first | assumption | (dsimp only; omega)
        · rw [hx.2]
          show flat _ = flat _
          simp only [List.cons_append, List.nil_append, flat_cons]
          rw [show bitsOfNat 9 s.chanLoc = bitsOfNat 1 (s.chanLoc / 2 ^ 8) ++ bitsOfNat 8 s.chanLoc from Spec.bitsOfNat_add 1 8 _,
            ← bitsOfNat_mod 8 8 s.chanLoc (by decide)]
          simp only [List.append_assoc]
      obtain ⟨u, v, rfl, hu, hv⟩ := taken_split hx' (by record_whole) (by record_whole)
      rw [List.append_assoc, taken_read _ _ hu (by rfl) (by record_whole), Res.bind_ok]
      show (decodeChanLoc s.numDepSub (s.chanLoc / 2 ^ 8) (v ++ y) >>= _) = _
      unfold decodeChanLoc
      rw [if_neg hn, taken_read _ _ hv (by rfl) (by record_whole), Res.bind_ok]
      show (Res.ok (s.chanLoc / 2 ^ 8 * 2 ^ 8 + s.chanLoc % 2 ^ 8, y) >>= _) = _
      rw [show s.chanLoc / 2 ^ 8 * 2 ^ 8 + s.chanLoc % 2 ^ 8 = s.chanLoc by omega, Res.bind_ok]
      dsimp only
      rw [ih _ hy, Res.bind_ok]
      simp only [List.map_cons, takenSub, if_neg hn]
      rfl

/-- C91 for E-AC-3: records with one independent substream are read, with the rate and the number of channels of the sample entry; records
with several are refused. -/
theorem C91_eac3 (entry config : Bytes) (e : Spec.Records.AudioEntry) (dataRate : Nat) (subs : List Spec.Records.Dec3Sub) (c : Codec)
    (hs : subs ≠ []) (he : Spec.Records.IsAudioEntry entry e) (hc : Carries config (Spec.Records.dec3Box dataRate subs)) :
    CodecReads (fourcc 'e' 'c' '-' '3') entry (fourcc 'd' 'e' 'c' '3') config c ↔
      ∃ s, subs = [s] ∧ c = .eac3 ⟨e.rate, e.channels, dataRate, decide (s.asvc = 1), s.bsmod, s.acmod, decide (s.lfeon = 1), s.numDepSub,
        if s.numDepSub = 0 then 0 else s.chanLoc⟩ := by
  rw [taken_iff (r := { state := .waitingDec3, sampleRate := e.rate, channelCount := e.channels }) (by rfl) (by rfl)
    (fun rest => by rw [taken_audio_length he]; rfl) (by exact fun rest => taken_enterAudio he .waitingDec3 rest)]
  show CodecReader.readBox _ typDec3 _ = _ ↔ _
  rw [init_is_dec3]
  unfold CodecReader.readDec3 decodeDec3
  obtain ⟨x, y, rfl, hx, hy⟩ := taken_split hc (by record_whole) (taken_subs_whole subs)
  rw [if_neg (by simp), taken_read _ _ hx (by rfl) (by record_whole), Res.bind_ok]
  have hn : subs.length - 1 + 1 = subs.length := by
    have := List.length_pos_iff.2 hs
    omega
  show ((decodeIndSubs (subs.length - 1 + 1) y >>= fun l => Res.ok (dataRate, subs.length - 1, l)) >>= _) = _ ↔ _
  rw [hn, taken_subs _ _ hy, Res.bind_ok, Res.bind_ok]
  dsimp only
  match subs, hs with
  | [s], _ =>
    rw [if_neg (by simp)]
    simp only [List.map_cons, idx, List.getElem?_cons_zero, Res.bind_ok, taken_found]
    have h1 : s.asvc < 2 ^ 1 ∧ s.lfeon < 2 ^ 1 := by
      rw [List.flatMap_cons] at hy
      have := hy.1
      unfold Spec.Records.Dec3Sub.fields at this
      exact ⟨this (1, s.asvc) (by simp), this (1, s.lfeon) (by simp)⟩
    have e1 : decide (s.asvc ≠ 0) = decide (s.asvc = 1) := by rw [decide_eq_decide]; omega
    have e2 : decide (s.lfeon ≠ 0) = decide (s.lfeon = 1) := by rw [decide_eq_decide]; omega
    show Codec.eac3 ⟨e.rate, e.channels, dataRate, decide (s.asvc ≠ 0), s.bsmod, s.acmod, decide (s.lfeon ≠ 0), s.numDepSub,
      if s.numDepSub = 0 then 0 else s.chanLoc⟩ = c ↔ _
    rw [e1, e2]
    constructor
    · rintro rfl
      exact ⟨s, rfl, rfl⟩
    · rintro ⟨s', h, rfl⟩
      cases h
      rfl
  | s :: t :: l, _ =>
    rw [if_pos (by simp)]
    constructor
    · intro h; cases h
    · rintro ⟨s', h, _⟩; cases h

/-- C91 for LPCM. -/
theorem C91_lpcm (entry config : Bytes) (e : Spec.Records.AudioEntry) (littleEndian size : Nat) (c : Codec)
    (he : Spec.Records.IsAudioEntry entry e) (hc : Carries config (Spec.Records.pcm littleEndian size)) :
    CodecReads (fourcc 'i' 'p' 'c' 'm') entry (fourcc 'p' 'c' 'm' 'C') config c ↔
      c = .lpcm ⟨decide (littleEndian = 1), size, e.rate, e.channels⟩ := by
  rw [taken_iff (r := { state := .waitingPcmC, sampleRate := e.rate, channelCount := e.channels }) (by rfl) (by rfl)
    (fun rest => by rw [taken_audio_length he]; rfl) (by exact fun rest => taken_enterAudio he .waitingPcmC rest)]
  show CodecReader.readBox _ typPcmC _ = _ ↔ _
  rw [init_is_pcmC]
  have hf := hc.1
  unfold Spec.Records.pcm at hf
  have hb : littleEndian < 2 ^ 1 := hf (1, littleEndian) (by simp)
  have hz : size < 2 ^ 8 := hf (8, size) (by simp)
  have hc' : Carries config [(8, 0), (24, 0), (8, littleEndian), (8, size)] := by
    refine ⟨by record_fits, ?_⟩
    rw [hc.2]
    unfold Spec.Records.pcm
    show flat _ = flat _
    have hj := flat_join 7 1 0 littleEndian hb [(8, size)]
    rw [Nat.zero_mul, Nat.zero_add] at hj
    rw [flat_cons, flat_cons, hj, ← flat_cons, ← flat_cons]
  unfold CodecReader.readPcmC decodePcmC
  rw [if_neg (by simp), taken_read_all _ hc' (by rfl) (by record_whole), Res.bind_ok, Res.bind_ok]
  show CodecReader.found _ (.lpcm ⟨decide (littleEndian % 2 = 1), size, e.rate, e.channels⟩) = _ ↔ _
  have : decide (littleEndian % 2 = 1) = decide (littleEndian = 1) := by rw [decide_eq_decide]; omega
  rw [taken_found, this]
  exact eq_comm

/-! ## AV1 -/

theorem taken_first (l : List Bytes) (sh : Bytes) (hl : ∀ o ∈ l, o ≠ []) :
    firstSequenceHeader l = .ok sh ↔ l.find? (fun o => Spec.Records.obuType o = Spec.Records.sequenceHeaderType) = some sh ∧
      ∃ h, ({} : AV1.SequenceHeader).unmarshal sh = .ok h := by
  induction l with
  | nil => simp [firstSequenceHeader]
  | cons o l ih =>
    match o, hl o (.head _) with
    | b :: p, _ =>
      unfold firstSequenceHeader
      rw [show idx (b :: p) 0 = .ok b from rfl, Res.bind_ok]
      have hb := obuType_dec b
      by_cases h1 : (b >>> 3) &&& 0b1111 = 1
      · rw [if_pos h1, List.find?_cons_of_pos (by simpa [Spec.Records.obuType, Spec.Records.sequenceHeaderType] using hb.1 h1)]
        constructor
        · intro h
          obtain ⟨x, hx, h⟩ := Res.bind_eq_ok.1 h
          cases h
          exact ⟨rfl, x, (taken_orError _ _ _).1 hx⟩
        · rintro ⟨h, x, hx⟩
          cases h
          rw [(taken_orError _ _ _).2 hx, Res.bind_ok]
      · rw [if_neg h1, List.find?_cons_of_neg (by
          simp only [Spec.Records.obuType, Spec.Records.sequenceHeaderType, List.headD_cons]
          exact fun h => h1 (hb.2 (of_decide_eq_true h)))]
        exact ih fun o ho => hl o (.tail _ ho)

/-- C91 for AV1: the codec is the first sequence header of the OBUs of the record. -/
theorem C91_av1 (entry head obus : Bytes) (e : Spec.Records.VisualEntry) (n : Nat) (c : Codec) (he : Spec.Records.IsVisualEntry entry e)
    (hh : Carries head [(1, 1), (7, 1), (24, n)]) :
    CodecReads (fourcc 'a' 'v' '0' '1') entry (fourcc 'a' 'v' '1' 'C') (head ++ obus) c ↔
      ∃ l sh, Spec.IsObuStream obus l ∧ l.find? (fun o => Spec.Records.obuType o = Spec.Records.sequenceHeaderType) = some sh ∧
        (∃ h, ({} : AV1.SequenceHeader).unmarshal sh = .ok h) ∧ c = .av1 sh := by
  rw [taken_iff (r := { state := .waitingAv1C }) (by rfl) (by rfl) (fun rest => by rw [taken_visual_length he]; rfl) (fun rest => rfl)]
  show CodecReader.readBox _ typAv1C _ = _ ↔ _
  rw [init_is_av1C]
  unfold CodecReader.readAv1C decodeAv1C
  obtain ⟨m, hm⟩ := unpack_skip 4 head obus (by rw [taken_length hh (by record_whole)]; simp [widths])
  rw [if_neg (by simp), hm, Res.bind_ok, Res.bind_ok, taken_bind_found]
  have key : ∀ sh, av1FindSequenceHeader obus = .ok sh ↔ ∃ l, Spec.IsObuStream obus l ∧
      l.find? (fun o => Spec.Records.obuType o = Spec.Records.sequenceHeaderType) = some sh ∧ ∃ h, ({} : AV1.SequenceHeader).unmarshal sh = .ok h := by
    intro sh
    unfold av1FindSequenceHeader
    constructor
    · intro h
      obtain ⟨l, hl, h⟩ := Res.bind_eq_ok.1 h
      rw [taken_orError] at hl
      have hs := ((C18_bitstream_accepts_iff _ _).1 hl).2
      have hne : ∀ o ∈ l, o ≠ [] := fun o ho => by
        obtain ⟨b, p, rfl, _⟩ := (C18_bitstream_bounds _ _ hl).2.2 o ho
        simp
      exact ⟨l, hs, (taken_first l sh hne).1 h⟩
    · rintro ⟨l, hs, hf, hd⟩
      have hne : l ≠ [] := by rintro rfl; cases hf
      have hl := (C18_bitstream_accepts_iff _ _).2 ⟨hne, hs⟩
      rw [(taken_orError _ _ _).2 hl, Res.bind_ok]
      refine (taken_first l sh fun o ho => ?_).2 ⟨hf, hd⟩
      obtain ⟨b, p, rfl, _⟩ := (C18_bitstream_bounds _ _ hl).2.2 o ho
      simp
  constructor
  · rintro ⟨sh, h, rfl⟩
    obtain ⟨l, h1, h2, h3⟩ := (key sh).1 h
    exact ⟨l, sh, h1, h2, h3, rfl⟩
  · rintro ⟨l, sh, h1, h2, h3, rfl⟩
    exact ⟨sh, (key sh).2 ⟨l, h1, h2, h3⟩, rfl⟩

/-! ## H265 -/

theorem taken_array_whole (a : Spec.Records.HevcArray) : (widths a.fields).sum % 8 = 0 := by
  have := taken_sets_whole a.nalus
  unfold Spec.Records.HevcArray.fields
  unfold widths at this ⊢
  rw [List.map_append, List.sum_append]
  simp
  omega

theorem taken_arrays_whole (l : List Spec.Records.HevcArray) : (widths (l.flatMap Spec.Records.HevcArray.fields)).sum % 8 = 0 := by
  induction l with
  | nil => rfl
  | cons s l ih =>
    have := taken_array_whole s
    unfold widths at ih this ⊢
    rw [List.flatMap_cons, List.map_append, List.sum_append]
    omega

/-- What is read of an array. -/
def takenArray (a : Spec.Records.HevcArray) : NaluArray := ⟨a.type, a.nalus.length, a.nalus⟩

theorem taken_arrays (l : List Spec.Records.HevcArray) (b : Bytes) (h : Carries b (l.flatMap Spec.Records.HevcArray.fields)) :
    decodeArrays l.length b = .ok (l.map takenArray) := by
  induction l generalizing b with
  | nil => rfl
  | cons a l ih =>
    rw [List.flatMap_cons] at h
    obtain ⟨x, y, rfl, hx, hy⟩ := taken_split h (taken_array_whole a) (taken_arrays_whole l)
    obtain ⟨u, v, rfl, hu, hv⟩ := taken_split hx (by record_whole) (taken_sets_whole a.nalus)
    show (unpack [1, 1, 6, 16] _ >>= _) = _
    rw [List.append_assoc, taken_read _ _ hu (by rfl) (by record_whole), Res.bind_ok]
    show (decodeSets a.nalus.length (v ++ y) >>= _) = _
    rw [taken_sets _ _ _ hv, Res.bind_ok]
    dsimp only
    rw [ih _ hy, Res.bind_ok]
    rfl

theorem taken_hvcC {config : Bytes} {r : Spec.Records.Hevc} (h : Carries config r.fields) :
    decodeHvcC config = .ok (r.arrays.map takenArray) := by
  unfold Spec.Records.Hevc.fields at h
  obtain ⟨x, y, rfl, hx, hy⟩ := taken_split h (by unfold Spec.Records.Hevc.head; record_whole) (taken_arrays_whole r.arrays)
  have hx' : Carries x ([(8, 1), (2, r.profileSpace), (1, r.tier), (5, r.profile), (32, r.compatibility), (48, r.constraints), (8, r.level), (4, 0xF),
    (12, r.minSpatialSegmentation), (6, 0x3F), (2, r.parallelism), (6, 0x3F), (2, r.chroma), (5, 0x1F), (3, r.luma8), (5, 0x1F),
    (3, r.chroma8), (16, r.avgFrameRate), (2, r.constantFrameRate), (3, r.numTemporalLayers), (1, r.temporalIdNested),
    (2, r.lengthSizeMinusOne)] ++ [(8, r.arrays.length)]) := hx
  have hlen : r.arrays.length < 2 ^ 8 := hx'.1 (8, r.arrays.length) (by simp)
  obtain ⟨u, v, rfl, hu, hv⟩ := taken_split hx' (by record_whole) (by record_whole)
  have hul : u.length = 22 := by rw [taken_length hu (by record_whole)]; simp [widths]
  have hw : ∃ m, m < 2 ^ 176 ∧ Carries (u ++ v) [(176, m), (8, r.arrays.length)] := by
    refine ⟨natOfBits (bitsOf u), ?_, ?_, ?_⟩
    · have := Spec.natOfBits_lt (bitsOf u)
      rwa [Spec.length_bitsOf, hul] at this
    · intro f hf
      simp only [List.mem_cons, List.not_mem_nil, or_false] at hf
      rcases hf with rfl | rfl
      · have := Spec.natOfBits_lt (bitsOf u)
        rwa [Spec.length_bitsOf, hul] at this
      · exact hlen
    · show _ = flat _
      rw [Spec.bitsOf_append, flat_cons, hv.2]
      congr 1
      have := Spec.bitsOfNat_natOfBits (bitsOf u)
      rw [Spec.length_bitsOf, hul] at this
      exact this.symm
  obtain ⟨m, _, hm⟩ := hw
  unfold decodeHvcC
  rw [taken_read _ _ hm (by rfl) (by record_whole), Res.bind_ok]
  exact taken_arrays _ _ hy

/-- The arrays of parameter sets have one unit each, and SPS follow the syntax. -/
def TakenArrays (l : List Spec.Records.HevcArray) : Prop :=
  ∀ a ∈ l, a.type = 32 ∨ a.type = 33 ∨ a.type = 34 → ∃ n, a.nalus = [n] ∧ (a.type = 33 → ∃ s, ({} : H265.SPS).unmarshal n = .ok s)

theorem taken_last (t : Nat) (a : Spec.Records.HevcArray) (l : List Spec.Records.HevcArray) (d : Bytes) :
    (Spec.Records.lastOfType t (a :: l)).getD d = (Spec.Records.lastOfType t l).getD (if a.type = t then a.nalus.headD d else d) := by
  show Option.getD (match Spec.Records.lastOfType t l with | some n => some n | none => if a.type = t then a.nalus.head? else none) d = _
  cases Spec.Records.lastOfType t l with
  | some n => rfl
  | none =>
    dsimp only
    split
    · cases a.nalus <;> rfl
    · rfl

theorem taken_h265Arrays (l : List Spec.Records.HevcArray) (v s p v' s' p' : Bytes) :
    h265Arrays (l.map takenArray) v s p = .ok (v', s', p') ↔ TakenArrays l ∧ v' = (Spec.Records.lastOfType 32 l).getD v ∧
      s' = (Spec.Records.lastOfType 33 l).getD s ∧ p' = (Spec.Records.lastOfType 34 l).getD p := by
  induction l generalizing v s p with
  | nil =>
    show Res.ok (v, s, p) = .ok (v', s', p') ↔ _
    simp [TakenArrays, Spec.Records.lastOfType]
    exact ⟨fun ⟨a, b, c⟩ => ⟨a.symm, b.symm, c.symm⟩, fun ⟨a, b, c⟩ => ⟨a.symm, b.symm, c.symm⟩⟩
  | cons a l ih =>
    show (h265Array ⟨a.type, a.nalus.length, a.nalus⟩ v s p >>= fun x => h265Arrays (l.map takenArray) x.1 x.2.1 x.2.2) = _ ↔ _
    rw [taken_last, taken_last, taken_last]
    have hcons : TakenArrays (a :: l) ↔ (a.type = 32 ∨ a.type = 33 ∨ a.type = 34 → ∃ n, a.nalus = [n] ∧
        (a.type = 33 → ∃ s, ({} : H265.SPS).unmarshal n = .ok s)) ∧ TakenArrays l := by
      unfold TakenArrays
      exact List.forall_mem_cons
    rw [hcons]
    unfold h265Array
    dsimp only
    by_cases ht : a.type = 32 ∨ a.type = 33 ∨ a.type = 34
    · rw [if_pos ht]
      by_cases hn : a.nalus.length = 1
      · rw [if_neg (by omega)]
        obtain ⟨n, hn⟩ := List.length_eq_one_iff.1 hn
        rw [hn, show idx [n] 0 = .ok n from rfl, Res.bind_ok]
        rcases ht with h | h | h
        · simp only [h, if_true, Res.bind_ok, ih]
          simp
        · simp only [h, if_true]
          rw [if_neg (by decide)]
          cases hs : ({} : H265.SPS).unmarshal n with
          | ok x =>
            simp only [orError, Res.bind_ok, ih]
            refine and_congr ⟨fun h => ⟨fun _ => ⟨n, rfl, fun _ => ⟨x, hs⟩⟩, h⟩, fun h => h.2⟩ ?_
            rfl
          | err e =>
            refine ⟨fun h => (by cases h), ?_⟩
            rintro ⟨⟨h, _⟩, _⟩
            obtain ⟨_, e1, h⟩ := h (.inr (.inl trivial))
            cases e1
            obtain ⟨x, hx⟩ := h trivial
            rw [hs] at hx
            cases hx
          | panic =>
            refine ⟨fun h => (by cases h), ?_⟩
            rintro ⟨⟨h, _⟩, _⟩
            obtain ⟨_, e1, h⟩ := h (.inr (.inl trivial))
            cases e1
            obtain ⟨x, hx⟩ := h trivial
            rw [hs] at hx
            cases hx
        · simp only [h]
          rw [if_neg (by decide), if_neg (by decide), Res.bind_ok, ih]
          simp
      · rw [if_pos hn]
        constructor
        · intro h; cases h
        · rintro ⟨⟨h, _⟩, _⟩
          obtain ⟨n, h, _⟩ := h ht
          rw [h] at hn
          exact absurd rfl hn
    · rw [if_neg ht, Res.bind_ok, ih]
      have h1 : a.type ≠ 32 := fun h => ht (.inl h)
      have h2 : a.type ≠ 33 := fun h => ht (.inr (.inl h))
      have h3 : a.type ≠ 34 := fun h => ht (.inr (.inr h))
      simp [h1, h2, h3]

/-- C91 for H265: the codec is the one of the last array of each type; arrays of parameter sets with none or with several units, an SPS that
does not follow the syntax and missing parameter sets are refused; other arrays are ignored. -/
theorem C91_h265 (typ entry config : Bytes) (e : Spec.Records.VisualEntry) (r : Spec.Records.Hevc) (c : Codec)
    (ht : typ = fourcc 'h' 'v' 'c' '1' ∨ typ = fourcc 'h' 'e' 'v' '1') (he : Spec.Records.IsVisualEntry entry e)
    (hc : Carries config r.fields) :
    CodecReads typ entry (fourcc 'h' 'v' 'c' 'C') config c ↔
      TakenArrays r.arrays ∧ ∃ vps sps pps, Spec.Records.lastOfType 32 r.arrays = some vps ∧ Spec.Records.lastOfType 33 r.arrays = some sps ∧
        Spec.Records.lastOfType 34 r.arrays = some pps ∧ vps ≠ [] ∧ sps ≠ [] ∧ pps ≠ [] ∧ c = .h265 vps sps pps := by
  rw [taken_iff (r := { state := .waitingHvcC }) (by rcases ht with rfl | rfl <;> rfl) (by rfl)
    (fun rest => by rw [taken_visual_length he]; rcases ht with rfl | rfl <;> rfl) (fun rest => by rcases ht with rfl | rfl <;> rfl)]
  show CodecReader.readBox _ typHvcC config = _ ↔ _
  rw [init_is_hvcC]
  unfold CodecReader.readHvcC
  rw [if_neg (by simp), taken_hvcC hc, Res.bind_ok]
  rw [show (h265FindParams (r.arrays.map takenArray) >>= fun x => match x with
    | (vps, sps, pps) => CodecReader.found { state := .waitingHvcC } (.h265 vps sps pps)) = (h265FindParams (r.arrays.map takenArray) >>= fun x =>
      CodecReader.found { state := .waitingHvcC } (.h265 x.1 x.2.1 x.2.2)) from rfl, taken_bind_found]
  have key : ∀ vps sps pps, h265FindParams (r.arrays.map takenArray) = .ok (vps, sps, pps) ↔ TakenArrays r.arrays ∧
      Spec.Records.lastOfType 32 r.arrays = some vps ∧ Spec.Records.lastOfType 33 r.arrays = some sps ∧
        Spec.Records.lastOfType 34 r.arrays = some pps ∧ vps ≠ [] ∧ sps ≠ [] ∧ pps ≠ [] := by
    intro vps sps pps
    have some_of : ∀ (x : Option Bytes) (y : Bytes), y = x.getD [] → y ≠ [] → x = some y := by
      intro x y h hy
      cases x with
      | none => exact absurd h hy
      | some z => rw [h]; rfl
    unfold h265FindParams
    constructor
    · intro h
      obtain ⟨⟨v, s, p⟩, h1, h⟩ := Res.bind_eq_ok.1 h
      obtain ⟨g1, g2, g3, g4⟩ := (taken_h265Arrays _ _ _ _ _ _ _).1 h1
      dsimp only at h
      split at h
      · cases h
      split at h
      · cases h
      split at h
      · cases h
      rename_i a b c
      cases h
      rw [List.length_eq_zero_iff] at a b c
      exact ⟨g1, some_of _ _ g2 a, some_of _ _ g3 b, some_of _ _ g4 c, a, b, c⟩
    · rintro ⟨g1, g2, g3, g4, a, b, c⟩
      rw [(taken_h265Arrays r.arrays [] [] [] vps sps pps).2 ⟨g1, by rw [g2]; rfl, by rw [g3]; rfl, by rw [g4]; rfl⟩, Res.bind_ok]
      dsimp only
      rw [if_neg (by rwa [List.length_eq_zero_iff]), if_neg (by rwa [List.length_eq_zero_iff]), if_neg (by rwa [List.length_eq_zero_iff])]
  constructor
  · rintro ⟨⟨vps, sps, pps⟩, h, rfl⟩
    obtain ⟨g1, g2, g3, g4, a, b, c⟩ := (key _ _ _).1 h
    exact ⟨g1, vps, sps, pps, g2, g3, g4, a, b, c, rfl⟩
  · rintro ⟨g1, vps, sps, pps, g2, g3, g4, a, b, c, rfl⟩
    exact ⟨(vps, sps, pps), (key _ _ _).2 ⟨g1, g2, g3, g4, a, b, c⟩, rfl⟩

/-! ## Descriptors -/

theorem taken_byte : ∀ x : UInt8, pack [(1, x.toNat / 128), (7, x.toNat % 128)] = [x] := forall_u8 (by decide +kernel)

theorem taken_size_step (k : Nat) (x : UInt8) (rest : Bytes) (acc : Nat) : decodeSize (k + 1) (x :: rest) acc =
    if x.toNat < 128 then .ok (acc * 128 + x.toNat % 128, rest) else decodeSize k rest (acc * 128 + x.toNat % 128) := by
  have h := box_size_step k (x.toNat / 128) (x.toNat % 128) acc rest
  rw [taken_byte] at h
  have hx := x.toNat_lt
  rw [show x :: rest = [x] ++ rest from rfl, h]
  by_cases hl : x.toNat < 128
  · rw [if_pos hl, if_pos (by omega), Nat.mod_mod_of_dvd _ (by decide)]
  · rw [if_neg hl, if_neg (by omega), Nat.mod_mod_of_dvd _ (by decide)]

theorem taken_size_loop (pre : Bytes) (last : UInt8) (rest : Bytes) (k acc : Nat) (hp : ∀ x ∈ pre, 128 ≤ x.toNat) (hl : last.toNat < 128) :
    decodeSize (pre.length + 1 + k) (pre ++ [last] ++ rest) acc =
      .ok ((pre ++ [last]).foldl (fun a x => a * 128 + x.toNat % 128) acc, rest) := by
  induction pre generalizing acc with
  | nil =>
    rw [show ([] : Bytes).length + 1 + k = k + 1 by simp; omega]
    show decodeSize (k + 1) (last :: rest) acc = _
    rw [taken_size_step, if_pos hl]
    rfl
  | cons x pre ih =>
    rw [show (x :: pre).length + 1 + k = (pre.length + 1 + k) + 1 by simp; omega]
    show decodeSize (pre.length + 1 + k + 1) (x :: (pre ++ [last] ++ rest)) acc = _
    have := hp x (.head _)
    rw [taken_size_step, if_neg (by omega), ih _ fun x h => hp x (.tail _ h)]
    rfl

/-- A descriptor whose size has any number of bytes. -/
theorem taken_descriptor (k n : Nat) (tag : UInt8) (size body rest : Bytes) (d : Descriptor) (hs : Spec.Records.IsSize size n)
    (hd : decodeDescriptor tag.toNat n (body ++ rest) = .ok (d, rest)) :
    decodeDescriptors (k + 1) (tag :: (size ++ (body ++ rest))) = (decodeDescriptors k rest >>= fun l => .ok (d :: l)) := by
  conv => lhs; unfold decodeDescriptors
  rw [if_neg (by simp)]
  have ht : unpack [8] (tag :: (size ++ (body ++ rest))) = .ok ([tag.toNat], size ++ (body ++ rest)) := by
    have h := taken_read [8] (size ++ (body ++ rest)) (carries_bytes [tag]) (by rfl) (by simp [Spec.Records.bytes, widths])
    exact h
  rw [ht, Res.bind_ok]
  obtain ⟨pre, last, rfl, _, h2, h3, h4⟩ := hs
  have hz := taken_size_loop pre last (body ++ rest) ((body ++ rest).length + 1) 0 h2 h3
  dsimp only
  rw [show (pre ++ [last] ++ (body ++ rest)).length + 1 = pre.length + 1 + ((body ++ rest).length + 1) by
    simp only [List.length_append, List.length_singleton]; omega, hz, ← h4, Res.bind_ok]
  show (decodeDescriptor tag.toNat n (body ++ rest) >>= _) = _
  rw [hd, Res.bind_ok]

theorem taken_size_pos {b : Bytes} {n : Nat} (h : Spec.Records.IsSize b n) : 0 < b.length := by
  obtain ⟨pre, last, rfl, _⟩ := h
  simp

/-- The descriptors of `esds`. -/
theorem taken_esds {config : Bytes} {r : Spec.Records.Esds} (h : Spec.Records.IsEsds config r) :
    decodeEsds config = .ok ([.es, .decoderConf r.objectType] ++ ((match r.info with | none => [] | some i => [.data 5 i]) ++ [.data 6 [2]])) := by
  obtain ⟨head, conf, info, dc, sl, es, h1, h2, h3, ⟨s4, z4, rfl⟩, ⟨s6, z6, rfl⟩, ⟨s3, z3, rfl⟩, rfl⟩ := h
  unfold decodeEsds
  rw [taken_read (fs := [(8, 0), (24, 0)]) _ _ ⟨by record_fits, by decide +kernel⟩ (by rfl) (by record_whole), Res.bind_ok]
  dsimp only
  have e3 : ∀ rest n, decodeDescriptor 3 n (head ++ rest) = .ok (.es, rest) := by
    intro rest n
    unfold decodeDescriptor decodeES
    rw [if_pos rfl, taken_read _ _ h1 (by rfl) (by record_whole), Res.bind_ok]
    show (skipES 0 0 0 rest >>= _) = _
    rw [box_skipES, Res.bind_ok]
  have e4 : ∀ rest n, decodeDescriptor 4 n (conf ++ rest) = .ok (.decoderConf r.objectType, rest) := by
    intro rest n
    unfold decodeDescriptor
    rw [if_neg (by decide), if_pos rfl, taken_read _ _ h2 (by rfl) (by record_whole), Res.bind_ok]
    rfl
  have e6 : decodeDescriptor 6 1 ([2] ++ []) = .ok (.data 6 [2], []) := box_data 6 [2] [] (by decide) (by decide)
  have hz6 := taken_size_pos z6
  have hz4 := taken_size_pos z4
  cases hi : r.info with
  | none =>
    rw [hi] at h3
    obtain rfl : info = [] := h3
    generalize hk : List.length _ = k
    have hk3 : 3 ≤ k := by
      rw [← hk]; simp only [List.length_append, List.length_cons]; omega
    obtain ⟨j, rfl⟩ := Nat.exists_eq_add_of_le hk3
    rw [show 3 + j = (j + 1 + 1) + 1 by omega, taken_descriptor (j + 1 + 1) _ 3 s3 head _ .es z3 (e3 _ _)]
    have g4 := taken_descriptor (j + 1) _ 4 s4 conf (6 :: (s6 ++ ([2] ++ []))) _ z4 (e4 _ _)
    have g6 := taken_descriptor j 1 6 s6 [2] [] _ z6 e6
    rw [List.append_nil] at g6
    rw [List.append_nil, List.cons_append, List.append_assoc, show s6 ++ [2] = s6 ++ ([2] ++ []) by simp, g4]
    rw [show s6 ++ ([2] ++ []) = s6 ++ [2] by simp, g6, show decodeDescriptors j [] = .ok [] by cases j <;> rfl]
    rfl
  | some i =>
    rw [hi] at h3
    obtain ⟨s5, z5, rfl⟩ : Spec.Records.IsDescriptor 5 i info := h3
    have hz5 := taken_size_pos z5
    have e5 : ∀ rest, decodeDescriptor 5 i.length (i ++ rest) = .ok (.data 5 i, rest) := fun rest => box_data 5 i rest (by decide) (by decide)
    generalize hk : List.length _ = k
    have hk3 : 4 ≤ k := by
      rw [← hk]; simp only [List.length_append, List.length_cons]; omega
    obtain ⟨j, rfl⟩ := Nat.exists_eq_add_of_le hk3
    rw [show 4 + j = (j + 1 + 1 + 1) + 1 by omega, taken_descriptor (j + 1 + 1 + 1) _ 3 s3 head _ .es z3 (e3 _ _)]
    have g4 := taken_descriptor (j + 1 + 1) _ 4 s4 conf (5 :: (s5 ++ (i ++ (6 :: (s6 ++ ([2] ++ [])))))) _ z4 (e4 _ _)
    have g5 := taken_descriptor (j + 1) _ 5 s5 i (6 :: (s6 ++ ([2] ++ []))) _ z5 (e5 _)
    have g6 := taken_descriptor j 1 6 s6 [2] [] _ z6 e6
    rw [List.cons_append, List.append_assoc, List.append_assoc, List.cons_append, List.append_assoc,
      show s6 ++ [2] = s6 ++ ([2] ++ []) by simp, g4, g5, g6, show decodeDescriptors j [] = .ok [] by cases j <;> rfl]
    rfl

theorem taken_conf (r : Spec.Records.Esds) : esdsFindDecoderConf ([.es, .decoderConf r.objectType] ++
    ((match r.info with | none => [] | some i => [.data 5 i]) ++ [.data 6 [2]])) = some r.objectType := rfl

theorem taken_info (r : Spec.Records.Esds) : esdsFindDecoderSpecificInfo ([.es, .decoderConf r.objectType] ++
    ((match r.info with | none => [] | some i => [.data 5 i]) ++ [.data 6 [2]])) = r.info.getD [] := by
  cases r.info <;> rfl

theorem taken_info_iff (x : Option Bytes) (P : Bytes → Prop) : (∃ i, x = some i ∧ i ≠ [] ∧ P i) ↔ x.getD [] ≠ [] ∧ P (x.getD []) := by
  cases x with
  | none => simp
  | some i => simp

/-- C91 for `mp4v`: MPEG-4 video and the main profile of MPEG-2 video with decoder specific information, and JPEG with a size. Everything else
is refused. -/
theorem C91_mp4v (entry config : Bytes) (e : Spec.Records.VisualEntry) (r : Spec.Records.Esds) (c : Codec)
    (he : Spec.Records.IsVisualEntry entry e) (hc : Spec.Records.IsEsds config r) :
    CodecReads (fourcc 'm' 'p' '4' 'v') entry (fourcc 'e' 's' 'd' 's') config c ↔
      (r.objectType = 0x20 ∧ ∃ i, r.info = some i ∧ i ≠ [] ∧ c = .mpeg4Video i) ∨
      (r.objectType = 0x61 ∧ ∃ i, r.info = some i ∧ i ≠ [] ∧ c = .mpeg1Video i) ∨
      (r.objectType = 0x6C ∧ e.width ≠ 0 ∧ e.height ≠ 0 ∧ c = .mjpeg e.width e.height) := by
  rw [taken_iff (r := { width := e.width, height := e.height, state := .waitingVideoEsds }) (by rfl) (by rfl)
      (fun rest => by rw [taken_visual_length he]; rfl) (fun rest => by
        show ({} : CodecReader).enterMp4v (entry ++ rest) = _
        unfold CodecReader.enterMp4v
        rw [if_neg (by simp), taken_visual he, Res.bind_ok])]
  show CodecReader.readBox _ typEsds config = _ ↔ _
  rw [init_is_esds]
  unfold CodecReader.readEsds
  rw [taken_esds hc, Res.bind_ok, taken_conf, taken_info]
  dsimp only
  unfold CodecReader.videoEsds
  rw [taken_info_iff, taken_info_iff]
  generalize r.info.getD [] = i
  by_cases h1 : r.objectType = 0x20
  · rw [if_pos h1]
    by_cases hi : i = []
    · subst hi; simp [h1, CodecReader.found]
    · rw [if_neg (by rwa [List.length_eq_zero_iff]), taken_found]
      simp [h1, hi, eq_comm]
  rw [if_neg h1]
  by_cases h2 : r.objectType = 0x61
  · rw [if_pos h2]
    by_cases hi : i = []
    · subst hi; simp [h2, CodecReader.found]
    · rw [if_neg (by rwa [List.length_eq_zero_iff]), taken_found]
      simp [h2, hi, eq_comm]
  rw [if_neg h2]
  by_cases h3 : r.objectType = 0x6C
  · rw [if_pos h3]
    by_cases hz : e.width = 0 ∨ e.height = 0
    · rw [if_pos hz]
      simp [h3, CodecReader.found]
      omega
    · rw [if_neg hz, taken_found]
      constructor
      · rintro rfl
        exact .inr (.inr ⟨h3, by omega, by omega, rfl⟩)
      · rintro (⟨h, _⟩ | ⟨h, _⟩ | ⟨_, _, _, h⟩)
        · omega
        · omega
        · exact h.symm
  rw [if_neg h3]
  simp [h1, h2, h3, CodecReader.found]

/-- C91 for `mp4a`: MPEG-4 audio with a configuration that follows the syntax, and MPEG-1 audio with the rate and the number of channels of
the sample entry. Everything else is refused. -/
theorem C91_mp4a (entry config : Bytes) (e : Spec.Records.AudioEntry) (r : Spec.Records.Esds) (c : Codec)
    (he : Spec.Records.IsAudioEntry entry e) (hc : Spec.Records.IsEsds config r) :
    CodecReads (fourcc 'm' 'p' '4' 'a') entry (fourcc 'e' 's' 'd' 's') config c ↔
      (r.objectType = 0x40 ∧ ∃ i, r.info = some i ∧ i ≠ [] ∧ ∃ asc, MPEG4Audio.ASC.unmarshal i = .ok asc ∧ c = .mpeg4Audio asc) ∨
      (r.objectType = 0x6B ∧ c = .mpeg1Audio e.rate e.channels) := by
  rw [taken_iff (r := { state := .waitingAudioEsds, sampleRate := e.rate, channelCount := e.channels }) (by rfl) (by rfl)
    (fun rest => by rw [taken_audio_length he]; rfl) (by exact fun rest => taken_enterAudio he .waitingAudioEsds rest)]
  show CodecReader.readBox _ typEsds config = _ ↔ _
  rw [init_is_esds]
  unfold CodecReader.readEsds
  rw [taken_esds hc, Res.bind_ok, taken_conf, taken_info]
  dsimp only
  unfold CodecReader.audioEsds
  rw [taken_info_iff]
  generalize r.info.getD [] = i
  by_cases h1 : r.objectType = 0x40
  · rw [if_pos h1]
    by_cases hi : i = []
    · subst hi; simp [h1, CodecReader.found]
    · rw [if_neg (by rwa [List.length_eq_zero_iff]), taken_bind_found]
      simp only [taken_orError, h1, true_and]
      constructor
      · rintro ⟨asc, h, rfl⟩
        exact .inl ⟨hi, asc, h, rfl⟩
      · rintro (⟨_, asc, h, rfl⟩ | ⟨h, _⟩)
        · exact ⟨asc, h, rfl⟩
        · cases h
  rw [if_neg h1]
  by_cases h2 : r.objectType = 0x6B
  · rw [if_pos h2, taken_found]
    simp [h2, eq_comm]
  rw [if_neg h2]
  simp [h1, h2, CodecReader.found]

end Verif.Props
