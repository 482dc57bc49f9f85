import Verif.Props.AV1
import Verif.Props.MuxElement
import Verif.Props.TSMetadata
import Verif.Props.FlacOpus
import Verif.Props.H264
import Verif.Props.JPEG

/-!
# C98: what was decoded can be encoded again, and is then decoded to the same

Most of the fuzz tests of the repository decode random bytes and require that whatever was decoded can be encoded. The theorems state this
for all bytes, and that the encoding is decoded to the same value.
-/

namespace Verif.Props
open Verif.Spec

/-! ## AV1 -/

/-- C98, FuzzLEB128Unmarshal. -/
theorem C98_leb128 (buf : Bytes) (v n : Nat) (h : AV1.leb128Unmarshal buf = .ok (v, n)) :
    ∃ enc, AV1.leb128MarshalTo (makeBytes (AV1.leb128Size v)) 0 v = .ok (enc, AV1.leb128Size v) ∧
      AV1.leb128Unmarshal enc = .ok (v, AV1.leb128Size v) := by
  have hv : v < 2 ^ 32 := by rw [(C16_leb128_consumed buf v n h).2.2.2.1]; exact Nat.mod_lt _ (by omega)
  obtain ⟨enc, h1, -, h3⟩ := C15_leb128_roundtrip v hv []
  exact ⟨enc, h1, by rw [← h3, List.append_nil]⟩

theorem again_obu {buf : Bytes} {obus : List Bytes} (h : IsObuStream buf obus) : ∀ obu ∈ obus, AV1.ValidObu obu := by
  induction h with
  | nil => intro _ h; cases h
  | cons hr _ ih =>
    intro obu ho
    rcases List.mem_cons.1 ho with rfl | ho
    · obtain ⟨b, pre, last, payload, h1, h2, h3, -, h5, -, rfl⟩ := hr
      have hb := b.toNat_lt
      have e : (UInt8.ofNat (b.toNat - 2)).toNat = b.toNat - 2 := by rw [UInt8.toNat_ofNat']; omega
      refine ⟨_, payload, rfl, by rw [e]; omega, by rw [e]; omega, by rw [e]; omega, ?_⟩
      rw [← h5]; exact Nat.mod_lt _ (by omega)
    · exact ih obu ho

/-- C98, FuzzBitstreamUnmarshal. -/
theorem C98_av1 (buf : Bytes) (tu : List Bytes) (h : AV1.bitstreamUnmarshal buf = .ok tu) :
    tu ≠ [] ∧ (∀ obu ∈ tu, obu ≠ []) ∧ ∃ enc, AV1.bitstreamMarshal tu = .ok enc ∧ AV1.bitstreamUnmarshal enc = .ok tu := by
  obtain ⟨h1, h2⟩ := (C18_bitstream_accepts_iff buf tu).1 h
  have hv := again_obu h2
  refine ⟨h1, fun obu ho => ?_, Res.bind_eq_ok.1 (C17_bitstream_roundtrip tu h1 hv)⟩
  obtain ⟨b, p, e, -⟩ := hv obu ho
  rw [e]; exact List.cons_ne_nil _ _

/-! ## H264 -/

/-- C98, FuzzAnnexBUnmarshal. -/
theorem C98_annexb (buf : Bytes) (au : List Bytes) (h : H264.annexbUnmarshal buf = .ok au) :
    au ≠ [] ∧ (∀ nalu ∈ au, nalu ≠ []) ∧ ∃ enc, H264.annexbMarshal au = .ok enc ∧ H264.annexbUnmarshal enc = .ok au := by
  obtain ⟨-, h1, h2, h3, h4⟩ := (C09_annexb_sound buf).2 au h
  exact ⟨by rintro rfl; simp at h1, fun n hn => (h4 n hn).1,
    Res.bind_eq_ok.1 (C08_annexb_roundtrip au h1 h2 (fun n hn => ⟨(h4 n hn).1, (h4 n hn).2.1⟩) h3)⟩

/-- C98, FuzzAVCCUnmarshal. -/
theorem C98_avcc (buf : Bytes) (au : List Bytes) (h : H264.avccUnmarshal buf = .ok au) :
    au ≠ [] ∧ (∀ nalu ∈ au, nalu ≠ []) ∧ ∃ enc, H264.avccMarshal au = .ok enc ∧ H264.avccUnmarshal enc = .ok au := by
  obtain ⟨h1, h2, h3, h4⟩ := C07_avcc_bounds buf au h
  exact ⟨by rintro rfl; simp at h1, h3, Res.bind_eq_ok.1 (C06_avcc_roundtrip au h1 h2 h3 h4)⟩

/-! ## MPEG-4 audio -/

theorem again_adts (p : MPEG4Audio.ADTSPacket) (b : Bytes) (h : IsAdtsFrame p b) :
    1 ≤ p.type ∧ p.type ≤ 4 ∧ (∃ i, rateOfIndex i = some p.sampleRate) ∧ p.channelConfig.toNat < 8 ∧
      p.channelCount = channelsOfConfig p.channelConfig.toNat ∧ 1 ≤ p.au.length ∧ p.au.length ≤ 5120 := by
  obtain ⟨-, i, -, hi, -⟩ := h.layout
  exact ⟨h.type.1, h.type.2, ⟨i, hi⟩, h.config, h.count, h.nonempty, h.size⟩

theorem again_tiles {α : Type} {P : α → Bytes → Prop} {Q : α → Prop} (hq : ∀ a b, P a b → Q a) :
    ∀ (l : List α) (b : Bytes), Tiles P l b → ∀ a ∈ l, Q a := by
  intro l
  induction l with
  | nil => intro _ _ _ h; cases h
  | cons a l ih =>
    rintro b ⟨x, y, -, h1, h2⟩ c hc
    rcases List.mem_cons.1 hc with rfl | hc
    · exact hq _ _ h1
    · exact ih y h2 c hc

/-- C98, FuzzADTSUnmarshal. -/
theorem C98_adts (buf : Bytes) (ps : List MPEG4Audio.ADTSPacket) (h : MPEG4Audio.ADTSPackets.unmarshal buf = .ok ps) :
    ps ≠ [] ∧ ∃ enc, MPEG4Audio.ADTSPackets.marshal ps = .ok enc ∧ MPEG4Audio.ADTSPackets.unmarshal enc = .ok ps := by
  obtain ⟨h1, h2⟩ := (C20_decode buf ps).1 h
  exact ⟨h1, Res.bind_eq_ok.1 (C19_round_trip ps h1 (again_tiles again_adts ps buf h2))⟩

/-- C98, FuzzAudioSyncStreamUnmarshal. -/
theorem C98_sync_stream (buf : Bytes) (els : List Bytes) (h : MPEG4Audio.AudioSyncStream.unmarshal buf = .ok els) :
    els ≠ [] ∧ ∃ enc, MPEG4Audio.AudioSyncStream.marshal els = .ok enc ∧ MPEG4Audio.AudioSyncStream.unmarshal enc = .ok els := by
  obtain ⟨h1, h2⟩ := (C21_decode buf els).1 h
  exact ⟨h1, Res.bind_eq_ok.1 (C21_round_trip els h1 (again_tiles (fun _ _ h => h.1) els buf h2))⟩

theorem again_rate {r : Nat} {b : List Bool} (h : IsRate r b) : r < 2 ^ 24 := by
  rcases h with ⟨i, h, -⟩ | ⟨h, -⟩
  · unfold rateOfIndex at h
    split at h <;> simp at h <;> omega
  · exact h

theorem again_asc {c : MPEG4Audio.ASC} {b : List Bool} (h : IsASC c b) :
    ASCValid c ∧ c.channelConfig ≤ 7 ∧ c.channelCount = channelsOfConfig c.channelConfig := by
  refine ⟨?_, h.config, h.count⟩
  obtain ⟨rb, h1, h2⟩ := h.layout
  have h7 := h.config
  have hc : c.channelCount ≤ 6 ∨ c.channelCount = 8 := by
    rw [h.count]; unfold channelsOfConfig; split <;> omega
  rcases h2 with ⟨e1, e2, -⟩ | ⟨e1, eb, e2, -⟩
  · exact ⟨h.type, again_rate h1, hc, fun _ => h7, .inl e1, by omega, fun _ => e2, h.delay, h.noDelay⟩
  · exact ⟨h.type, again_rate h1, hc, fun _ => h7, .inr e1, again_rate e2, fun e => by omega, h.delay, h.noDelay⟩

/-- C98, FuzzAudioSpecificConfigUnmarshal. -/
theorem C98_asc (buf : Bytes) (c : MPEG4Audio.ASC) (h : MPEG4Audio.ASC.unmarshal buf = .ok c) :
    ∃ enc, c.marshal = .ok enc ∧ MPEG4Audio.ASC.unmarshal enc = .ok c := by
  obtain ⟨bits, rest, h1, -⟩ := (C22_decode buf c).1 h
  obtain ⟨g1, g2, g3⟩ := again_asc h1
  exact Res.bind_eq_ok.1 (C22_round_trip c g1 g2 g3)

/-- The layers that are decoded. -/
def AgainLayer (l : MPEG4Audio.Layer) : Prop := ∀ a ∈ l.asc, a.channelConfig ≤ 7 ∧ a.channelCount = channelsOfConfig a.channelConfig

theorem again_head {first : Bool} {asc : Option MPEG4Audio.ASC} {b : List Bool} (h : IsLayerHead first asc b) :
    (first = true → asc ≠ none) ∧ (∀ c ∈ asc, ASCValid c) ∧ ∀ a ∈ asc, a.channelConfig ≤ 7 ∧ a.channelCount = channelsOfConfig a.channelConfig := by
  obtain ⟨h1, x, h2, -⟩ := h
  refine ⟨h1, fun c hc => ?_, fun c hc => ?_⟩
  all_goals
    rw [Option.mem_def.1 hc] at h2
  · exact (again_asc h2).1
  · exact (again_asc h2).2

theorem again_layer {first : Bool} {l : MPEG4Audio.Layer} {b : List Bool} (h : IsLayer first l b) : LayerValid first l ∧ AgainLayer l := by
  obtain ⟨h1, hb, h2, -⟩ := h
  obtain ⟨g1, g2, g3⟩ := again_head h2
  exact ⟨⟨h1, g1, g2⟩, g3⟩

theorem again_cutLayer {first : Bool} {l : MPEG4Audio.Layer} {b : List Bool} (h : IsCutLayer first l b) : LayerValid first l ∧ AgainLayer l := by
  obtain ⟨h1, h2⟩ := h
  obtain ⟨g1, g2, g3⟩ := again_head h2
  refine ⟨⟨?_, g1, g2⟩, g3⟩
  rw [h1]
  constructor <;> simp

theorem again_layers : ∀ {first : Bool} {ls : List MPEG4Audio.Layer} {b : List Bool}, IsLayers first ls b →
    LayersValid first ls ∧ ∀ l ∈ ls, AgainLayer l := by
  intro first ls
  induction ls generalizing first with
  | nil => intro _ _; exact ⟨trivial, fun _ h => by cases h⟩
  | cons l ls ih =>
    rintro _ ⟨a, b, h1, h2, -⟩
    obtain ⟨g1, g2⟩ := again_layer h1
    obtain ⟨g3, g4⟩ := ih h2
    refine ⟨⟨g1, g3⟩, fun x hx => ?_⟩
    rcases List.mem_cons.1 hx with rfl | hx
    · exact g2
    · exact g4 x hx

theorem again_cutLayers : ∀ {first : Bool} {ls : List MPEG4Audio.Layer} {b : List Bool}, IsCutLayers first ls b →
    1 ≤ ls.length ∧ LayersValid first ls ∧ ∀ l ∈ ls, AgainLayer l := by
  intro first ls
  induction ls generalizing first with
  | nil => intro _ h; exact h.elim
  | cons l ls ih =>
    rintro _ (⟨rfl, h⟩ | ⟨a, b, h1, h2, -⟩)
    · obtain ⟨g1, g2⟩ := again_cutLayer h
      exact ⟨by simp, ⟨g1, trivial⟩, fun x hx => by rw [List.mem_singleton.1 hx]; exact g2⟩
    · obtain ⟨g1, g2⟩ := again_layer h1
      obtain ⟨-, g3, g4⟩ := ih h2
      refine ⟨by simp, ⟨g1, g3⟩, fun x hx => ?_⟩
      rcases List.mem_cons.1 hx with rfl | hx
      · exact g2
      · exact g4 x hx

theorem again_programs : ∀ {first : Bool} {ps : List (List MPEG4Audio.Layer)} {b : List Bool}, IsPrograms first ps b →
    ProgramsValid first ps ∧ ∀ p ∈ ps, ∀ l ∈ p, AgainLayer l := by
  intro first ps
  induction ps generalizing first with
  | nil => intro _ _; exact ⟨trivial, fun _ h => by cases h⟩
  | cons p ps ih =>
    rintro _ ⟨a, b, ⟨h1, h2, _, h3, -⟩, h4, -⟩
    obtain ⟨g1, g2⟩ := again_layers h3
    obtain ⟨g3, g4⟩ := ih h4
    refine ⟨⟨⟨h1, h2, g1⟩, g3⟩, fun x hx => ?_⟩
    rcases List.mem_cons.1 hx with rfl | hx
    · exact g2
    · exact g4 x hx

theorem again_cutPrograms : ∀ {first : Bool} {ps : List (List MPEG4Audio.Layer)} {b : List Bool}, IsCutPrograms first ps b →
    1 ≤ ps.length ∧ ProgramsValid first ps ∧ ∀ p ∈ ps, ∀ l ∈ p, AgainLayer l := by
  intro first ps
  induction ps generalizing first with
  | nil => intro _ h; exact h.elim
  | cons p ps ih =>
    rintro _ (⟨rfl, n, _, h1, h2, h3, h4, -⟩ | ⟨a, b, ⟨h1, h2, _, h3, -⟩, h4, -⟩)
    · obtain ⟨g0, g1, g2⟩ := again_cutLayers h4
      exact ⟨by simp, ⟨⟨g0, by omega, g1⟩, trivial⟩, fun x hx => by rw [List.mem_singleton.1 hx]; exact g2⟩
    · obtain ⟨g1, g2⟩ := again_layers h3
      obtain ⟨-, g3, g4⟩ := ih h4
      refine ⟨by simp, ⟨⟨h1, h2, g1⟩, g3⟩, fun x hx => ?_⟩
      rcases List.mem_cons.1 hx with rfl | hx
      · exact g2
      · exact g4 x hx

theorem again_other {v : Nat} {b : List Bool} (h : IsOtherData v b) : v < 2 ^ 32 := by
  obtain ⟨ds, d, e, -⟩ := h
  rw [e]; exact Nat.mod_lt _ (by omega)

theorem again_mux {c : MPEG4Audio.StreamMuxConfig} {b : List Bool} (h : IsMux c b) : MuxValid c ∧ ∀ p ∈ c.programs, ∀ l ∈ p, AgainLayer l := by
  obtain ⟨h1, h2, h3, pb, tb, h4, ⟨h5, h6, h7, ob, h8, -⟩, -⟩ := h
  obtain ⟨g1, g2⟩ := again_programs h4
  refine ⟨⟨h1, ⟨h2, h3, g1⟩, ?_, h6, h5, h7⟩, g2⟩
  cases e : c.otherDataPresent with
  | false => rw [h6 e]; omega
  | true => rw [e, if_pos rfl] at h8; exact again_other h8

theorem again_cutMux {c : MPEG4Audio.StreamMuxConfig} {b : List Bool} (h : IsCutMux c b) :
    MuxValid c ∧ ∀ p ∈ c.programs, ∀ l ∈ p, AgainLayer l := by
  obtain ⟨h1, h2, n, pb, h3, h4, h5, h6, -⟩ := h
  obtain ⟨g0, g1, g2⟩ := again_cutPrograms h6
  have e1 : c.otherDataLenBits = 0 := by rw [h1]
  have e2 : c.crcCheckSum = 0 := by rw [h1]
  exact ⟨⟨h2, ⟨g0, by omega, g1⟩, by omega, fun _ => e1, by omega, fun _ => e2⟩, g2⟩

/-- C98, FuzzStreamMuxConfigUnmarshal. -/
theorem C98_stream_mux (buf : Bytes) (c : MPEG4Audio.StreamMuxConfig) (h : MPEG4Audio.StreamMuxConfig.unmarshal buf = .ok c) :
    ∃ enc, c.marshal = .ok enc ∧ MPEG4Audio.StreamMuxConfig.unmarshal enc = .ok c := by
  obtain ⟨bits, rest, -, ⟨h1, -⟩ | ⟨h1, -⟩⟩ := (C24_decode buf c).1 h
  · obtain ⟨g1, g2⟩ := again_mux h1
    exact Res.bind_eq_ok.1 (C24_round_trip c g1 g2)
  · obtain ⟨g1, g2⟩ := again_cutMux h1
    exact Res.bind_eq_ok.1 (C24_round_trip c g1 g2)

theorem again_normal {c : MPEG4Audio.StreamMuxConfig} (h : ∀ p ∈ c.programs, ∀ l ∈ p, AgainLayer l) : muxNormal c = c := by
  have hl : ∀ l, AgainLayer l → layerNormal l = l := by
    intro l hl
    unfold layerNormal
    cases e : l.asc with
    | none => rw [Option.map_none, ← e]
    | some a =>
      obtain ⟨g1, g2⟩ := hl a e
      have : ascNormal a = a := by
        unfold ascNormal
        rcases a with ⟨t, r, cfg, cnt, _, _, _, _, _⟩
        simp only at g1 g2 ⊢
        subst g2
        unfold channelsOfConfig
        by_cases h7 : cfg = 7
        · subst h7; simp
        · rw [if_neg h7]
          split
          · next h => simp [h]
          · rw [if_neg (by omega)]
      rw [Option.map_some, this, ← e]
  unfold muxNormal
  have : c.programs.map (·.map layerNormal) = c.programs := by
    conv => rhs; rw [← List.map_id c.programs]
    refine List.map_congr_left fun p hp => ?_
    conv => rhs; rw [id, ← List.map_id p]
    exact List.map_congr_left fun l hl' => hl l (h p hp l hl')
  rw [this]

/-- C98, FuzzAudioMuxElementUnmarshal, for every configuration that the decoder may have been given. -/
theorem C98_mux_element (present : Bool) (given : Option MPEG4Audio.StreamMuxConfig) (buf : Bytes) (e : MPEG4Audio.MuxElement)
    (h : MPEG4Audio.MuxElement.unmarshal present given buf = .ok e) :
    ∃ enc, e.marshal present = .ok enc ∧ MPEG4Audio.MuxElement.unmarshal present given enc = .ok e := by
  obtain ⟨bits, rest, -, -, c, hb, h1, h2, h3, h4, h5, h6, -⟩ := (C54_decode present given buf e).1 h
  unfold IsElementHead at h2
  have key : (present = true → e.useSameStreamMux = false → MuxValid c ∧ muxNormal c = c) ∧
      (present = false → e.useSameStreamMux = false) ∧ (present = false ∨ e.useSameStreamMux = true → given = some c) := by
    cases present with
    | false => rw [if_neg (by simp)] at h2; exact ⟨fun h => (by cases h), fun _ => h2.1, fun _ => h2.2.1⟩
    | true =>
      rw [if_pos rfl] at h2
      rcases h2 with ⟨g1, g2, -⟩ | ⟨g1, mb, g2, -⟩
      · exact ⟨fun _ hh => (by rw [g1] at hh; cases hh), fun hh => (by cases hh), fun _ => g2⟩
      · obtain ⟨k1, k2⟩ := again_mux g2
        exact ⟨fun _ _ => ⟨k1, again_normal k2⟩, fun hh => (by cases hh), fun hh => (by rw [g1] at hh; simp at hh)⟩
  obtain ⟨k1, k2, k3⟩ := key
  have hr := C54_round_trip present e c ⟨h1, k2, fun a b => (k1 a b).1, h3, h4, h5, h6⟩ given k3
  have hc : elementConfig present e c = c := by
    unfold elementConfig
    split
    · next hh =>
      simp only [Bool.and_eq_true, Bool.not_eq_true'] at hh
      exact (k1 hh.1 hh.2).2
    · rfl
  rw [hc, ← h1] at hr
  exact Res.bind_eq_ok.1 hr

/-! ## FLAC, Opus, JPEG -/

/-- C98, FuzzStreamInfoUnmarshal. -/
theorem C98_flac (buf : Bytes) (s : Flac.StreamInfo) (h : Flac.unmarshal buf = .ok s) : Flac.unmarshal (Flac.marshal s) = .ok s := by
  by_cases hl : buf.length < 34
  · rw [(C29_decode buf).1 hl] at h; cases h
  · obtain ⟨s', h1, h2, -⟩ := (C29_decode buf).2 (by omega)
    rw [h1] at h
    injection h with h
    subst h
    have := C29_round_trip s' h2 []
    rwa [List.append_nil] at this

/-- C98, FuzzIDHeaderUnmarshal: the encoding is the input itself. -/
theorem C98_opus_id (buf : Bytes) (h : Opus.IDHeader) (e : Opus.IDHeader.unmarshal buf = .ok h) :
    h.marshal = buf ∧ Opus.IDHeader.unmarshal h.marshal = .ok h := by
  obtain ⟨-, -, h3⟩ := (C26_decode buf).1 h e
  exact ⟨h3, by rw [h3, e]⟩

/-- C98: quantization tables; up to 1008 of them fit in a segment. -/
theorem C98_jpeg_tables (buf : Bytes) (tables : List JPEG.QuantizationTable) (h : JPEG.dqtUnmarshal buf [] = .ok tables) :
    buf.length = 65 * tables.length ∧ (tables.length ≤ 1008 → (JPEG.dqtMarshal tables).drop 4 = buf ∧ IsSegment 0xDB buf (JPEG.dqtMarshal tables)) := by
  obtain ⟨ts, h1, h2, h3⟩ := (C33_dqt_sound buf []).2 tables h
  rw [List.nil_append] at h1
  subst h1
  refine ⟨by rw [h3, dqtBody_length _ h2], fun hn => ?_⟩
  have hs := C33_dqt_segment tables h2 hn
  rw [← h3] at hs
  refine ⟨?_, hs⟩
  obtain ⟨a, b, e, -⟩ := hs
  rw [e]; rfl

/-- C98: start of frame. -/
theorem C98_jpeg_frame (buf : Bytes) (m : JPEG.StartOfFrame1) (h : JPEG.sofUnmarshal buf = .ok m) :
    JPEG.sofUnmarshal ((JPEG.sofMarshal m).drop 4) = .ok { m with quantizationTableCount := 0 } := by
  obtain ⟨-, h2, h3, h4, -⟩ := (C33_sof_sound buf).2 m h
  exact C33_sof_round_trip m h2 h3 h4

/-! ## MPEG-TS -/

/-- C98, FuzzMetadataDescriptor. -/
theorem C98_metadata (buf : Bytes) (d : TSMetadata.Descriptor) (h : TSMetadata.Descriptor.unmarshal buf = .ok d) :
    ∃ enc, d.marshal = .ok enc ∧ TSMetadata.Descriptor.unmarshal enc = .ok d :=
  Res.bind_eq_ok.1 (C42_descriptor_round_trip d ((C42_descriptor_sound buf).2 d h).1)

/-- C98, FuzzMetadataSTDDescriptor. -/
theorem C98_metadata_std (buf : Bytes) (d : TSMetadata.STDDescriptor) (h : TSMetadata.STDDescriptor.unmarshal buf = .ok d) :
    ∃ enc, d.marshal = .ok enc ∧ TSMetadata.STDDescriptor.unmarshal enc = .ok d :=
  Res.bind_eq_ok.1 (C42_std_round_trip d ((C42_std_decode buf d).1 h).1)

/-- C98, FuzzMetadataAUCell. -/
theorem C98_metadata_cell (buf : Bytes) (c : TSMetadata.AUCell) (n : Nat) (h : TSMetadata.AUCell.unmarshal buf 0 = .ok (c, n)) :
    ∃ enc, c.marshal = .ok enc ∧ TSMetadata.AUCell.unmarshal enc 0 = .ok (c, enc.length) := by
  obtain ⟨bs, post, -, -, h1, -⟩ := (C42_cell_sound.run buf).2 c n h
  obtain ⟨enc, h2, h3⟩ := C42_cell_round_trip c [] h1
  exact ⟨enc, h2, by rwa [List.append_nil] at h3⟩

/-- An extension that has only zeros. -/
theorem again_ext (size : Nat) (start stop : Option Nat) (ext : Option Bytes) (h : TrimsFit start stop ext) :
    TrimsFit start stop (ext.map fun b => List.replicate b.length 0) ∧
      headerOf size start stop (ext.map fun b => List.replicate b.length 0) = headerOf size start stop ext ∧
      ∀ b ∈ ext.map (fun b => List.replicate b.length (0 : UInt8)), b = List.replicate b.length 0 := by
  obtain ⟨h1, h2, h3⟩ := h
  cases ext with
  | none => exact ⟨⟨h1, h2, fun _ h => by cases h⟩, rfl, fun _ h => by cases h⟩
  | some x =>
    have hx := h3 x rfl
    refine ⟨⟨h1, h2, fun b hb => ?_⟩, ?_, fun b hb => ?_⟩
    · rw [Option.map_some, Option.mem_some] at hb; rw [← hb]; simpa using hx
    · unfold headerOf; simp
    · rw [Option.map_some, Option.mem_some] at hb; rw [← hb]; simp

/-- C98, FuzzOpusControlHeaderUnmarshal. -/
theorem C98_opus_header (buf : Bytes) (h : TSOpus.ControlHeader) (pos : Nat) (e : TSOpus.ControlHeader.unmarshal buf 0 = .ok (h, pos)) :
    ∃ enc, h.marshalTo (makeBytes h.marshalSize) 0 = .ok (enc, enc.length) ∧ enc.length = h.marshalSize ∧
      TSOpus.ControlHeader.unmarshal enc 0 = .ok (h, 8 * enc.length) := by
  obtain ⟨bits, ⟨size, start, stop, ext, r, r1, r2, h1, rfl, -⟩, -⟩ := (C40_header_sound.run buf).2 h pos e
  obtain ⟨g1, g2, g3⟩ := again_ext size start stop ext h1
  rw [← g2]
  generalize ext.map (fun b => List.replicate b.length (0 : UInt8)) = z at *
  have hl := hdrBytes_length size start stop z
  refine ⟨hdrBytes size start stop z, ?_, hl, ?_⟩
  · rw [(hdr_puts size start stop z).run _ (by omega), hl]; simp
  · have hb := hdrBytes_bits size start stop z g1 g3
    have := (C40_header_complete size start stop z 0 0 0 g1).run (buf := hdrBytes size start stop z) (rest := []) (by rw [hb, List.append_nil])
    rw [this, ← hb, length_bitsOf]

/-- C98, FuzzOpusAccessUnitUnmarshal. -/
theorem C98_opus_unit (buf : Bytes) (au : TSOpus.AccessUnit) (n : Nat) (e : TSOpus.AccessUnit.unmarshal buf = .ok (au, n)) :
    ∃ enc, au.marshalTo (makeBytes au.marshalSize) 0 = .ok (enc, enc.length) ∧ enc.length = au.marshalSize ∧
      TSOpus.AccessUnit.unmarshal enc = .ok (au, enc.length) := by
  obtain ⟨start, stop, ext, r, r1, r2, hdr, rest, h1, h2, -⟩ := (C40_decode_sound buf).2 au n e
  obtain ⟨g1, g2, g3⟩ := again_ext au.packet.length start stop ext h1
  have ha : au = ⟨headerOf au.packet.length start stop (ext.map fun b => List.replicate b.length 0), au.packet⟩ := by rw [g2, ← h2]
  obtain ⟨enc, k1, k2, k3⟩ := C40_round_trip start stop _ au.packet [] g1 g3
  rw [← ha, List.append_nil] at *
  exact ⟨enc, k1, k2, k3⟩

/-- C98, FuzzOpusAudioDescriptorUnmarshal. A mapping of a single channel is replaced by that of a single stream that is not coupled. -/
theorem C98_opus_descriptor (buf : Bytes) (d : TSOpus.Descriptor) (h : TSOpus.Descriptor.unmarshal buf = .ok d) :
    ∃ enc, d.marshal = .ok enc ∧ TSOpus.Descriptor.unmarshal enc = .ok
      (if d.explicitChannelCount = 1 ∧ d.mappingFamily ≠ 0 then { d with streamCount := 1, coupledStreamCount := 0, channelMapping := [0] } else d) := by
  rcases (C41_decode_sound buf).2 d h with ⟨-, -, h1, h2⟩ | ⟨c, -, -, h1, h2⟩ | ⟨c, f, body, w1, w2, w3, codes, rest, -, h1, h2, h3, h4, h5, h6⟩
  · have e : d.explicitChannelCount = 0 := by rw [h2]
    rw [if_neg (by omega)]
    exact Res.bind_eq_ok.1 (C41_round_trip_partial d (.inl ⟨h1, h2⟩))
  · have e : d.mappingFamily = 0 := by rw [h2]
    rw [if_neg (by omega)]
    refine Res.bind_eq_ok.1 (C41_round_trip_partial d (.inr (.inl ⟨c.toNat, ?_, h2⟩)))
    rcases h1 with rfl | rfl
    · exact .inl rfl
    · exact .inr rfl
  · have hc : c.toNat ≠ 0 := fun hh => h1 (UInt8.toNat_inj.1 hh)
    have hf : f.toNat ≠ 0 := fun hh => h2 (UInt8.toNat_inj.1 hh)
    have hc2 := c.toNat_lt
    have hf2 := f.toNat_lt
    have e0 : d.channelConfigCode = 0x81 := by rw [h6]
    have e1 : d.explicitChannelCount = c.toNat := by rw [h6]
    have e2 : d.mappingFamily = f.toNat := by rw [h6]
    by_cases h0 : c.toNat = 1
    · rw [if_pos ⟨by omega, by omega⟩]
      have hm : d.marshal = TSOpus.Descriptor.marshal { d with streamCount := 1, coupledStreamCount := 0, channelMapping := [0] } := by
        unfold TSOpus.Descriptor.marshal
        simp only [e0, e1, e2, h0, hf, if_true, if_false]
      rw [hm]
      refine Res.bind_eq_ok.1 (C41_round_trip_partial _ (.inr (.inr (.inl ⟨f.toNat, by omega, by omega, ?_⟩))))
      rw [h6, h0]
    · rw [if_neg (by omega)]
      refine Res.bind_eq_ok.1 (C41_round_trip_partial d (.inr (.inr (.inr ⟨e0, by omega, by omega, by omega, by omega, w1, w2, w3, ?_, ?_⟩))))
      · rw [e1]; exact h3
      · rw [e1]
        obtain ⟨k1, k2, k3, k4, k5⟩ := h4
        have e3 : d.channelMapping = codes.map UInt8.ofNat := by rw [h6]
        refine ⟨k1, k2, k3, by rw [e3]; simpa using k4, fun v hv => ?_⟩
        rw [e3, List.map_map] at hv
        obtain ⟨x, hx, rfl⟩ := List.mem_map.1 hv
        have := k5 x hx
        have h' : (UInt8.ofNat x).toNat ≤ x := by rw [UInt8.toNat_ofNat']; exact Nat.mod_le _ _
        show (UInt8.ofNat x).toNat < 2 ^ w3
        omega

/-! ## Examples -/

/-- A value that is not encoded as shortly as possible. -/
example : AV1.leb128Unmarshal [0x85, 0x80, 0x00] = .ok (5, 3) ∧ AV1.leb128MarshalTo (makeBytes 1) 0 5 = .ok ([5], 1) := by decide +kernel

/-- Two units, the first with a size that is not encoded as shortly as possible. -/
example : AV1.bitstreamUnmarshal [0x12, 0x80, 0x00, 0x0A, 0x01, 0xAA] = .ok [[0x10], [0x08, 0xAA]] ∧
    AV1.bitstreamMarshal [[0x10], [0x08, 0xAA]] = .ok [0x12, 0x00, 0x0A, 0x01, 0xAA] := by decide +kernel

/-- Start codes of both sizes. -/
example : H264.annexbUnmarshal [0, 0, 1, 9, 240, 0, 0, 0, 1, 5] = .ok [[9, 240], [5]] ∧
    H264.annexbMarshal [[9, 240], [5]] = .ok [0, 0, 0, 1, 9, 240, 0, 0, 0, 1, 5] := by decide +kernel

/-- An empty unit is lost. -/
example : H264.avccUnmarshal [0, 0, 0, 0, 0, 0, 0, 2, 9, 240] = .ok [[9, 240]] ∧ H264.avccMarshal [[9, 240]] = .ok [0, 0, 0, 2, 9, 240] := by
  decide +kernel

/-- A rate that has an index is written in full. -/
example : MPEG4Audio.ASC.unmarshal [0x17, 0x80, 0x5D, 0xC0, 0x10] = .ok ⟨2, 48000, 2, 2, 0, 0, false, false, 0⟩ ∧
    MPEG4Audio.ASC.marshal ⟨2, 48000, 2, 2, 0, 0, false, false, 0⟩ = .ok [0x11, 0x90] := by decide +kernel

/-- The number of channels is not known. -/
example : MPEG4Audio.ASC.unmarshal [0x11, 0x80] = .ok ⟨2, 48000, 0, 0, 0, 0, false, false, 0⟩ ∧
    MPEG4Audio.ASC.marshal ⟨2, 48000, 0, 0, 0, 0, false, false, 0⟩ = .ok [0x11, 0x80] := by decide +kernel

/-- A frame with private and copyright bits that are set; they are lost. -/
example : MPEG4Audio.ADTSPackets.unmarshal [0xFF, 0xF1, 0x4E, 0xB0, 0x01, 0x5F, 0xFC, 1, 2, 3] = .ok [⟨2, 48000, 2, 2, [1, 2, 3]⟩] ∧
    MPEG4Audio.ADTSPackets.marshal [⟨2, 48000, 2, 2, [1, 2, 3]⟩] = .ok [0xFF, 0xF1, 0x4C, 0x80, 0x01, 0x5F, 0xFC, 1, 2, 3] := by decide +kernel

example : MPEG4Audio.AudioSyncStream.unmarshal [0x56, 0xE0, 2, 1, 2, 0x56, 0xE0, 0] = .ok [[1, 2], []] ∧
    MPEG4Audio.AudioSyncStream.marshal [[1, 2], []] = .ok [0x56, 0xE0, 2, 1, 2, 0x56, 0xE0, 0] := by decide +kernel

/-- A configuration that is cut is written whole. -/
example : MPEG4Audio.StreamMuxConfig.unmarshal [0x40, 0x00, 0x26, 0x20] =
      .ok ⟨0, [[⟨some ⟨2, 24000, 2, 2, 0, 0, false, false, 0⟩, 0, 255, 0, 0, false⟩]], false, 0, false, 0⟩ ∧
    MPEG4Audio.StreamMuxConfig.marshal ⟨0, [[⟨some ⟨2, 24000, 2, 2, 0, 0, false, false, 0⟩, 0, 255, 0, 0, false⟩]], false, 0, false, 0⟩ =
      .ok [0x40, 0x00, 0x26, 0x20, 0x3F, 0xC0] := by decide +kernel

/-- The configuration is given, not transmitted. -/
example : MPEG4Audio.MuxElement.unmarshal false (some ⟨0, [[⟨none, 0, 255, 0, 0, false⟩]], false, 0, false, 0⟩) [2, 0xAA, 0xBB] =
      .ok ⟨false, some ⟨0, [[⟨none, 0, 255, 0, 0, false⟩]], false, 0, false, 0⟩, [[[[0xAA, 0xBB]]]]⟩ ∧
    MPEG4Audio.MuxElement.marshal false ⟨false, some ⟨0, [[⟨none, 0, 255, 0, 0, false⟩]], false, 0, false, 0⟩, [[[[0xAA, 0xBB]]]]⟩ =
      .ok [2, 0xAA, 0xBB] := by decide +kernel

/-- The bytes that follow the 34 are lost. -/
example : Flac.unmarshal ((List.range 40).map UInt8.ofNat) >>= (fun s => .ok (Flac.marshal s)) = .ok ((List.range 34).map UInt8.ofNat) := by
  decide +kernel

example : TSMetadata.Descriptor.unmarshal [1, 0, 0xFF, 0x4B, 0x4C, 0x56, 0x41, 0, 0x3F, 2, 1, 2, 1, 9, 7] >>= TSMetadata.Descriptor.marshal =
    .ok [1, 0, 0xFF, 0x4B, 0x4C, 0x56, 0x41, 0, 0x3F, 2, 1, 2, 1, 9, 7] := by decide +kernel

/-- The reserved bits are set when they are written. -/
example : TSMetadata.STDDescriptor.unmarshal [0x3F, 0xFF, 0xFF, 0x00, 0, 0, 0x01, 0x23, 0x45] >>= TSMetadata.STDDescriptor.marshal =
    .ok [0xFF, 0xFF, 0xFF, 0xC0, 0, 0, 0xC1, 0x23, 0x45] := by decide +kernel

/-- A byte that follows the cell. -/
example : TSMetadata.AUCell.unmarshal [1, 2, 0xE0, 0, 2, 5, 6, 7] 0 = .ok (⟨1, 2, 3, true, false, [5, 6]⟩, 7) ∧
    TSMetadata.AUCell.marshal ⟨1, 2, 3, true, false, [5, 6]⟩ = .ok [1, 2, 0xEF, 0, 2, 5, 6] := by decide +kernel

/-- The reserved bits and the bytes of the extension are lost. -/
example : TSOpus.AccessUnit.unmarshal [0x7F, 0xF7, 1, 0xE0, 100, 2, 9, 9, 0xAA] = .ok (⟨⟨1, true, false, true, 100, 0, 2⟩, [0xAA]⟩, 9) ∧
    (TSOpus.AccessUnit.marshalTo ⟨⟨1, true, false, true, 100, 0, 2⟩, [0xAA]⟩ (makeBytes 9) 0) =
      .ok ([0x7F, 0xF4, 1, 0, 100, 2, 0, 0, 0xAA], 9) := by decide +kernel

/-- One channel that is the second one of a coupled stream. -/
example : TSOpus.Descriptor.unmarshal [0x81, 1, 1, 0b11000000] = .ok ⟨0x81, 1, 1, 1, 1, [2]⟩ ∧
    TSOpus.Descriptor.marshal ⟨0x81, 1, 1, 1, 1, [2]⟩ = .ok [0x81, 1, 1, 0] ∧
    TSOpus.Descriptor.unmarshal [0x81, 1, 1, 0] = .ok ⟨0x81, 1, 1, 1, 0, [0]⟩ := by decide +kernel

end Verif.Props
