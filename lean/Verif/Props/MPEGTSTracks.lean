import Verif.Props.MPEGTSRoundTrip

/-!
# Tracks of the MPEG-TS writer are found by the reader (C79)
-/

namespace Verif.Props
open MPEGTS

/-- The first PES packet of a PID, with its payload, and what follows it. -/
def Finds (pid : Nat) (dem : Dem) (data : Bytes) (rest : Dem) : Prop :=
  ∃ pre d p, dem = pre ++ d :: rest ∧ (∀ x ∈ pre, x.pes = none ∨ x.pid ≠ pid) ∧ d.pid = pid ∧ d.pes = some p ∧ p.data = data

/-- The configuration that ADTS headers carry: no extension; the channel configuration and the number of channels determine each
other. -/
def adtsConfigOf (c : MPEG4Audio.ASC) : MPEG4Audio.ASC :=
  let p := adtsNormal (adtsOf c [0])
  ⟨c.type, c.sampleRate, p.channelConfig.toNat, p.channelCount, 0, 0, false, false, 0⟩

/-- `TrackFound t codec dem rest`: the track `t` can be written, and a reader that is at `dem` finds `codec` for it and is at `rest`
afterwards. Three codecs need a packet of the track, the other ones need the program map table only. -/
def TrackFound (t : Track) (codec : Codec) (dem rest : Dem) : Prop :=
  (t.language = [] ∨ t.language.length = 3) ∧
  match t.codec with
  | .mpeg4Audio c => codec = .mpeg4Audio (adtsConfigOf c) ∧ ∃ aus data, aus ≠ [] ∧ (∀ au ∈ aus, AdtsValid (adtsOf c au)) ∧
    MPEG4Audio.ADTSPackets.marshal (aus.map (adtsOf c)) = .ok data ∧ Finds t.pid dem data rest
  | .ac3 rate channels => codec = t.codec ∧ ∃ frame s b, AC3.SyncInfo.unmarshal frame = .ok s ∧
    AC3.BSI.unmarshal (frame.drop 5) = .ok b ∧ rate = s.sampleRate ∧ channels = b.channelCount ∧ Finds t.pid dem frame rest
  | .eac3 rate channels => codec = t.codec ∧ ∃ frame s, EAC3.SyncInfo.unmarshal frame = .ok s ∧ s.sampleRate = .ok rate ∧
    channels = s.channelCount ∧ Finds t.pid dem frame rest
  | .opus (some d) n => codec = t.codec ∧ DescriptorFits d ∧ n = d.channelCount ∧ rest = dem
  | .opus none n => 1 ≤ n ∧ n ≤ 8 ∧ codec = .opus (some ⟨UInt8.ofNat n.toNat, 0, 0, 0, 0, []⟩) n ∧ rest = dem
  | .dvbSubtitle items => codec = t.codec ∧ items ≠ [] ∧ rest = dem
  | .unsupported => False
  | _ => codec = t.codec ∧ rest = dem

theorem ts_finds {pid : Nat} {dem rest : Dem} {data : Bytes} (h : Finds pid dem data rest) : findPES pid dem = .ok (data, rest) := by
  obtain ⟨pre, d, p, rfl, h1, rfl, h3, rfl⟩ := h
  induction pre with
  | nil => simp [findPES, h3]
  | cons x pre ih =>
    rw [List.cons_append, findPES]
    have hx := h1 x (by simp)
    rw [ih fun y hy => h1 y (List.mem_cons_of_mem _ hy)]
    cases hp : x.pes with
    | none => rfl
    | some q =>
      rcases hx with hx | hx
      · rw [hp] at hx; simp at hx
      · simp [hx]

/-- The descriptors of synchronous KLV. -/
def klvBytes : List Desc := [.unknown 0x26 [1, 0, 0xFF, 0x4B, 0x4C, 0x56, 0x41, 0, 0x0F], .unknown 0x27 [0xC0, 0, 0, 0xC0, 0, 0, 0xC0, 0, 0]]

theorem ts_klvDescriptors : klvDescriptors = .ok klvBytes := by decide +kernel

theorem ts_klvMetadata : ∃ dm, TSMetadata.Descriptor.unmarshal [1, 0, 0xFF, 0x4B, 0x4C, 0x56, 0x41, 0, 0x0F] = .ok dm ∧
    dm.formatIdentifier = klvaIdentifier :=
  ⟨⟨0x0100, 0, 0xFF, klvaIdentifier, 0, 0, false, [], [], [], 0, []⟩, by decide +kernel, rfl⟩

/-- The descriptors with the one for the language. -/
def languageDescs (lang : Bytes) : List Desc := if lang ≠ [] then [.language lang] else []

theorem ts_languageDescs (l : List Desc) (lang : Bytes) :
    (if lang ≠ [] then l ++ [Desc.language lang] else l) = l ++ languageDescs lang := by
  unfold languageDescs
  split <;> simp

theorem ts_findLanguage (l : List Desc) (lang : Bytes) (h : lang = [] ∨ lang.length = 3) (hl : ∀ x ∈ l, ∀ y, x ≠ .language y) :
    findLanguage (l ++ languageDescs lang) = lang := by
  induction l with
  | nil =>
    unfold languageDescs
    rcases h with rfl | h
    · rfl
    · rw [if_pos (by rintro rfl; simp at h)]
      simp [findLanguage, h, List.take_of_length_le]
  | cons x l ih =>
    have ih := ih fun y hy => hl y (List.mem_cons_of_mem _ hy)
    cases x with
    | language y => exact absurd rfl (hl (.language y) (by simp) y)
    | _ => simpa [findLanguage] using ih

theorem ts_registration (lang : Bytes) (id : Nat) (l : List Desc) (hid : id ≠ 0) (hl : ∀ x ∈ l, ∀ y, x ≠ .registration y) :
    findRegistrationIdentifier (.registration id :: l ++ languageDescs lang) = some id := by
  have : ∀ l : List Desc, (∀ x ∈ l, ∀ y, x ≠ .registration y) → registrationLoop l id = some id := by
    intro l hl
    induction l with
    | nil => rfl
    | cons x l ih =>
      have ih := ih fun y hy => hl y (List.mem_cons_of_mem _ hy)
      cases x with
      | registration y => exact absurd rfl (hl (.registration y) (by simp) y)
      | _ => simpa [registrationLoop] using ih
  unfold findRegistrationIdentifier
  rw [List.cons_append, registrationLoop, if_neg (by simp), this]
  · simp [hid]
  · intro x hx y
    rcases List.mem_append.1 hx with hx | hx
    · exact hl x hx y
    · unfold languageDescs at hx
      split at hx
      · simp only [List.mem_singleton] at hx; subst hx; simp
      · simp at hx

theorem ts_noRegistration (lang : Bytes) (items : List SubtitlingItem) :
    findRegistrationIdentifier (.subtitling items :: languageDescs lang) = none := by
  unfold languageDescs
  split <;> rfl

theorem ts_opusCodec (lang enc : Bytes) (d : TSOpus.Descriptor) (h : TSOpus.Descriptor.unmarshal enc = .ok d) (pid : Nat) :
    findPrivate ⟨pid, stPrivateData, [.registration opusIdentifier, .extension 0x80 (some enc)] ++ languageDescs lang⟩ =
      .ok (.opus (some d) d.channelCount) := by
  unfold findPrivate
  have := ts_registration lang opusIdentifier [.extension 0x80 (some enc)] (by decide) (by simp)
  simp only [List.cons_append, List.nil_append] at this ⊢
  rw [this]
  simp [findOpusAudioDescriptor, h]

/-- C79: the reader finds a track that the writer has announced, with its PID, its language and its codec. -/
theorem C79_track (t : Track) (codec : Codec) (dem rest : Dem) (h : TrackFound t codec dem rest) :
    ∃ es, t.marshal = .ok es ∧ es.pid = t.pid ∧ Track.unmarshal dem es = .ok ({ t with codec }, rest) := by
  obtain ⟨hl, h⟩ := h
  -- the language and the PID
  have key : ∀ st l, t.codec.marshal = .ok (st, l) → (∀ x ∈ l, ∀ y, x ≠ .language y) →
      findCodec dem ⟨t.pid, st, l ++ languageDescs t.language⟩ = .ok (codec, rest) →
      ∃ es, t.marshal = .ok es ∧ es.pid = t.pid ∧ Track.unmarshal dem es = .ok ({ t with codec }, rest) := by
    intro st l h1 h2 h3
    refine ⟨⟨t.pid, st, l ++ languageDescs t.language⟩, ?_, rfl, ?_⟩
    · unfold Track.marshal
      rw [h1, Res.bind_ok]
      simp only [ts_languageDescs]
    · unfold Track.unmarshal
      rw [h3, Res.bind_ok]
      simp only [ts_findLanguage l t.language hl h2]
  cases hc : t.codec with
  | h265 => rw [hc] at h key; obtain ⟨rfl, rfl⟩ := h; exact key _ _ rfl (by simp) rfl
  | h264 => rw [hc] at h key; obtain ⟨rfl, rfl⟩ := h; exact key _ _ rfl (by simp) rfl
  | mpeg4Video => rw [hc] at h key; obtain ⟨rfl, rfl⟩ := h; exact key _ _ rfl (by simp) rfl
  | mpeg1Video => rw [hc] at h key; obtain ⟨rfl, rfl⟩ := h; exact key _ _ rfl (by simp) rfl
  | latm => rw [hc] at h key; obtain ⟨rfl, rfl⟩ := h; exact key _ _ rfl (by simp) rfl
  | mpeg1Audio => rw [hc] at h key; obtain ⟨rfl, rfl⟩ := h; exact key _ _ rfl (by simp) rfl
  | opus d n =>
    cases d with
    | some d =>
      rw [hc] at h key
      obtain ⟨rfl, h1, rfl, rfl⟩ := h
      obtain ⟨enc, e1, e2⟩ := Res.bind_eq_ok.1 (C41_round_trip_partial d h1)
      refine key stPrivateData _ (by simp only [Codec.marshal, opusDescriptors, Option.getD_some, e1, Res.bind_ok]; rfl) (by simp) ?_
      unfold findCodec
      simp only [ts_opusCodec t.language enc d e2, Res.bind_ok]
      rfl
    | none =>
      rw [hc] at h key
      obtain ⟨h1, h2, rfl, rfl⟩ := h
      have hm : UInt8.ofNat (n % 256).toNat = UInt8.ofNat n.toNat := by rw [Int.emod_eq_of_lt (by omega) (by omega)]
      have hn : ∃ k : Nat, k ≤ 8 ∧ n = k ∧ 1 ≤ k := ⟨n.toNat, by omega, by omega, by omega⟩
      obtain ⟨k, hk, rfl, hk1⟩ := hn
      simp only [Int.toNat_natCast] at hm ⊢ key
      have hT : ∀ k : Nat, k ≤ 8 → 1 ≤ k → TSOpus.Descriptor.unmarshal [UInt8.ofNat k] = .ok ⟨UInt8.ofNat k, 0, 0, 0, 0, []⟩ ∧
          (⟨UInt8.ofNat k, 0, 0, 0, 0, []⟩ : TSOpus.Descriptor).channelCount = k ∧
          (⟨UInt8.ofNat k, 0, 0, 0, 0, []⟩ : TSOpus.Descriptor).marshal = .ok [UInt8.ofNat k] := by decide +kernel
      obtain ⟨e1, e2, e3⟩ := hT k hk hk1
      refine key stPrivateData _ (by
        simp only [Codec.marshal, opusDescriptors, Option.getD_none, hm, e3, Res.bind_ok]; rfl) (by simp) ?_
      unfold findCodec
      simp only [ts_opusCodec t.language _ _ e1, Res.bind_ok, e2]
      rfl
  | mpeg4Audio c =>
    rw [hc] at h key
    obtain ⟨rfl, aus, data, h1, h2, h3, h4⟩ := h
    refine key _ _ rfl (by simp) ?_
    have h5 := C19_round_trip_normal (aus.map (adtsOf c)) (by simpa using h1) (by simpa using h2)
    rw [h3, Res.bind_ok] at h5
    obtain ⟨au, aus, rfl⟩ := List.exists_cons_of_ne_nil h1
    have : findMPEG4AudioConfig dem t.pid = .ok (adtsConfigOf c, rest) := by
      unfold findMPEG4AudioConfig
      simp only [ts_finds h4, h5, Res.bind_ok, List.map_cons, idx_zero_cons]
      by_cases hz : UInt8.ofNat c.channelConfig = 0
      all_goals simp [adtsConfigOf, adtsNormal, adtsOf, hz]
    unfold findCodec
    simp only [this, Res.bind_ok]
    rfl
  | ac3 rate channels =>
    rw [hc] at h key
    obtain ⟨rfl, frame, s, b, h1, h2, rfl, rfl, h4⟩ := h
    refine key _ _ rfl (by simp) ?_
    obtain ⟨_, ⟨x, hx, _⟩, _⟩ := (C30_ac3_sync _).2.1 s h1
    have hlen := (List.getElem?_eq_some_iff.1 hx).1
    have : findAC3Parameters dem t.pid = .ok ((s.sampleRate, b.channelCount), rest) := by
      unfold findAC3Parameters
      simp only [ts_finds h4, h1, Res.bind_ok, sliceFrom_ok (show 5 ≤ frame.length by omega), h2]
    unfold findCodec
    simp only [this, Res.bind_ok]
    rfl
  | eac3 rate channels =>
    rw [hc] at h key
    obtain ⟨rfl, frame, s, h1, h2, rfl, h4⟩ := h
    refine key _ _ rfl (by simp) ?_
    have : findEAC3Parameters dem t.pid = .ok ((rate, s.channelCount), rest) := by
      unfold findEAC3Parameters
      simp only [ts_finds h4, h1, Res.bind_ok, h2]
    unfold findCodec
    simp only [this, Res.bind_ok]
    rfl
  | klv s =>
    rw [hc] at h key
    obtain ⟨rfl, rfl⟩ := h
    cases s with
    | true =>
      refine key stMetadata klvBytes (by simp only [Codec.marshal, ts_klvDescriptors, Res.bind_ok]) (by simp [klvBytes]) ?_
      obtain ⟨dm, h1, h2⟩ := ts_klvMetadata
      have : (findKLVMetadataDescriptor (klvBytes ++ languageDescs t.language)).isSome = true := by
        unfold findKLVMetadataDescriptor klvBytes
        simp only [List.cons_append, List.nil_append, metadataLoop]
        rw [if_pos (by rfl)]
        simp only [h1, h2, if_true, Option.isSome_none, Bool.false_eq_true, if_false]
        rw [if_neg (by decide)]
        unfold languageDescs
        split <;> rfl
      unfold findCodec
      simp only [this, if_true]
      rfl
    | false =>
      refine key stPrivateData [.registration klvaIdentifier] rfl (by simp) ?_
      unfold findCodec
      have : findPrivate ⟨t.pid, stPrivateData, [.registration klvaIdentifier] ++ languageDescs t.language⟩ = .ok (.klv false) := by
        unfold findPrivate
        have := ts_registration t.language klvaIdentifier [] (by decide) (by simp)
        simp only [List.cons_append, List.nil_append] at this ⊢
        rw [this]
        rfl
      simp only [this, Res.bind_ok]
      rfl
  | dvbSubtitle items =>
    rw [hc] at h key
    obtain ⟨rfl, h1, rfl⟩ := h
    refine key stPrivateData [.subtitling items] rfl (by simp) ?_
    unfold findCodec
    have : findPrivate ⟨t.pid, stPrivateData, [.subtitling items] ++ languageDescs t.language⟩ = .ok (.dvbSubtitle items) := by
      unfold findPrivate
      simp only [List.cons_append, List.nil_append, ts_noRegistration, findDVBSubtitlingDescriptor]
      rw [if_pos h1]
    simp only [this, Res.bind_ok]
    rfl
  | unsupported => rw [hc] at h; exact h.elim

/-- The tracks are found one after the other: the packets that one of them needs come after those that the previous ones needed. -/
def TracksFound : List Track → List Codec → Dem → Prop
  | [], [], _ => True
  | t :: ts, c :: cs, dem => ∃ rest, TrackFound t c dem rest ∧ TracksFound ts cs rest
  | _, _, _ => False

/-- The PIDs that the documentation promises: tracks without a PID get consecutive ones. -/
def numbered (next : Nat) : List Track → List Track
  | [] => []
  | t :: l => if t.pid = 0 then { t with pid := next } :: numbered (next + 1) l else t :: numbered next l

theorem ts_assign (ts : List Track) (cs : List Codec) (dem : Dem) (next : Nat) (streams : List ES) (hn : next + ts.length < 65536)
    (hd : (streams.map ES.pid ++ (numbered next ts).map Track.pid).Nodup) (h : TracksFound (numbered next ts) cs dem) :
    ∃ l, assignPIDs ts next streams = .ok (numbered next ts, streams ++ l) ∧
      unmarshalTracks l dem = .ok (List.zipWith (fun t codec => { t with codec }) (numbered next ts) cs) := by
  induction ts generalizing cs dem next streams with
  | nil => exact ⟨[], by simp [assignPIDs, numbered], by simp [unmarshalTracks, numbered]⟩
  | cons t ts ih =>
    -- one track, after its PID has been chosen
    have step : ∀ (t' : Track) next', numbered next (t :: ts) = t' :: numbered next' ts → next' + ts.length < 65536 →
        (∀ es, t'.marshal = .ok es → (streams.any fun s => s.pid == es.pid) = false → assignPIDs (t :: ts) next streams = (do
          let (ts, streams) ← assignPIDs ts next' (streams ++ [es])
          .ok (t' :: ts, streams))) →
        ∃ l, assignPIDs (t :: ts) next streams = .ok (numbered next (t :: ts), streams ++ l) ∧
          unmarshalTracks l dem = .ok (List.zipWith (fun t codec => { t with codec }) (numbered next (t :: ts)) cs) := by
      intro t' next' h1 h2 h3
      rw [h1] at h hd
      cases cs with
      | nil => exact h.elim
      | cons c cs =>
      obtain ⟨rest, g1, g2⟩ := h
      obtain ⟨es, e1, e2, e3⟩ := C79_track t' c dem rest g1
      simp only [List.map_cons] at hd
      have hnot : (streams.any fun s => s.pid == es.pid) = false := by
        rw [List.any_eq_false]
        intro x hx heq
        have := (List.nodup_append.1 hd).2.2 x.pid (List.mem_map_of_mem hx) t'.pid (by simp)
        rw [e2] at heq
        exact this (by simpa using heq)
      obtain ⟨l, i1, i2⟩ := ih cs rest next' (streams ++ [es]) h2 (by
        rw [List.map_append, List.map_singleton, e2, List.append_assoc]; exact hd) g2
      refine ⟨es :: l, ?_, ?_⟩
      · rw [h3 es e1 hnot, i1, Res.bind_ok, h1]; simp
      · rw [unmarshalTracks, e3, Res.bind_ok]
        dsimp only
        rw [i2, Res.bind_ok, h1, List.zipWith_cons_cons]
    by_cases hp : t.pid = 0
    · refine step { t with pid := next } (next + 1) (by rw [numbered, if_pos hp]) (by simp only [List.length_cons] at hn; omega) ?_
      intro es h1 h2
      rw [assignPIDs]
      simp only [if_pos hp, h1, Res.bind_ok, h2, Bool.false_eq_true, if_false]
      rw [Nat.mod_eq_of_lt (by simp only [List.length_cons] at hn; omega)]
    · refine step t next (by rw [numbered, if_neg hp]) (by simp only [List.length_cons] at hn; omega) ?_
      intro es h1 h2
      rw [assignPIDs]
      simp only [if_neg hp, h1, Res.bind_ok, h2, Bool.false_eq_true, if_false]

/-- C79: the writer announces tracks, and a reader finds all of them, in order, with PIDs, languages and codecs. Tracks without a PID
have got consecutive ones from 256. -/
theorem C79_tracks (ts : List Track) (cs : List Codec) (pre dem : Dem) (pid : Nat) (hpre : ∀ d ∈ pre, d.pmt = none)
    (hn : ts.length < 65280) (hd : ((numbered 256 ts).map Track.pid).Nodup) (h : TracksFound (numbered 256 ts) cs dem) :
    ∃ pmt, Writer.start ts = .ok (numbered 256 ts, pmt) ∧
      readTracks (pre ++ { pid, pmt := some pmt } :: dem) =
        .ok (List.zipWith (fun t codec => { t with codec }) (numbered 256 ts) cs) := by
  obtain ⟨l, h1, h2⟩ := ts_assign ts cs dem 256 [] (by omega) (by simpa using hd) h
  refine ⟨l, by simpa [Writer.start] using h1, ?_⟩
  have : findPMT (pre ++ { pid, pmt := some l } :: dem) = .ok (l, dem) := by
    induction pre with
    | nil => rfl
    | cons x pre ih =>
      rw [List.cons_append, findPMT, hpre x (by simp)]
      exact ih fun y hy => hpre y (List.mem_cons_of_mem _ hy)
  unfold readTracks
  rw [this, Res.bind_ok]
  exact h2

theorem ts_klv_kept (t : Track) (codec : Codec) (dem rest : Dem) (h : TrackFound t codec dem rest) :
    codec = .klv false ↔ t.codec = .klv false := by
  obtain ⟨-, h⟩ := h
  cases hc : t.codec with
  | opus d n =>
    rw [hc] at h
    cases d with
    | none => obtain ⟨_, _, rfl, _⟩ := h; simp
    | some d => obtain ⟨rfl, _⟩ := h; simp
  | unsupported => rw [hc] at h; exact h.elim
  | mpeg4Audio c => rw [hc] at h; obtain ⟨rfl, _⟩ := h; simp
  | _ => rw [hc] at h; obtain ⟨rfl, _⟩ := h; simp

theorem ts_findTrack_cons (t : Track) (l : List Track) (pid : Nat) :
    findTrack (t :: l) pid = (findTrack l pid).or (if t.pid = pid then some t else none) := by
  unfold findTrack
  rw [List.reverse_cons, List.find?_append]
  congr 1
  by_cases h : t.pid = pid <;> simp [h]

theorem ts_lookup (ts : List Track) (cs : List Codec) (dem : Dem) (hd : (ts.map Track.pid).Nodup) (h : TracksFound ts cs dem) :
    (∀ t ∈ ts, ∃ t', findTrack (List.zipWith (fun t codec => { t with codec }) ts cs) t.pid = some t' ∧
      (t'.codec = .klv false ↔ t.codec = .klv false)) ∧
    (∀ pid, pid ∉ ts.map Track.pid → findTrack (List.zipWith (fun t codec => { t with codec }) ts cs) pid = none) := by
  induction ts generalizing cs dem with
  | nil => exact ⟨by simp, fun pid _ => by simp [findTrack]⟩
  | cons t ts ih =>
    cases cs with
    | nil => exact h.elim
    | cons c cs =>
    obtain ⟨rest, h1, h2⟩ := h
    rw [List.map_cons, List.nodup_cons] at hd
    obtain ⟨i1, i2⟩ := ih cs rest hd.2 h2
    constructor
    · intro x hx
      rw [List.zipWith_cons_cons, ts_findTrack_cons]
      rcases List.mem_cons.1 hx with rfl | hx
      · rw [i2 x.pid hd.1]
        exact ⟨⟨x.pid, x.language, c⟩, by simp, ts_klv_kept x c dem rest h1⟩
      · obtain ⟨t', e1, e2⟩ := i1 x hx
        exact ⟨t', by rw [e1]; rfl, e2⟩
    · intro pid hp
      simp only [List.map_cons, List.mem_cons, not_or] at hp
      rw [List.zipWith_cons_cons, ts_findTrack_cons, i2 pid hp.2, if_neg fun h => hp.1 h.symm]
      rfl

/-- C79 and C78: the tracks that the reader finds serve to read the units that are written to the tracks of the writer. -/
theorem C79_units (ts : List Track) (cs : List Codec) (pre dem : Dem) (pid : Nat) (hpre : ∀ d ∈ pre, d.pmt = none)
    (hn : ts.length < 65280) (hd : ((numbered 256 ts).map Track.pid).Nodup) (h : TracksFound (numbered 256 ts) cs dem)
    (w : Writer) (onData : Nat → Option Callback) (last : Int) (l : List (Track × Call))
    (hl : ∀ x ∈ l, x.1 ∈ numbered 256 ts ∧ ∃ cb, onData x.1.pid = some cb ∧ GoodCall x.1 cb x.2) :
    ∃ pmt tracks reqs, Writer.start ts = .ok (numbered 256 ts, pmt) ∧
      readTracks (pre ++ { pid, pmt := some pmt } :: dem) = .ok tracks ∧ writeRequests w l = .ok reqs ∧
      readEvents ⟨tracks, onData⟩ (reqs.map fun q => demux q (some last)) = .ok (l.map fun x => some (received x.1 last x.2)) := by
  obtain ⟨pmt, h1, h2⟩ := C79_tracks ts cs pre dem pid hpre hn hd h
  obtain ⟨g1, _⟩ := ts_lookup _ cs dem hd h
  obtain ⟨reqs, h3, h4⟩ := C78_sequence w ⟨_, onData⟩ last l fun x hx => by
    obtain ⟨k1, cb, k2, k3⟩ := hl x hx
    obtain ⟨t', k4, k5⟩ := g1 x.1 k1
    exact ⟨t', cb, k4, k5, k2, k3⟩
  exact ⟨pmt, _, reqs, h1, h2, h3, h4⟩

/-- An AAC track of the library's usual form is found unchanged: no extension, and the number of channels that its configuration
stands for. -/
theorem C79_aac_identity (c : MPEG4Audio.ASC) (h0 : 1 ≤ c.channelConfig) (h1 : c.channelConfig < 8)
    (h2 : c.channelCount = Spec.channelsOfConfig c.channelConfig)
    (h3 : c = ⟨c.type, c.sampleRate, c.channelConfig, c.channelCount, 0, 0, false, false, 0⟩) : adtsConfigOf c = c := by
  have hn : (UInt8.ofNat c.channelConfig).toNat = c.channelConfig := by
    rw [UInt8.toNat_ofNat', Nat.mod_eq_of_lt (by omega)]
  have hz : UInt8.ofNat c.channelConfig ≠ 0 := by
    intro h
    have := congrArg UInt8.toNat h
    rw [hn] at this
    simp at this
    omega
  simp only [adtsConfigOf, adtsNormal, adtsOf, if_neg hz, hn, ← h2]
  exact h3.symm

/-- An AAC packet in ADTS form, stereo, 48 kHz. -/
def adtsPacket : Bytes := [0xFF, 0xF1, 0x4C, 0x80, 0x01, 0x1F, 0xFC, 0xAA]

/-- The order of packets matters: two AAC tracks, a packet of each of them after the program map table. The search for the second
track starts where the one for the first track has ended, and fails at the end of the stream if its packet came earlier. -/
theorem C79_order_false :
    readTracks [{ pid := 4096, pmt := some [⟨256, stAACAudio, []⟩, ⟨257, stAACAudio, []⟩] },
      { pid := 256, pes := some ⟨192, some ⟨2, some 0, none⟩, adtsPacket⟩ },
      { pid := 257, pes := some ⟨192, some ⟨2, some 0, none⟩, adtsPacket⟩ }] =
      .ok [⟨256, [], .mpeg4Audio ⟨2, 48000, 2, 2, 0, 0, false, false, 0⟩⟩, ⟨257, [], .mpeg4Audio ⟨2, 48000, 2, 2, 0, 0, false, false, 0⟩⟩] ∧
    readTracks [{ pid := 4096, pmt := some [⟨256, stAACAudio, []⟩, ⟨257, stAACAudio, []⟩] },
      { pid := 257, pes := some ⟨192, some ⟨2, some 0, none⟩, adtsPacket⟩ },
      { pid := 256, pes := some ⟨192, some ⟨2, some 0, none⟩, adtsPacket⟩ }] = .err "EOF" := by
  constructor <;> decide +kernel

/-- PIDs that are chosen by the writer collide with explicit ones. -/
theorem C79_pid_false : (∃ e, Writer.start [{ pid := 256, codec := .h264 }, { codec := .mpeg1Audio }] = .err e) ∧
    ∃ e, Writer.start [{ codec := .h264 }, { pid := 256, codec := .mpeg1Audio }] = .err e :=
  ⟨⟨_, rfl⟩, ⟨_, rfl⟩⟩

/-- An Opus track without descriptor and with more than 8 channels is announced with a code that the reader does not know; reading the
tracks fails. A descriptor with a short channel mapping makes the writer panic. -/
theorem C79_opus_false : (∃ pmt e, Writer.start [{ codec := .opus none 9 }] = .ok ([⟨256, [], .opus none 9⟩], pmt) ∧
      readTracks [{ pid := 4096, pmt := some pmt }] = .err e) ∧
    Writer.start [{ codec := .opus (some ⟨0x81, 3, 1, 2, 1, [0, 1]⟩) 3 }] = .panic :=
  ⟨⟨[⟨256, 6, [.registration opusIdentifier, .extension 0x80 (some [9])]⟩], _, by decide +kernel, rfl⟩, by decide +kernel⟩

/-- A DVB subtitle track without items is read as an unsupported track, languages are cut after three bytes, and the extension of an
AAC configuration is lost. -/
theorem C79_lossy_false :
    (∃ pmt, Writer.start [{ codec := .dvbSubtitle [] }] = .ok ([⟨256, [], .dvbSubtitle []⟩], pmt) ∧
      readTracks [{ pid := 4096, pmt := some pmt }] = .ok [⟨256, [], .unsupported⟩]) ∧
    (∃ pmt, Writer.start [⟨0, [0x61, 0x62, 0x63, 0x64], .h264⟩] = .ok ([⟨256, [0x61, 0x62, 0x63, 0x64], .h264⟩], pmt) ∧
      readTracks [{ pid := 4096, pmt := some pmt }] = .ok [⟨256, [0x61, 0x62, 0x63], .h264⟩]) ∧
    adtsConfigOf ⟨2, 24000, 2, 2, 5, 48000, false, false, 0⟩ = ⟨2, 24000, 2, 2, 0, 0, false, false, 0⟩ :=
  ⟨⟨_, rfl, by decide +kernel⟩, ⟨_, rfl, by decide +kernel⟩, by decide +kernel⟩

/-- Tracks that meet the hypotheses. -/
example : TracksFound (numbered 256 [{ codec := .h264 }, ⟨300, [0x65, 0x6E, 0x67], .mpeg4Audio ⟨2, 48000, 2, 2, 0, 0, false, false, 0⟩⟩,
      { codec := .klv true }, { codec := .opus none 2 }])
    [.h264, .mpeg4Audio ⟨2, 48000, 2, 2, 0, 0, false, false, 0⟩, .klv true, .opus (some ⟨2, 0, 0, 0, 0, []⟩) 2]
    [{ pid := 256, pes := some ⟨224, none, [1]⟩ }, { pid := 300, pes := some ⟨192, some ⟨2, some 0, none⟩, adtsPacket⟩ }] := by
  refine ⟨_, ⟨Or.inl rfl, rfl, rfl⟩, [], ⟨Or.inr rfl, by decide +kernel, [[0xAA]], adtsPacket, by simp, ?_, by decide +kernel,
    [{ pid := 256, pes := some ⟨224, none, [1]⟩ }], _, _, rfl, by simp, rfl, rfl, rfl⟩, _, ⟨Or.inl rfl, rfl, rfl⟩, _,
    ⟨Or.inl rfl, by decide, by decide, rfl, rfl⟩, trivial⟩
  intro au hau
  simp only [List.mem_singleton] at hau
  subst hau
  exact ⟨by decide, ⟨3, rfl⟩, by decide, by decide, by decide⟩

end Verif.Props
