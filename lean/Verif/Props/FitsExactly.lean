import Verif.Props.PMP4FileRewrite
import Verif.Props.FMP4InitAgain
import Verif.Props.FMP4PartsAgain

/-!
# C112: exactly what fits survives a round trip

C76 and C81 have conditions on what is written. Here they are shown to be necessary: when one of them is not met, and the writer does not complain,
the file that it writes is not the one that was meant. So every such case is either refused by `Marshal` or silently written as something else, and
witnesses show that the second happens.
-/

namespace Verif.Props
open FMP4Init MP4Codec MP4Box
open PMP4 (RTrack RSample)
open Readers (SBuf)

/-! ## Specification -/

/-- The bytes are read as exactly these tracks: identifiers, time scales, time offsets, samples, payloads and codecs. -/
def ReadsAs (file : Bytes) (ts : List PMP4File.Track) : Prop :=
  ∃ rts, PMP4File.unmarshal isoFields file = .ok rts ∧ rts.map (fun x => (seen file x.1, x.2)) = ts.map fun t => (given t.toTrack, t.codec)

/-- The codec is one that the boxes tell: channel count and configuration of MPEG-4 audio agree, `Fscod` of AC-3 is that of the sample rate. -/
def CodecTold (c : Option Codec) : Prop := ∀ k, c = some k → restoredCodec k = k

/-- What a track must fulfil, as numbers: the limits of the fields of MP4 and the limit of the reader on samples. -/
structure Fits (t : PMP4File.Track) : Prop where
  id : t.id < 2 ^ 32
  timeScale : 0 < t.timeScale ∧ t.timeScale < 2 ^ 32
  timeOffset : -(2 ^ 31) ≤ t.timeOffset ∧ t.timeOffset < 2 ^ 31
  samples : t.samples.length ≤ 5184000
  duration : ∀ sa ∈ t.samples, sa.duration < 2 ^ 32
  pts : ∀ sa ∈ t.samples, -(2 ^ 31) ≤ sa.ptsOffset ∧ sa.ptsOffset < 2 ^ 31
  payload : ∀ sa ∈ t.samples, sa.payload.length = sa.payloadSize
  codec : ∀ c, t.codec = some c → Kept c ∧ restoredCodec c = c

/-! ## Proofs -/

theorem fits_good (t : PMP4File.Track) : Fits t ↔ FileGood t ∧ CodecTold t.codec :=
  ⟨fun h => ⟨⟨⟨h.id, Nat.pos_iff_ne_zero.1 h.timeScale.1, h.timeOffset, h.samples, h.pts, h.payload⟩, h.timeScale.2, h.duration, fun c hc => (h.codec c hc).1⟩,
      fun c hc => (h.codec c hc).2⟩,
    fun ⟨h, k⟩ => ⟨h.writable.id, ⟨Nat.pos_iff_ne_zero.2 h.writable.timeScale, h.timeScale⟩, h.writable.timeOffset, h.writable.count, h.duration,
      h.writable.pts, h.writable.payload, fun c hc => ⟨h.codec c hc, k c hc⟩⟩⟩

theorem fits_map (ts : List PMP4File.Track) (h : ∀ t ∈ ts, CodecTold t.codec) :
    ts.map (fun t => (given t.toTrack, t.codec.map restoredCodec)) = ts.map fun t => (given t.toTrack, t.codec) :=
  List.map_congr_left fun t ht => by
    cases e : t.codec with
    | none => rfl
    | some c => rw [Option.map_some, h t ht c e]

/-- **C112**, necessity: whatever the bytes are, tracks that are read from them fit, as far as samples and numbers are concerned. -/
theorem C112_necessary (file : Bytes) (ts : List PMP4File.Track) (h : ReadsAs file ts)
    (hs : ∀ t ∈ ts, ∀ c, t.codec = some c → SmallConfig c) : ts ≠ [] ∧ ∀ t ∈ ts, FileGood t := by
  obtain ⟨rts, h1, h2⟩ := h
  have hw := kept_writable isoFields file rts ts h1 h2.symm
  refine ⟨fun e => ?_, fun t ht => ?_⟩
  · subst e
    cases rts with
    | nil => exact (C82_result isoFields file [] h1).1 rfl
    | cons x l => cases h2
  · obtain ⟨w1, w2, w3, c, e, _, _, w4⟩ := hw t ht
    refine ⟨w1, w2, w3, fun k hk => ?_⟩
    rw [e] at hk
    cases hk
    exact w4 (hs t ht c e)

/-- **C112**, for MP4 files: a presentation that is written is read as what was given exactly when it is not empty and every track fits. -/
theorem C112_file (ts : List PMP4File.Track) (file : Bytes) (h : PMP4File.marshal ts = .ok file) (hl : file.length < 2 ^ 32)
    (hs : ∀ t ∈ ts, ∀ c, t.codec = some c → SmallConfig c) : ReadsAs file ts ↔ ts ≠ [] ∧ ∀ t ∈ ts, Fits t := by
  constructor
  · intro hr
    obtain ⟨n1, n2⟩ := C112_necessary file ts hr hs
    refine ⟨n1, fun t ht => (fits_good t).2 ⟨n2 t ht, fun c hc => ?_⟩⟩
    obtain ⟨rts, r1, r2⟩ := hr
    obtain ⟨rts', g1, g2⟩ := C81_round_trip ts file n1 n2 h hl
    rw [r1] at g1
    cases g1
    rw [r2] at g2
    obtain ⟨i, hi, e⟩ := List.mem_iff_getElem.1 ht
    have := congrArg (fun l => l[i]?) g2
    simp only [List.getElem?_map, List.getElem?_eq_getElem hi, Option.map_some, Option.some.injEq, Prod.mk.injEq] at this
    rw [e, hc, Option.map_some] at this
    exact (Option.some.inj this.2).symm
  · rintro ⟨n1, n2⟩
    obtain ⟨rts, g1, g2⟩ := C81_round_trip ts file n1 (fun t ht => ((fits_good t).1 (n2 t ht)).1) h hl
    exact ⟨rts, g1, g2.trans (fits_map ts fun t ht => ((fits_good t).1 (n2 t ht)).2)⟩

/-- **C112**, for initialization segments: a segment that is written is read as what was given exactly when it has tracks, numbers fit, and it says
no bit rates. -/
theorem C112_init (i : Init) (f : SBuf) (h : FMP4Init.marshal ⟨[], 0⟩ i = .ok f) (hs : ∀ t ∈ i.tracks, ∀ c, t.codec = some c → SmallConfig c) :
    FMP4Init.unmarshal isoFields f.buf = .ok i ↔
      GoodInit i ∧ ∀ t ∈ i.tracks, t.avgBitrate = 0 ∧ t.maxBitrate = 0 ∧ CodecTold t.codec := by
  constructor
  · intro hr
    have hg := kept_init isoFields f.buf i hr hs
    refine ⟨hg, fun t ht => ?_⟩
    have e := C76_round_trip i f hg h
    rw [hr] at e
    have e' : i.tracks = i.tracks.map restoredTrack := congrArg Init.tracks (Res.ok.inj e)
    obtain ⟨k, hk, et⟩ := List.mem_iff_getElem.1 ht
    have := congrArg (fun l => l[k]?) e'
    simp only [List.getElem?_map, List.getElem?_eq_getElem hk, Option.map_some, Option.some.injEq] at this
    rw [et] at this
    refine ⟨congrArg InitTrack.avgBitrate this, congrArg InitTrack.maxBitrate this, fun c hc => ?_⟩
    have hc' : t.codec = t.codec.map restoredCodec := congrArg InitTrack.codec this
    rw [hc, Option.map_some] at hc'
    exact (Option.some.inj hc').symm
  · rintro ⟨hg, hb⟩
    exact C76_identity i f hg (fun t ht => ⟨(hb t ht).1, (hb t ht).2.1⟩) (fun t ht => (hb t ht).2.2) h

/-- **C112**, for fragmented parts: parts of less than 2 GiB that are written are read as what was given exactly when the numbers fit and no track has
more than 19200 samples. -/
theorem C112_parts (l : List FMP4.Part) (hs : ∀ p ∈ l, writtenSize p < 2 ^ 31) :
    ∃ b, FMP4.marshalParts l (FMP4.full []) = .ok (FMP4.full b) ∧ (b.length < 2 ^ 64 → (FMP4.unmarshal b = .ok l ↔ ∀ p ∈ l, FitsPart p)) := by
  have hw := fmp4_marshalParts l [] hs
  rw [List.nil_append] at hw
  refine ⟨_, hw, fun hb => ⟨fun hr p hp => ?_, fun hf => ?_⟩⟩
  · have hv := C99_values _ l hr p hp
    refine ⟨hv.1, fun t ht => ⟨(hv.2 t ht).1, (hv.2 t ht).2.1, ?_, (hv.2 t ht).2.2⟩, hs p hp⟩
    obtain ⟨b', e1, e2⟩ := C99_again_iff _ l hr hs
    rw [hw] at e1
    have e1 := congrArg SBuf.buf (Res.ok.inj e1)
    have e1 : l.flatMap partBytes = b' := e1
    subst e1
    by_cases hc : t.samples.length ≤ 19200
    · exact hc
    · have := (e2 hb).2 ⟨p, hp, t, ht, by omega⟩
      rw [hr] at this
      cases this
  · obtain ⟨b', e1, e2⟩ := C68_round_trip l hf
    rw [hw] at e1
    have e1 : l.flatMap partBytes = b' := congrArg SBuf.buf (Res.ok.inj e1)
    subst e1
    exact e2 hb

/-! ## What is written although it does not fit -/

/-- The statement without conditions: what `Presentation.Marshal` writes, in less than 4 GiB, is read as what was given. -/
def C112_statement : Prop := ∀ (ts : List PMP4File.Track) (file : Bytes), ts ≠ [] → PMP4File.marshal ts = .ok file → file.length < 2 ^ 32 → ReadsAs file ts

/-- The part of the statement that holds. -/
theorem C112_partial (ts : List PMP4File.Track) (file : Bytes) (hne : ts ≠ []) (hf : ∀ t ∈ ts, Fits t) (h : PMP4File.marshal ts = .ok file)
    (hl : file.length < 2 ^ 32) : ReadsAs file ts := by
  refine (C112_file ts file h hl fun t ht c hc => ?_).2 ⟨hne, hf⟩
  have := ((hf t ht).codec c hc).1
  cases c <;> first | exact this | trivial

/-- What an application sees in a track. -/
structure FitsSeen where
  id : Nat
  payloads : List (Option Bytes)
  codec : Option Codec
  deriving DecidableEq

/-- What an application sees in a file that it has written: identifiers, payloads and codecs. -/
def fitsView (ts : List PMP4File.Track) : Res (List FitsSeen) := do
  let file ← PMP4File.marshal ts
  if file.length < 2 ^ 32 then do
    let rts ← PMP4File.unmarshal isoFields file
    .ok (rts.map fun x => ⟨x.1.id, x.1.reader.samples.map fun sa => match PMP4.getPayload file sa with
      | .ok p => some p
      | _ => none, x.2⟩)
  else .err "too long"

/-- A track of Opus. -/
def fitsTrack (id : Nat) (channels : Int) (samples : List (Nat × Bytes)) : PMP4File.Track :=
  ⟨⟨id, 48000, 0, samples.map fun x => ⟨960, 0, false, x.1, x.2, 0⟩⟩, some (.opus channels)⟩

/-- `PayloadSize` is not compared with what `GetPayload` returns: the first sample takes a byte of the second one, without an error. -/
theorem C112_size_false : fitsView [fitsTrack 1 2 [(2, [0xA]), (1, [0xB, 0xC])]] =
    .ok [⟨1, [some [0xA, 0xB], some [0xC]], some (.opus 2)⟩] := by decide +kernel

/-- When the size is too small, the end of the payload is lost; it is after the last box, where the reader does not look at less than 8 bytes. -/
theorem C112_short_false : fitsView [fitsTrack 1 2 [(1, [0xA, 0xB])]] = .ok [⟨1, [some [0xA]], some (.opus 2)⟩] := by decide +kernel

/-- An identifier of more than 32 bits is truncated: two tracks have the same one. -/
theorem C112_id_false : fitsView [fitsTrack 1 2 [(1, [0xA])], fitsTrack (2 ^ 32 + 1) 2 [(1, [0xB])]] =
    .ok [⟨1, [some [0xA]], some (.opus 2)⟩, ⟨1, [some [0xB]], some (.opus 2)⟩] := by decide +kernel

/-- A number of channels that does not fit in 8 bits is truncated. -/
theorem C112_channels_false : fitsView [fitsTrack 1 258 [(1, [0xA])]] = .ok [⟨1, [some [0xA]], some (.opus 2)⟩] := by decide +kernel

/-- So the statement is false. -/
theorem C112_false : ¬ C112_statement := by
  intro h
  have e := C112_id_false
  obtain ⟨file, hf, e⟩ := Res.bind_eq_ok.1 e
  by_cases hl : file.length < 2 ^ 32
  · have hr := h _ file (by simp) hf hl
    have := (C112_file _ file hf hl (by
      intro t ht c hc
      simp only [List.mem_cons, List.not_mem_nil, or_false] at ht
      rcases ht with rfl | rfl <;> (cases hc; trivial))).1 hr
    have := (this.2 (fitsTrack (2 ^ 32 + 1) 2 [(1, [0xB])]) (by simp)).id
    exact absurd this (by decide)
  · rw [if_neg hl] at e
    cases e

/-- The hypotheses are met: two tracks that fit, with samples of several sizes. -/
example : ∀ t ∈ [fitsTrack 1 2 [(1, [0xA]), (0, []), (3, [1, 2, 3])], fitsTrack (2 ^ 32 - 1) 255 [(1, [0xB])]], Fits t := by
  intro t ht
  simp only [List.mem_cons, List.not_mem_nil, or_false] at ht
  rcases ht with rfl | rfl
  · exact ⟨by decide, by decide, by decide, by decide, by decide, by decide, by decide, fun c hc => by cases hc; exact ⟨⟨by decide, by decide⟩, rfl⟩⟩
  · exact ⟨by decide, by decide, by decide, by decide, by decide, by decide, by decide, fun c hc => by cases hc; exact ⟨⟨by decide, by decide⟩, rfl⟩⟩

example : fitsView [fitsTrack 1 2 [(1, [0xA]), (0, []), (3, [1, 2, 3])], fitsTrack (2 ^ 32 - 1) 255 [(1, [0xB])]] =
    .ok [⟨1, [some [0xA], some [], some [1, 2, 3]], some (.opus 2)⟩, ⟨2 ^ 32 - 1, [some [0xB]], some (.opus 255)⟩] := by decide +kernel

/-- Also fragmented parts are truncated without an error: the identifier of a track. -/
theorem C112_parts_false : (FMP4.marshalParts [⟨1, [⟨2 ^ 32 + 1, 0, [⟨960, 0, false, [0xA]⟩]⟩]⟩] (FMP4.full [])).bind (fun f => FMP4.unmarshal f.buf) =
    .ok [⟨1, [⟨1, 0, [⟨960, 0, false, [0xA]⟩]⟩]⟩] := by decide +kernel

/-- Parts that meet the hypothesis, one that fits and one that does not. -/
example : writtenSize ⟨1, [⟨7, 90000, [⟨960, -5, false, [0xA]⟩, ⟨960, 5, true, []⟩]⟩]⟩ < 2 ^ 31 ∧
    FitsPart ⟨1, [⟨7, 90000, [⟨960, -5, false, [0xA]⟩, ⟨960, 5, true, []⟩]⟩]⟩ := by
  unfold FitsPart FitsTrack FitsSample
  decide +kernel

/-- An initialization segment that is read as it was given, and one, with bit rates, that is not. -/
example : (FMP4Init.marshal ⟨[], 0⟩ ⟨[⟨1, 48000, 0, 0, some (.opus 2)⟩], []⟩).bind (fun f => FMP4Init.unmarshal isoFields f.buf) =
      .ok ⟨[⟨1, 48000, 0, 0, some (.opus 2)⟩], []⟩ ∧
    (FMP4Init.marshal ⟨[], 0⟩ ⟨[⟨1, 48000, 64000, 96000, some (.opus 2)⟩], []⟩).bind (fun f => FMP4Init.unmarshal isoFields f.buf) =
      .ok ⟨[⟨1, 48000, 0, 0, some (.opus 2)⟩], []⟩ := by decide +kernel

end Verif.Props
