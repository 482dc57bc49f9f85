import Verif.Props.MPEGTSReader

/-!
# Units written by the MPEG-TS writer are read back (C78)
-/

namespace Verif.Props
open MPEGTS Spec

/-- The first byte of an access unit. -/
def firstByte (au : List Bytes) : Option UInt8 := au.head?.bind List.head?

/-- Access units that pass through the Annex B form, together with the delimiter of `n` bytes that is put in front of them. -/
def GoodNALUs (delimiter : UInt8) (n : Nat) (au : List Bytes) : Prop :=
  au ≠ [] ∧ (∀ nalu ∈ au, nalu ≠ [] ∧ ¬ hasStartCode nalu) ∧
  if firstByte au = some delimiter then au.length ≤ 50 ∧ auBytes au ≤ 8 * 1024 * 1024
  else au.length ≤ 49 ∧ auBytes au + n ≤ 8 * 1024 * 1024

/-- Units that fit the track and the callback and that the format can carry. -/
def GoodCall (t : Track) (cb : Callback) : Call → Prop
  | .h265 _ _ au => t.codec = .h265 ∧ cb = .h265 ∧ GoodNALUs 0x46 3 au
  | .h264 _ _ au => t.codec = .h264 ∧ cb = .h264 ∧ GoodNALUs 9 2 au
  | .mpeg4Video _ _ => t.codec = .mpeg4Video ∧ cb = .mpegxVideo
  | .mpeg1Video _ _ => t.codec = .mpeg1Video ∧ cb = .mpegxVideo
  | .opus _ packets => (∃ d n, t.codec = .opus d n) ∧ cb = .opus ∧ packets ≠ []
  | .mpeg4Audio _ aus => ∃ c, t.codec = .mpeg4Audio c ∧ cb = .mpeg4Audio ∧ aus ≠ [] ∧ ∀ au ∈ aus, AdtsValid (adtsOf c au)
  | .latm _ els => t.codec = .latm ∧ cb = .latm ∧ els ≠ [] ∧ ∀ el ∈ els, el.length < 8192
  | .mpeg1Audio _ frames => t.codec = .mpeg1Audio ∧ cb = .mpeg1Audio ∧ (∀ f ∈ frames, IsFrame f) ∧
    ∃ f h, frames.head? = some f ∧ MPEG1Audio.FrameHeader.unmarshal f = .ok h ∧ h.mpeg2 = false
  | .ac3 _ frame => (∃ r n, t.codec = .ac3 r n) ∧ cb = .ac3 ∧
    ∃ s, AC3.SyncInfo.unmarshal frame = .ok s ∧ s.frameSize = .ok frame.length
  | .eac3 _ frame => (∃ r n, t.codec = .eac3 r n) ∧ cb = .eac3 ∧ ∃ s, EAC3.SyncInfo.unmarshal frame = .ok s
  | .klv _ unit => ∃ s, t.codec = .klv s ∧ cb = .klv s ∧ (s = true → 1 ≤ unit.length ∧ unit.length ≤ 256 * 65535)
  | .dvbSubtitle _ _ => (∃ l, t.codec = .dvbSubtitle l) ∧ cb = .dvbSubtitle

/-- What the client of the reader is expected to receive: the units, without a leading access unit delimiter, and timestamps of 33
bits. Units of asynchronous KLV have no timestamp; they get the last one of the stream. -/
def received (t : Track) (last : Int) : Call → Event
  | .h265 pts dts au => .nalus (pts % 2 ^ 33) (dts % 2 ^ 33) (if firstByte au = some 0x46 then au.tail else au)
  | .h264 pts dts au => .nalus (pts % 2 ^ 33) (dts % 2 ^ 33) (if firstByte au = some 9 then au.tail else au)
  | .mpeg4Video pts frame => .unit (pts % 2 ^ 33) frame
  | .mpeg1Video pts frame => .unit (pts % 2 ^ 33) frame
  | .opus pts packets => .units (pts % 2 ^ 33) packets
  | .mpeg4Audio pts aus => .units (pts % 2 ^ 33) aus
  | .latm pts els => .units (pts % 2 ^ 33) els
  | .mpeg1Audio pts frames => .units (pts % 2 ^ 33) frames
  | .ac3 pts frame => .unit (pts % 2 ^ 33) frame
  | .eac3 pts frame => .unit (pts % 2 ^ 33) frame
  | .klv pts unit => .unit (if t.codec = .klv false then last else pts % 2 ^ 33) unit
  | .dvbSubtitle pts data => .unit (pts % 2 ^ 33) data

theorem ts_withoutDelimiter (d : UInt8) (au : List Bytes) :
    withoutDelimiter d au = if firstByte au = some d then au.tail else au := by
  unfold withoutDelimiter firstByte
  split
  next b t rest =>
    by_cases h : b = d
    · subst h; simp
    · simp [h]
  next h =>
    cases au with
    | nil => simp
    | cons x l =>
      cases x with
      | nil => simp
      | cons b t => exact absurd rfl (h b t l)

theorem ts_withoutDelimiter_cons (d : UInt8) (rest : Bytes) (au : List Bytes) : withoutDelimiter d ((d :: rest) :: au) = au := by
  simp [withoutDelimiter]

/-- An access unit that is framed with a delimiter and read back. -/
theorem ts_nalus (d : UInt8) (rest : Bytes) (au : List Bytes) (h : GoodNALUs d (rest.length + 1) au)
    (hs : ¬ hasStartCode (d :: rest)) :
    ∃ au' enc, addDelimiter d (d :: rest) au = .ok au' ∧ (∀ nalu ∈ au', nalu ≠ []) ∧ H264.annexbMarshal au' = .ok enc ∧
      H264.annexbUnmarshal enc = .ok au' ∧
      dropDelimiter d au' = .ok (if firstByte au = some d then au.tail else au) := by
  obtain ⟨h1, h2, h3⟩ := h
  obtain ⟨nalu, l, rfl⟩ := List.exists_cons_of_ne_nil h1
  obtain ⟨b, n, rfl⟩ := List.exists_cons_of_ne_nil (h2 nalu (by simp)).1
  have hf : firstByte ((b :: n) :: l) = some b := rfl
  rw [hf] at h3 ⊢
  simp only [Option.some_inj] at h3 ⊢
  have main : ∀ au', 1 ≤ au'.length → au'.length ≤ 50 → (∀ nalu ∈ au', nalu ≠ [] ∧ ¬ hasStartCode nalu) →
      auBytes au' ≤ 8 * 1024 * 1024 → ∃ enc, H264.annexbMarshal au' = .ok enc ∧ H264.annexbUnmarshal enc = .ok au' := by
    intro au' g1 g2 g3 g4
    exact Res.bind_eq_ok.1 (C08_annexb_roundtrip au' g1 g2 g3 g4)
  by_cases hb : b = d
  · subst hb
    rw [if_pos rfl] at h3
    obtain ⟨enc, e1, e2⟩ := main _ (by simp) h3.1 h2 h3.2
    refine ⟨_, enc, by simp [addDelimiter, idx_zero_cons], fun x hx => (h2 x hx).1, e1, e2, ?_⟩
    rw [ts_dropDelimiter _ _ h1 fun x hx => (h2 x hx).1, ts_withoutDelimiter_cons]; simp
  · rw [if_neg hb] at h3
    have g3 : ∀ x ∈ (d :: rest) :: (b :: n) :: l, x ≠ [] ∧ ¬ hasStartCode x := by
      intro x hx
      rcases List.mem_cons.1 hx with rfl | hx
      · exact ⟨by simp, hs⟩
      · exact h2 x hx
    obtain ⟨enc, e1, e2⟩ := main ((d :: rest) :: (b :: n) :: l) (by simp) (by simp only [List.length_cons] at h3 ⊢; omega) g3 (by
      simp only [auBytes, List.map_cons, List.sum_cons, List.length_cons] at h3 ⊢; omega)
    refine ⟨_, enc, by simp [addDelimiter, idx_zero_cons, hb], fun x hx => (g3 x hx).1, e1, e2, ?_⟩
    rw [ts_dropDelimiter _ _ (by simp) fun x hx => (g3 x hx).1, ts_withoutDelimiter_cons, if_neg hb]

/-- A request with timestamps, read back. -/
theorem ts_read (r : Reader) (t' : Track) (u : TSWriter.TSUnit) (sid : Nat) (data : Bytes) (last : Option Int) (cb : Callback)
    (pts : Int) (ht : findTrack r.tracks u.track = some t') (hk : t'.codec ≠ .klv false) (hcb : r.onData u.track = some cb)
    (hp : u.pts = some pts) :
    r.read (demux ⟨u, sid, data⟩ last) = (do
      let e ← onData cb (pts % 2 ^ 33) (u.dts.getD pts % 2 ^ 33) data
      .ok (some e)) := by
  unfold Reader.read demux
  simp only [ht, if_neg hk, hp, Option.isNone_some, Bool.false_eq_true, if_false, Option.map_some]
  cases hd : u.dts with
  | none => simp [clock33, timestamps, deref, Reader.deliver, hcb]
  | some dts => simp [clock33, timestamps, deref, Reader.deliver, hcb]

theorem ts_videoUnit (w : TSWriter.Writer) (pid : Nat) (pts dts : Int) (ra : Bool) :
    (w.writeVideo pid pts dts ra).1.track = pid ∧ (w.writeVideo pid pts dts ra).1.pts = some pts ∧
    (w.writeVideo pid pts dts ra).1.dts.getD pts = dts := by
  refine ⟨rfl, rfl, ?_⟩
  simp only [TSWriter.Writer.writeVideo]
  split
  next h => exact h.symm
  · rfl

theorem ts_otherUnit (w : TSWriter.Writer) (pid : Nat) (b : Bool) (pts : Int) :
    (w.writeOther pid b pts).1.track = pid ∧ (w.writeOther pid b pts).1.pts = (if b then some pts else none) ∧
    (w.writeOther pid b pts).1.dts = none := ⟨rfl, rfl, rfl⟩

theorem ts_readVideo (r : Reader) (w : Writer) (t t' : Track) (pts dts : Int) (ra : Bool) (data : Bytes) (last : Option Int)
    (cb : Callback) (ht : findTrack r.tracks t.pid = some t') (hk : t'.codec ≠ .klv false) (hcb : r.onData t.pid = some cb) :
    r.read (demux (w.writeVideo t.pid pts dts ra data).1 last) = (do
      let e ← onData cb (pts % 2 ^ 33) (dts % 2 ^ 33) data
      .ok (some e)) := by
  obtain ⟨h1, h2, h3⟩ := ts_videoUnit w.clock t.pid pts dts ra
  have := ts_read r t' (w.clock.writeVideo t.pid pts dts ra).1 224 data last cb pts (by rw [h1, ht]) hk (by rw [h1, hcb]) h2
  rw [h3] at this
  exact this

theorem ts_readOther (r : Reader) (w : Writer) (t t' : Track) (pts : Int) (sid : Nat) (data : Bytes) (last : Option Int)
    (cb : Callback) (ht : findTrack r.tracks t.pid = some t') (hk : t'.codec ≠ .klv false) (hcb : r.onData t.pid = some cb) :
    r.read (demux (w.writeOther t.pid true pts sid data).1 last) = (do
      let e ← onData cb (pts % 2 ^ 33) (pts % 2 ^ 33) data
      .ok (some e)) := by
  obtain ⟨h1, h2, h3⟩ := ts_otherUnit w.clock t.pid true pts
  have := ts_read r t' (w.clock.writeOther t.pid true pts).1 sid data last cb pts (by rw [h1, ht]) hk (by rw [h1, hcb]) h2
  rw [h3] at this
  exact this

theorem ts_samePTS_self (p : Int) (x : Res Event) : samePTS p p x = x := by simp [samePTS]

theorem ts_adts (c : MPEG4Audio.ASC) (aus : List Bytes) :
    ((aus.map (adtsOf c)).map adtsNormal).map MPEG4Audio.ADTSPacket.au = aus := by
  rw [List.map_map, List.map_map]
  refine (List.map_congr_left (g := id) fun au _ => ?_).trans (List.map_id _)
  simp only [Function.comp, adtsNormal]
  split <;> rfl

/-- C78: a unit written to a track, in any state of the writer, produces a PES packet for which the reader calls the callback of the
track with the same unit. -/
theorem C78_round_trip (w : Writer) (r : Reader) (t t' : Track) (cb : Callback) (c : Call) (last : Int)
    (ht : findTrack r.tracks t.pid = some t') (hk : t'.codec = .klv false ↔ t.codec = .klv false)
    (hcb : r.onData t.pid = some cb) (hc : GoodCall t cb c) :
    ∃ req w', w.write t c = .ok (req, w') ∧ r.read (demux req (some last)) = .ok (some (received t last c)) := by
  have video : ∀ pts dts ra data e, t.codec ≠ .klv false → onData cb (pts % 2 ^ 33) (dts % 2 ^ 33) data = .ok e →
      r.read (demux (w.writeVideo t.pid pts dts ra data).1 (some last)) = .ok (some e) := by
    intro pts dts ra data e h1 h2
    rw [ts_readVideo r w t t' pts dts ra data _ cb ht (fun h => h1 (hk.1 h)) hcb, h2]; rfl
  have other : ∀ (w : Writer) pts sid data e, t.codec ≠ .klv false → onData cb (pts % 2 ^ 33) (pts % 2 ^ 33) data = .ok e →
      r.read (demux (w.writeOther t.pid true pts sid data).1 (some last)) = .ok (some e) := by
    intro w pts sid data e h1 h2
    rw [ts_readOther r w t t' pts sid data _ cb ht (fun h => h1 (hk.1 h)) hcb, h2]; rfl
  cases c with
  | h265 pts dts au =>
    obtain ⟨h1, rfl, h3⟩ := hc
    obtain ⟨au', enc, e1, e2, e3, e4, e5⟩ := ts_nalus 0x46 [1, 0x50] au h3 (by unfold hasStartCode; decide)
    refine ⟨_, _, by simp only [Writer.write, e1, e3, C10_h265 au' e2, Res.bind_ok]; rfl, video _ _ _ _ _ (by rw [h1]; simp) ?_⟩
    simp only [onData, e4, orDecodeError, e5, Res.bind_ok, received]
  | h264 pts dts au =>
    obtain ⟨h1, rfl, h3⟩ := hc
    obtain ⟨au', enc, e1, e2, e3, e4, e5⟩ := ts_nalus 9 [240] au h3 (by unfold hasStartCode; decide)
    refine ⟨_, _, by simp only [Writer.write, e1, e3, C10_h264 au' e2, Res.bind_ok]; rfl, video _ _ _ _ _ (by rw [h1]; simp) ?_⟩
    simp only [onData, e4, orDecodeError, e5, Res.bind_ok, received]
  | mpeg4Video pts frame =>
    obtain ⟨h1, rfl⟩ := hc
    exact ⟨_, _, rfl, video _ _ _ _ _ (by rw [h1]; simp) rfl⟩
  | mpeg1Video pts frame =>
    obtain ⟨h1, rfl⟩ := hc
    exact ⟨_, _, rfl, video _ _ _ _ _ (by rw [h1]; simp) rfl⟩
  | opus pts packets =>
    obtain ⟨⟨d, n, h1⟩, rfl, h3⟩ := hc
    obtain ⟨enc, e1, e2⟩ := Res.bind_eq_ok.1 (C40_write_read packets h3)
    refine ⟨_, _, by simp only [Writer.write, e1, Res.bind_ok]; rfl, other _ _ _ _ _ (by rw [h1]; simp) ?_⟩
    simp only [onData, ts_samePTS_self, e2, orDecodeError, received]
  | mpeg4Audio pts aus =>
    obtain ⟨c, h1, rfl, h3, h4⟩ := hc
    obtain ⟨enc, e1, e2⟩ := Res.bind_eq_ok.1 (C19_round_trip_normal (aus.map (adtsOf c)) (by simpa using h3) (by simpa using h4))
    refine ⟨_, _, by simp only [Writer.write, h1, e1, Res.bind_ok]; rfl, other _ _ _ _ _ (by rw [h1]; simp) ?_⟩
    simp only [onData, ts_samePTS_self, e2, orDecodeError, ts_adts, received]
  | latm pts els =>
    obtain ⟨h1, rfl, h3, h4⟩ := hc
    obtain ⟨enc, e1, e2⟩ := Res.bind_eq_ok.1 (C21_round_trip els h3 h4)
    refine ⟨_, _, by simp only [Writer.write, e1, Res.bind_ok]; rfl, other _ _ _ _ _ (by rw [h1]; simp) ?_⟩
    simp only [onData, ts_samePTS_self, e2, orDecodeError, received]
  | mpeg1Audio pts frames =>
    obtain ⟨h1, rfl, h3, f, hd, h4, h5, h6⟩ := hc
    have e1 : ∃ w', checkMP3 w t.pid frames = .ok w' := by
      cases frames with
      | nil => simp at h4
      | cons x l =>
        simp only [List.head?_cons, Option.some_inj] at h4
        subst h4
        unfold checkMP3
        split
        · exact ⟨_, rfl⟩
        · simp only [idx_zero_cons, Res.bind_ok, h5, h6, Bool.false_eq_true, if_false]
          exact ⟨_, rfl⟩
    obtain ⟨w', e1⟩ := e1
    refine ⟨_, _, by simp only [Writer.write, e1, Res.bind_ok]; rfl, other _ _ _ _ _ (by rw [h1]; simp) ?_⟩
    simp only [onData, ts_samePTS_self, C31_split_complete frames h3, orDecodeError, received]
  | ac3 pts frame =>
    obtain ⟨⟨d, n, h1⟩, rfl, s, h3, h4⟩ := hc
    refine ⟨_, _, rfl, other _ _ _ _ _ (by rw [h1]; simp) ?_⟩
    simp [onData, ts_samePTS_self, h3, orDecodeError, h4, received]
  | eac3 pts frame =>
    obtain ⟨⟨d, n, h1⟩, rfl, s, h3⟩ := hc
    refine ⟨_, _, rfl, other _ _ _ _ _ (by rw [h1]; simp) ?_⟩
    simp [onData, ts_samePTS_self, h3, orDecodeError, received]
  | klv pts unit =>
    obtain ⟨s, h1, rfl, h3⟩ := hc
    cases s with
    | true =>
      obtain ⟨h3, h4⟩ := h3 rfl
      obtain ⟨enc, e1, e2⟩ := Res.bind_eq_ok.1 (C43_round_trip unit h3 h4)
      refine ⟨_, _, by simp only [Writer.write, h1, e1, Res.bind_ok]; rfl, other _ _ _ _ _ (by rw [h1]; simp) ?_⟩
      simp [onData, e2, orDecodeError, h1, received]
    | false =>
      refine ⟨_, _, by simp only [Writer.write, h1]; rfl, ?_⟩
      have h1' := hk.2 h1
      simp [Reader.read, demux, TSWriter.Writer.writeOther, ht, h1', Reader.deliver, hcb, onData, received, h1]
  | dvbSubtitle pts data =>
    obtain ⟨⟨d, h1⟩, rfl⟩ := hc
    exact ⟨_, _, rfl, other _ _ _ _ _ (by rw [h1]; simp) rfl⟩

/-- The requests of a sequence of calls. -/
def writeRequests (w : Writer) : List (Track × Call) → Res (List Request)
  | [] => .ok []
  | (t, c) :: l => do
    let (req, w) ← w.write t c
    let reqs ← writeRequests w l
    .ok (req :: reqs)

/-- The events of a sequence of `Read`. -/
def readEvents (r : Reader) : List Data → Res (List (Option Event))
  | [] => .ok []
  | d :: l => do
    let e ← r.read d
    let es ← readEvents r l
    .ok (e :: es)

/-- C78: any sequence of units written to any tracks is read back in order. -/
theorem C78_sequence (w : Writer) (r : Reader) (last : Int) (l : List (Track × Call))
    (h : ∀ x ∈ l, ∃ t' cb, findTrack r.tracks x.1.pid = some t' ∧ (t'.codec = .klv false ↔ x.1.codec = .klv false) ∧
      r.onData x.1.pid = some cb ∧ GoodCall x.1 cb x.2) :
    ∃ reqs, writeRequests w l = .ok reqs ∧
      readEvents r (reqs.map fun q => demux q (some last)) = .ok (l.map fun x => some (received x.1 last x.2)) := by
  induction l generalizing w with
  | nil => exact ⟨[], rfl, rfl⟩
  | cons x l ih =>
    obtain ⟨t', cb, h1, h2, h3, h4⟩ := h x (by simp)
    obtain ⟨req, w', e1, e2⟩ := C78_round_trip w r x.1 t' cb x.2 last h1 h2 h3 h4
    obtain ⟨reqs, e3, e4⟩ := ih w' fun y hy => h y (List.mem_cons_of_mem _ hy)
    refine ⟨req :: reqs, by simp only [writeRequests, e1, e3, Res.bind_ok], ?_⟩
    simp only [List.map_cons, readEvents, e2, e4, Res.bind_ok]

/-- The limit of 49 NALUs is needed: an access unit of 50 NALUs, which the Annex B format of the library supports, is written with a
delimiter as the 51st one. The reader refuses it. -/
theorem C78_fifty_false : (do
    let enc ← H264.annexbMarshal (List.replicate 50 [1])
    H264.annexbUnmarshal enc) = .ok (List.replicate 50 [1]) ∧
    ∃ e, (do
      let (req, _) ← Writer.write {} { pid := 256, codec := .h264 } (.h264 0 0 (List.replicate 50 [1]))
      Reader.read ⟨[{ pid := 256, codec := .h264 }], fun _ => some .h264⟩ (demux req none)) = .ok (some (.decodeError e)) :=
  ⟨by decide +kernel, "NALU count exceeds maximum allowed", by decide +kernel⟩

/-- The other hypotheses are needed as well: the writer panics on an access unit that is empty or holds an empty NALU, and on an
empty list of MPEG-1 audio frames. Empty synchronous KLV units are written and cannot be read. -/
theorem C78_empty_false :
    Writer.write {} { pid := 256, codec := .h264 } (.h264 0 0 []) = .panic ∧
    Writer.write {} { pid := 256, codec := .h264 } (.h264 0 0 [[1], []]) = .panic ∧
    Writer.write {} { pid := 256, codec := .h265 } (.h265 0 0 [[]]) = .panic ∧
    Writer.write {} { pid := 256, codec := .mpeg1Audio } (.mpeg1Audio 0 []) = .panic ∧
    ∃ req w e, Writer.write {} { pid := 256, codec := .klv true } (.klv 0 []) = .ok (req, w) ∧
      Reader.read ⟨[{ pid := 256, codec := .klv true }], fun _ => some (.klv true)⟩ (demux req none) = .ok (some (.decodeError e)) :=
  ⟨rfl, rfl, rfl, rfl, _, _, _, rfl, rfl⟩

/-- Units that meet the hypotheses, on several tracks. -/
def tsTracks : List Track := [⟨256, [], .h264⟩, ⟨257, [], .mpeg4Audio ⟨2, 48000, 2, 2, 0, 0, false, false, 0⟩⟩, ⟨258, [], .klv false⟩]

def tsReader : Reader := ⟨tsTracks, fun pid => if pid = 256 then some .h264 else if pid = 257 then some .mpeg4Audio else some (.klv false)⟩

example : (do
    let reqs ← writeRequests {} [(⟨256, [], .h264⟩, .h264 90000 87000 [[0x67, 1], [0x65, 2]]),
      (⟨257, [], .mpeg4Audio ⟨2, 48000, 2, 2, 0, 0, false, false, 0⟩⟩, .mpeg4Audio (-1) [[1, 2], [3]]),
      (⟨258, [], .klv false⟩, .klv 0 [7])]
    readEvents tsReader (reqs.map fun q => demux q (some 90000))) =
    .ok [some (.nalus 90000 87000 [[0x67, 1], [0x65, 2]]), some (.units (2 ^ 33 - 1) [[1, 2], [3]]), some (.unit 90000 [7])] := by
  decide +kernel

example : GoodCall ⟨256, [], .h264⟩ .h264 (.h264 90000 87000 [[0x67, 1], [0x65, 2]]) :=
  ⟨rfl, rfl, by simp, by unfold hasStartCode; decide, by decide⟩
example : GoodCall ⟨257, [], .mpeg4Audio ⟨2, 48000, 2, 2, 0, 0, false, false, 0⟩⟩ .mpeg4Audio (.mpeg4Audio (-1) [[1, 2], [3]]) := by
  refine ⟨_, rfl, rfl, by simp, fun au hau => ⟨by simp [adtsOf], ⟨3, rfl⟩, by simp [adtsOf], by simp [adtsOf], ?_⟩⟩
  simp only [List.mem_cons, List.not_mem_nil, or_false] at hau
  rcases hau with rfl | rfl <;> decide
example : GoodCall ⟨259, [], .mpeg1Audio⟩ .mpeg1Audio (.mpeg1Audio 5 [exampleFrame, exampleFrame]) := by
  refine ⟨rfl, rfl, ?_, exampleFrame, ⟨false, 2, 32000, 48000, false, 3⟩, rfl, by decide +kernel, rfl⟩
  intro f hf
  simp only [List.mem_cons, List.not_mem_nil, or_false, or_self] at hf
  subst hf
  exact ⟨⟨false, 2, 32000, 48000, false, 3⟩, by decide +kernel, by decide +kernel⟩

end Verif.Props
