import Verif.Model.MPEGTS
import Verif.Props.ADTS
import Verif.Props.AudioHeaders
import Verif.Props.H264
import Verif.Props.TSMetadata
import Verif.Props.TSOpus

/-!
# The MPEG-TS reader on arbitrary demultiplexed data (C77)
-/

namespace Verif.Props
open MPEGTS

/-- What `astits` guarantees about PES headers: the clock references that the indicator announces are there. -/
def ClocksPresent (p : PES) : Prop :=
  ∀ h, p.optional = some h → (h.indicator = 2 → h.pts.isSome) ∧ (h.indicator = 3 → h.pts.isSome ∧ h.dts.isSome) ∧ h.indicator < 4

theorem ts_orDecodeError {α : Type} {x : Res α} {f : α → Res Event} (hx : x.NoPanic) (hf : ∀ a, x = .ok a → (f a).NoPanic) :
    (orDecodeError x f).NoPanic := by
  unfold orDecodeError
  cases x with
  | ok a => exact hf a rfl
  | err e => simp
  | panic => exact absurd rfl hx

theorem ts_samePTS {pts dts : Int} {x : Res Event} (hx : x.NoPanic) : (samePTS pts dts x).NoPanic := by
  unfold samePTS
  split
  · simp
  · exact hx

/-- The NALUs without a leading delimiter. -/
def withoutDelimiter (delimiter : UInt8) (au : List Bytes) : List Bytes :=
  match au with
  | (b :: _) :: rest => if b = delimiter then rest else au
  | _ => au

theorem ts_dropDelimiter (d : UInt8) (au : List Bytes) (h1 : au ≠ []) (h2 : ∀ nalu ∈ au, nalu ≠ []) :
    dropDelimiter d au = .ok (withoutDelimiter d au) := by
  obtain ⟨nalu, rest, rfl⟩ := List.exists_cons_of_ne_nil h1
  obtain ⟨b, t, rfl⟩ := List.exists_cons_of_ne_nil (h2 nalu (by simp))
  unfold dropDelimiter withoutDelimiter
  simp only [idx_zero_cons, Res.bind_ok]
  split
  · rw [sliceFrom_ok (by simp)]; rfl
  · rfl

theorem ts_annexb {data : Bytes} {au : List Bytes} (h : H264.annexbUnmarshal data = .ok au) :
    au ≠ [] ∧ ∀ nalu ∈ au, nalu ≠ [] := by
  obtain ⟨_, h1, _, _, h2⟩ := (C09_annexb_sound data).2 au h
  exact ⟨by rintro rfl; simp at h1, fun n hn => (h2 n hn).1⟩

/-- C77: no payload of a PES packet makes a callback panic, whatever its codec and timestamps. -/
theorem C77_on_data (cb : Callback) (pts dts : Int) (data : Bytes) : (onData cb pts dts data).NoPanic := by
  cases cb with
  | h265 =>
    refine ts_orDecodeError (C09_annexb_sound data).1 fun au h => ?_
    rw [ts_dropDelimiter _ _ (ts_annexb h).1 (ts_annexb h).2]; simp
  | h264 =>
    refine ts_orDecodeError (C09_annexb_sound data).1 fun au h => ?_
    rw [ts_dropDelimiter _ _ (ts_annexb h).1 (ts_annexb h).2]; simp
  | mpegxVideo => simp [onData]
  | opus => exact ts_samePTS (ts_orDecodeError (C40_no_panic data) fun _ _ => by simp)
  | mpeg4Audio => exact ts_samePTS (ts_orDecodeError (C20_no_panic data) fun _ _ => by simp)
  | latm => exact ts_samePTS (ts_orDecodeError (C21_no_panic data) fun _ _ => by simp)
  | mpeg1Audio => exact ts_samePTS (ts_orDecodeError (C31_split_sound data).1 fun _ _ => by simp)
  | ac3 =>
    refine ts_samePTS (ts_orDecodeError (C30_ac3_sync data).1 fun s h => ?_)
    rw [((C30_ac3_sync data).2.1 s h).2.2.2.2.1, Res.bind_ok]
    split <;> simp
  | eac3 => exact ts_samePTS (ts_orDecodeError (C30_eac3 data).1 fun _ _ => by simp)
  | klv s =>
    cases s
    · simp [onData]
    · exact ts_orDecodeError (C43_read_sound data).1 fun _ _ => by simp
  | dvbSubtitle => simp [onData]

theorem ts_deliver (r : Reader) (pid : Nat) (pts dts : Int) (data : Bytes) : (r.deliver pid pts dts data).NoPanic := by
  unfold Reader.deliver
  split
  · simp
  · exact Res.noPanic_bind (C77_on_data _ _ _ _) fun _ _ => by simp

/-- C77: `Read` does not panic, whatever the demultiplexer delivers and whichever callbacks are registered. -/
theorem C77_read (r : Reader) (d : Data) (h : ∀ p, d.pes = some p → ClocksPresent p) : (r.read d).NoPanic := by
  unfold Reader.read
  cases hp : d.pes with
  | none => simp
  | some pes =>
  dsimp only
  split
  · simp
  split
  · split
    · simp
    · exact ts_deliver _ _ _ _ _
  cases ho : pes.optional with
  | none => simp
  | some hh =>
    obtain ⟨h2, h3, h4⟩ := h pes hp hh ho
    dsimp only
    by_cases h01 : hh.indicator = 0 ∨ hh.indicator = 1
    · rw [if_pos h01]; simp
    rw [if_neg h01]
    have hi : hh.indicator = 2 ∨ hh.indicator = 3 := by omega
    refine Res.noPanic_bind ?_ fun a _ => ts_deliver _ _ _ _ _
    unfold timestamps
    rcases hi with hi | hi
    · obtain ⟨pts, hpts⟩ := Option.isSome_iff_exists.1 (h2 hi)
      rw [hpts, hi]; simp [deref]
    · obtain ⟨pts, hpts⟩ := Option.isSome_iff_exists.1 (h3 hi).1
      obtain ⟨dts, hdts⟩ := Option.isSome_iff_exists.1 (h3 hi).2
      rw [hpts, hi, hdts]; simp [deref]

theorem ts_findPES (pid : Nat) (dem : Dem) : (findPES pid dem).NoPanic := by
  induction dem with
  | nil => simp [findPES]
  | cons d dem ih =>
    rw [findPES]
    split
    · exact ih
    · split
      · exact ih
      · simp

theorem ts_findOpus (l : List Desc) : (findOpusAudioDescriptor l).NoPanic := by
  induction l with
  | nil => simp [findOpusAudioDescriptor]
  | cons d l ih =>
    unfold findOpusAudioDescriptor
    split
    next h => exact absurd h (by simp)
    next h =>
      obtain ⟨h1, rfl⟩ := List.cons.inj h
      split
      · exact (C41_decode_sound _).1
      · exact ih
    next h =>
      obtain ⟨h1, rfl⟩ := List.cons.inj h
      exact ih

theorem ts_ite {α : Type} {c : Prop} [Decidable c] {a b : Res α} (h1 : a.NoPanic) (h2 : b.NoPanic) :
    (if c then a else b).NoPanic := by
  split <;> assumption

theorem ts_findCodec (dem : Dem) (es : ES) : (findCodec dem es).NoPanic := by
  unfold findCodec
  refine ts_ite (by simp) <| ts_ite (by simp) <| ts_ite (by simp) <| ts_ite (by simp) <| ts_ite ?_ <| ts_ite (by simp) <|
    ts_ite (by simp) <| ts_ite ?_ <| ts_ite ?_ <| ts_ite ?_ <| ts_ite (ts_ite (by simp) (by simp)) (by simp)
  · refine Res.noPanic_bind ?_ fun a _ => by simp
    unfold findMPEG4AudioConfig
    refine Res.noPanic_bind (ts_findPES _ _) fun a _ => ?_
    refine Res.noPanic_bind (C20_no_panic _) fun l hl => ?_
    obtain ⟨p, l, rfl⟩ := List.exists_cons_of_ne_nil ((C20_decode _ _).1 hl).1
    simp [idx_zero_cons]
  · refine Res.noPanic_bind ?_ fun a _ => by simp
    unfold findAC3Parameters
    refine Res.noPanic_bind (ts_findPES _ _) fun a _ => ?_
    refine Res.noPanic_bind (C30_ac3_sync _).1 fun s hs => ?_
    obtain ⟨_, ⟨b, hb, _⟩, _⟩ := (C30_ac3_sync _).2.1 s hs
    have := (List.getElem?_eq_some_iff.1 hb).1
    rw [sliceFrom_ok (by omega), Res.bind_ok]
    exact Res.noPanic_bind (C30_ac3_bsi _).1 fun s hs => by simp
  · refine Res.noPanic_bind ?_ fun a _ => by simp
    unfold findEAC3Parameters
    refine Res.noPanic_bind (ts_findPES _ _) fun a _ => ?_
    refine Res.noPanic_bind (C30_eac3 _).1 fun s hs => ?_
    rw [((C30_eac3 _).2 s hs).2.2.2.2.2.2.2.2.2.1]
    simp
  · refine Res.noPanic_bind ?_ fun a _ => by simp
    unfold findPrivate
    split
    · split
      · exact Res.noPanic_bind (ts_findOpus _) fun a _ => by simp
      · split <;> simp
    · dsimp only
      split <;> simp

theorem ts_unmarshalTracks (l : List ES) (dem : Dem) : (unmarshalTracks l dem).NoPanic := by
  induction l generalizing dem with
  | nil => simp [unmarshalTracks]
  | cons es l ih =>
    rw [unmarshalTracks]
    refine Res.noPanic_bind ?_ fun a _ => Res.noPanic_bind (ih _) fun _ _ => by simp
    unfold Track.unmarshal
    exact Res.noPanic_bind (ts_findCodec _ _) fun a _ => by simp

/-- C77: `Initialize` does not panic, whatever program map table and whatever packets the stream holds. -/
theorem C77_initialize (dem : Dem) : (readTracks dem).NoPanic := by
  unfold readTracks
  refine Res.noPanic_bind ?_ fun a _ => ts_unmarshalTracks _ _
  induction dem with
  | nil => simp [findPMT]
  | cons d dem ih =>
    rw [findPMT]
    split
    · exact ih
    · simp

/-- C77: what the callbacks receive. NALUs are not empty and at most 50; the elements of AAC packets have between 1 and 5120
bytes; MPEG-1 audio frames are complete and make up the payload; AC-3 frames have the size that they announce. -/
theorem C77_delivered (cb : Callback) (pts dts : Int) (data : Bytes) :
    (∀ p d au, onData cb pts dts data = .ok (.nalus p d au) → p = pts ∧ d = dts ∧ au.length ≤ 50 ∧
      ∀ nalu ∈ au, nalu ≠ [] ∧ nalu <:+: data) ∧
    (∀ p l, onData .mpeg1Audio pts dts data = .ok (.units p l) → p = pts ∧ pts = dts ∧ l.flatten = data ∧ ∀ f ∈ l, IsFrame f) ∧
    (∀ p l, onData .mpeg4Audio pts dts data = .ok (.units p l) → p = pts ∧ pts = dts ∧ l ≠ [] ∧
      ∀ au ∈ l, 1 ≤ au.length ∧ au.length ≤ 5120) ∧
    (∀ p f, onData .ac3 pts dts data = .ok (.unit p f) → p = pts ∧ pts = dts ∧ f = data ∧
      ∃ s, AC3.SyncInfo.unmarshal data = .ok s ∧ s.frameSize = .ok data.length) := by
  have hd : ∀ delim p d au, (orDecodeError (H264.annexbUnmarshal data) fun au => do
      let au ← dropDelimiter delim au
      Res.ok (Event.nalus pts dts au)) = .ok (.nalus p d au) → p = pts ∧ d = dts ∧ au.length ≤ 50 ∧
      ∀ nalu ∈ au, nalu ≠ [] ∧ nalu <:+: data := by
    intro delim p d au h
    unfold orDecodeError at h
    split at h
    next au' h' =>
      obtain ⟨g1, g2⟩ := ts_annexb h'
      simp only [ts_dropDelimiter _ _ g1 g2] at h
      simp only [Res.bind_ok, Res.ok.injEq, Event.nalus.injEq] at h
      obtain ⟨h1, h2, rfl⟩ := h
      obtain ⟨_, _, g3, _, g4⟩ := (C09_annexb_sound data).2 au' h'
      have hs : ∀ x ∈ withoutDelimiter delim au', x ∈ au' := by
        unfold withoutDelimiter
        split
        · split
          · intro x hx; exact List.mem_cons_of_mem _ hx
          · exact fun _ h => h
        · exact fun _ h => h
      refine ⟨h1.symm, h2.symm, ?_, fun x hx => ⟨(g4 x (hs x hx)).1, (g4 x (hs x hx)).2.2⟩⟩
      unfold withoutDelimiter
      split
      · split
        · simp at g3; omega
        · exact g3
      · exact g3
    · simp at h
    · simp at h
  have hs : ∀ {α : Type} (x : Res α) (f : α → Res Event) (e : Event), (∀ t, e ≠ .decodeError t) →
      samePTS pts dts (orDecodeError x f) = .ok e → pts = dts ∧ ∃ a, x = .ok a ∧ f a = .ok e := by
    intro α x f e hne h
    unfold samePTS at h
    split at h
    · simp only [Res.ok.injEq] at h; exact absurd h.symm (hne _)
    next hp =>
      refine ⟨Decidable.of_not_not hp, ?_⟩
      unfold orDecodeError at h
      split at h
      next a => exact ⟨a, rfl, h⟩
      · simp only [Res.ok.injEq] at h; exact absurd h.symm (hne _)
      · simp at h
  refine ⟨?_, ?_, ?_, ?_⟩
  · intro p d au h
    cases cb with
    | h265 => exact hd _ _ _ _ h
    | h264 => exact hd _ _ _ _ h
    | mpegxVideo => simp [onData] at h
    | opus => obtain ⟨_, a, _, h⟩ := hs _ _ _ (by simp) h; simp at h
    | mpeg4Audio => obtain ⟨_, a, _, h⟩ := hs _ _ _ (by simp) h; simp at h
    | latm => obtain ⟨_, a, _, h⟩ := hs _ _ _ (by simp) h; simp at h
    | mpeg1Audio => obtain ⟨_, a, _, h⟩ := hs _ _ _ (by simp) h; simp at h
    | ac3 =>
      obtain ⟨_, a, _, h⟩ := hs _ _ _ (by simp) h
      obtain ⟨s, _, h⟩ := Res.bind_eq_ok.1 h
      split at h <;> simp at h
    | eac3 => obtain ⟨_, a, _, h⟩ := hs _ _ _ (by simp) h; simp at h
    | klv s =>
      cases s
      · simp [onData] at h
      · simp only [onData, orDecodeError] at h
        split at h <;> simp at h
    | dvbSubtitle => simp [onData] at h
  · intro p l h
    obtain ⟨h1, a, h2, h⟩ := hs _ _ _ (by simp) h
    simp only [Res.ok.injEq, Event.units.injEq] at h
    obtain ⟨rfl, rfl⟩ := h
    exact ⟨rfl, h1, (C31_split_sound data).2 _ h2⟩
  · intro p l h
    obtain ⟨h1, a, h2, h⟩ := hs _ _ _ (by simp) h
    simp only [Res.ok.injEq, Event.units.injEq] at h
    obtain ⟨rfl, rfl⟩ := h
    refine ⟨rfl, h1, by simpa using ((C20_decode _ _).1 h2).1, ?_⟩
    intro au hau
    obtain ⟨q, hq, rfl⟩ := List.mem_map.1 hau
    exact (C20_sizes data a h2).1 q hq
  · intro p f h
    obtain ⟨h1, s, h2, h⟩ := hs _ _ _ (by simp) h
    obtain ⟨n, h3, h⟩ := Res.bind_eq_ok.1 h
    split at h
    · simp at h
    next hn =>
      simp only [Res.ok.injEq, Event.unit.injEq] at h
      obtain ⟨rfl, rfl⟩ := h
      exact ⟨rfl, h1, rfl, s, h2, by rw [h3, Decidable.of_not_not hn]⟩

/-- C77 does not extend to "the access units that are delivered are not empty": a payload that consists of a delimiter gives an
access unit without NALUs. Handed to `WriteH264` it makes the writer panic. -/
theorem C77_empty_au_false : onData .h264 5 5 [0, 0, 0, 1, 9, 240] = .ok (.nalus 5 5 []) ∧
    onData .h265 5 5 [0, 0, 0, 1, 0x46, 1, 0x50] = .ok (.nalus 5 5 []) ∧
    ∀ (w : Writer) (t : Track) pts dts, w.write t (.h264 pts dts []) = .panic ∧ w.write t (.h265 pts dts []) = .panic := by
  refine ⟨by decide +kernel, by decide +kernel, fun w t pts dts => ⟨rfl, rfl⟩⟩

/-- A well-formed packet for which `Read` calls a callback; a delimiter is removed. -/
example : Reader.read ⟨[{ pid := 256, codec := .h264 }], fun _ => some .h264⟩
    { pid := 256, pes := some ⟨224, some ⟨3, some 7, some 5⟩, [0, 0, 0, 1, 9, 240, 0, 0, 1, 0x65, 1]⟩ } =
      .ok (some (.nalus 7 5 [[0x65, 1]])) := by decide +kernel
example : ClocksPresent ⟨224, some ⟨3, some 7, some 5⟩, []⟩ := by
  intro h e; cases e; decide
/-- Without the hypothesis on clock references the code would dereference `nil`. -/
example : Reader.read ⟨[{ pid := 256, codec := .h264 }], fun _ => some .h264⟩
    { pid := 256, pes := some ⟨224, some ⟨3, some 7, none⟩, [0, 0, 0, 1, 9, 240, 0, 0, 1, 0x65, 1]⟩ } = .panic := by decide +kernel
example : readTracks [{ pid := 0 }, { pid := 4096, pmt := some [⟨256, 0x1B, []⟩, ⟨257, 0x06, [.registration 0x4F707573,
    .extension 0x80 (some [2]), .language [0x65, 0x6E, 0x67]]⟩, ⟨258, 0x42, []⟩] }] =
    .ok [⟨256, [], .h264⟩, ⟨257, [0x65, 0x6E, 0x67], .opus (some ⟨2, 0, 0, 0, 0, []⟩) 2⟩, ⟨258, [], .unsupported⟩] := by decide +kernel

end Verif.Props
