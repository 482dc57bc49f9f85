import Verif.Model.Receivers
import Verif.Lemmas.BitM

/-!
# C103: decoding into a value that has been used before

The statement is `Forgets`: the result of `Unmarshal` is a function of the bytes.
-/

namespace Verif.Props
open Verif.BitM

/-- The result does not depend on what the receiver held. -/
def Forgets {α β : Type} (into : α → Bytes → Res β) : Prop := ∀ old old' buf, into old buf = into old' buf

/-! ## Helpers -/

theorem stale_cond {α : Type} (c : Bool) (p : BitM α) (a b : α) :
    BitM.cond c p a = (BitM.cond c p b >>= fun v => pure (if c = true then v else a)) := by
  cases c
  · rfl
  · simp [BitM.cond]

theorem stale_ite {α β : Type} (c : Prop) [Decidable c] (p q : BitM α) (f : α → BitM β) :
    (ite c p q >>= f) = ite c (p >>= f) (q >>= f) := by
  split <;> rfl

theorem stale_fail {α β : Type} (e : String) (f : α → BitM β) : (BitM.fail e >>= f) = BitM.fail e := rfl

theorem stale_run {α : Type} (p : BitM α) (f : α → α) (buf : Bytes) (pos : Nat) :
    ((p >>= fun c => pure (f c)) buf pos >>= fun r => Res.ok r.1) = ((p buf pos >>= fun r => Res.ok r.1) >>= fun c => .ok (f c)) := by
  simp only [Bind.bind]
  cases p buf pos <;> rfl

/-! ## AudioSpecificConfig -/

section
open MPEG4Audio

/-- What is decoded, with the fields that stay. -/
def staleASC (old c : ASC) : ASC :=
  { c with extensionType := if c.extensionType = 0 then old.extensionType else c.extensionType,
           extensionSampleRate := if c.extensionType = 0 then old.extensionSampleRate else c.extensionSampleRate,
           coreCoderDelay := if c.dependsOnCoreCoder = true then c.coreCoderDelay else old.coreCoderDelay }

theorem stale_asc (old : ASC) : old.unmarshalBitsInto = (ASC.unmarshalBits >>= fun c => pure (staleASC old c)) := by
  unfold ASC.unmarshalBitsInto ASC.unmarshalBits
  simp only [stale_cond _ _ old.extensionSampleRate 0, stale_cond _ _ old.coreCoderDelay 0, bind_assoc, pure_bind, stale_ite, stale_fail]
  refine bind_congr fun t => ?_
  by_cases h : t = 5 ∨ t = 29
  · have h0 : t ≠ 0 := by omega
    have hb : (t == 5 || t == 29) = true := by simpa using h
    simp [h, h0, hb, staleASC]
  · have hb : (t == 5 || t == 29) = false := by simpa using h
    simp [h, hb, staleASC]

/-- **C103**, AudioSpecificConfig: exactly what stays. -/
theorem C103_asc (old : ASC) (buf : Bytes) : old.unmarshalInto buf = (ASC.unmarshal buf >>= fun c => .ok (staleASC old c)) := by
  unfold ASC.unmarshalInto ASC.unmarshal
  rw [stale_asc]
  exact stale_run _ _ _ _

/-- **C103**, AudioSpecificConfig: what is written again is the same, when the value did not hold an SBR or PS configuration. Full statement:
`Forgets ASC.unmarshalInto`, see `C103_asc_false`. -/
theorem C103_asc_partial (old : ASC) (h : old.extensionType ≠ 5 ∧ old.extensionType ≠ 29) (buf : Bytes) :
    (old.unmarshalInto buf >>= ASC.marshal) = (ASC.unmarshal buf >>= ASC.marshal) := by
  rw [C103_asc]
  cases ASC.unmarshal buf with
  | err e => rfl
  | panic => rfl
  | ok c =>
    show (staleASC old c).marshal = c.marshal
    have e1 : (staleASC old c).marshalSizeBits = c.marshalSizeBits := by
      by_cases h0 : c.extensionType = 0 <;> simp [ASC.marshalSizeBits, staleASC, h0, h]
    have e2 : (staleASC old c).marshalW = c.marshalW := by
      unfold ASC.marshalW
      by_cases h0 : c.extensionType = 0 <;> cases hd : c.dependsOnCoreCoder <;> simp [staleASC, configW, h0, hd, h]
    unfold ASC.marshal
    rw [e1, e2]

/-- AAC-LC, 48 kHz, stereo; and with SBR, 24 kHz to 48 kHz. -/
def staleLC : Bytes := [0x11, 0x90]
def staleSBR : Bytes := [0x2b, 0x11, 0x88, 0x00]

/-- A value that held AAC-LC decodes AAC-LC, and writes it again as it was. -/
example : ((ASC.mk 2 44100 1 1 0 0 false true 7).unmarshalInto staleLC >>= ASC.marshal) = .ok staleLC := by decide +kernel

/-- **C103** is false for AudioSpecificConfig: AAC-LC decoded into a value that held SBR is written again as SBR. -/
theorem C103_asc_false : ∃ old, ASC.unmarshal staleSBR = .ok old ∧ (ASC.unmarshal staleLC >>= ASC.marshal) = .ok staleLC ∧
    (old.unmarshalInto staleLC >>= ASC.marshal) = .ok [0x29, 0x91, 0x88, 0x00] ∧ ¬Forgets ASC.unmarshalInto := by
  refine ⟨⟨2, 24000, 2, 2, 5, 48000, false, false, 0⟩, by decide +kernel, by decide +kernel, by decide +kernel, fun h => ?_⟩
  exact absurd (h ⟨2, 24000, 2, 2, 5, 48000, false, false, 0⟩ ⟨2, 24000, 2, 2, 0, 48000, false, false, 0⟩ staleLC) (by decide +kernel)

/-! ## StreamMuxConfig -/

theorem stale_loop (fuel v w : Nat) : (otherDataLoop fuel v >>= fun _ => pure ()) = (otherDataLoop fuel w >>= fun _ => (pure () : BitM Unit)) := by
  induction fuel generalizing v w with
  | zero => rfl
  | succ n ih =>
    simp only [otherDataLoop, bind_assoc]
    refine bind_congr fun _ => ?_
    refine bind_congr fun esc => ?_
    refine bind_congr fun tmp => ?_
    cases esc
    · simp only [Bool.not_false, if_true, pure_bind]
    · simp only [Bool.not_true, Bool.false_eq_true, if_false]
      exact ih _ _

theorem stale_mux0 (old : StreamMuxConfig) (h1 : old.otherDataPresent = false) (h2 : old.otherDataLenBits = 0)
    (h3 : old.crcCheckPresent = false) (h4 : old.crcCheckSum = 0) : old.unmarshalBitsInto = StreamMuxConfig.unmarshalBits := by
  unfold StreamMuxConfig.unmarshalBitsInto StreamMuxConfig.unmarshalBits readMuxTailInto readMuxTail
  rw [h1, h2, h3, h4]
  rfl

/-- **C103**, StreamMuxConfig, when nothing that comes after the programs was set. Full statement: `Forgets StreamMuxConfig.unmarshalInto`, see
`C103_mux_false`. -/
theorem C103_mux_partial (old : StreamMuxConfig) (h1 : old.otherDataPresent = false) (h2 : old.otherDataLenBits = 0)
    (h3 : old.crcCheckPresent = false) (h4 : old.crcCheckSum = 0) (buf : Bytes) : old.unmarshalInto buf = StreamMuxConfig.unmarshal buf := by
  unfold StreamMuxConfig.unmarshalInto StreamMuxConfig.unmarshal
  rw [stale_mux0 old h1 h2 h3 h4]

theorem stale_muxPrograms (old : StreamMuxConfig) : (old.unmarshalBitsInto >>= fun c => pure (c.numSubFrames, c.programs)) =
    (StreamMuxConfig.unmarshalBits >>= fun c => pure (c.numSubFrames, c.programs)) := by
  unfold StreamMuxConfig.unmarshalBitsInto StreamMuxConfig.unmarshalBits
  simp only [bind_assoc, stale_ite, stale_fail]
  refine bind_congr fun _ => ?_
  refine bind_congr fun v => ?_
  cases v
  · simp only [Bool.false_eq_true, if_false]
    refine bind_congr fun a => ?_
    cases a
    · simp only [Bool.not_false, if_true]
    · simp only [Bool.not_true, Bool.false_eq_true, if_false]
      refine bind_congr fun n => ?_
      refine bind_congr fun m => ?_
      refine bind_congr fun r => ?_
      obtain ⟨ps, cut⟩ := r
      cases cut
      · simp only [Bool.false_eq_true, if_false, readMuxTailInto, readMuxTail, bind_assoc, pure_bind]
        refine bind_congr fun od => ?_
        cases od
        · simp only [BitM.cond, Bool.false_eq_true, if_false, pure_bind]
          refine bind_congr fun crc => ?_
          cases crc
          · rfl
          · rfl
        · simp only [BitM.cond, if_true, readOtherDataInto, readOtherData, bind_assoc]
          refine bind_congr fun len => ?_
          have e := stale_loop (len + 1) old.otherDataLenBits 0
          have k : ∀ v, (otherDataLoop (len + 1) v >>= fun _ => (readFlag >>= fun crc => (if crc = true then readBits 8 else pure 0) >>= fun _ =>
              (pure (n, ps) : BitM (Nat × List (List Layer))))) = ((otherDataLoop (len + 1) v >>= fun _ => pure ()) >>= fun _ =>
              (readFlag >>= fun crc => (if crc = true then readBits 8 else pure 0) >>= fun _ => pure (n, ps))) := by
            intro v; rw [bind_assoc]; rfl
          have k2 : ∀ (crc : Bool) (x : Nat), ((if crc = true then readBits 8 else pure x) >>= fun _ => (pure (n, ps) : BitM (Nat × List (List Layer)))) =
              ((if crc = true then readBits 8 else pure 0) >>= fun _ => pure (n, ps)) := by
            intro crc x; cases crc <;> rfl
          simp only [k2 _ old.crcCheckSum]
          rw [k, k, e]
      · simp only [if_true, pure_bind]
  · simp only [if_true]

/-- **C103**, StreamMuxConfig: the programs never depend on what was held, nor do errors. -/
theorem C103_mux_programs (old : StreamMuxConfig) (buf : Bytes) : (old.unmarshalInto buf >>= fun c => .ok (c.numSubFrames, c.programs)) =
    (StreamMuxConfig.unmarshal buf >>= fun c => .ok (c.numSubFrames, c.programs)) := by
  have e := congrFun (congrFun (stale_muxPrograms old) buf) 0
  unfold StreamMuxConfig.unmarshalInto StreamMuxConfig.unmarshal
  simp only [Bind.bind, Pure.pure] at e ⊢
  match h1 : old.unmarshalBitsInto buf 0, h2 : StreamMuxConfig.unmarshalBits buf 0 with
  | .ok a, .ok b =>
    rw [h1, h2] at e
    simp only [Res.bind, Res.ok.injEq, Prod.mk.injEq] at e ⊢
    obtain ⟨⟨e1, e2⟩, e3⟩ := e
    rw [e3]
    by_cases hc : ceil8 b.2 ≠ buf.length
    · rw [if_pos hc, if_pos hc]
    · rw [if_neg hc, if_neg hc]
      simp only [e1, e2]
  | .err a, .err b => rw [h1, h2] at e; simp only [Res.bind] at e ⊢; cases e; rfl
  | .panic, .panic => rfl
  | .ok a, .err b => rw [h1, h2] at e; cases e
  | .ok a, .panic => rw [h1, h2] at e; cases e
  | .err a, .ok b => rw [h1, h2] at e; cases e
  | .err a, .panic => rw [h1, h2] at e; cases e
  | .panic, .ok b => rw [h1, h2] at e; cases e
  | .panic, .err b => rw [h1, h2] at e; cases e

/-- One layer of AAC-LC and, after it, other data of five bits and a check sum. -/
def staleMux : StreamMuxConfig :=
  ⟨0, [[⟨some ⟨2, 48000, 2, 2, 0, 0, false, false, 0⟩, 0, 255, 0, 0, false⟩]], true, 5, true, 7⟩

/-- It is what its own encoding gives. -/
example : (staleMux.marshal >>= StreamMuxConfig.unmarshal) = .ok staleMux := by decide +kernel

/-- **C103** is false for StreamMuxConfig: the number of bits of other data goes on from the number that was held. -/
theorem C103_mux_false : ∃ buf, staleMux.marshal = .ok buf ∧ StreamMuxConfig.unmarshal buf = .ok staleMux ∧
    staleMux.unmarshalInto buf = .ok { staleMux with otherDataLenBits := 5 * 256 + 5 } ∧ ¬Forgets StreamMuxConfig.unmarshalInto := by
  refine ⟨[0x40, 0x00, 0x23, 0x20, 0x3f, 0xe0, 0x58, 0x38], by decide +kernel, by decide +kernel, by decide +kernel, fun h => ?_⟩
  exact absurd (h staleMux { staleMux with otherDataLenBits := 0 } [0x40, 0x00, 0x23, 0x20, 0x3f, 0xe0, 0x58, 0x38]) (by decide +kernel)

end

/-! ## Types that append -/

/-- Elements are appended to what is held, and errors are those of a fresh value. -/
def Appends {α : Type} (into : Bytes → StepM (List α) Unit) (fresh : Bytes → Res (List α)) : Prop := ∀ old buf,
  match fresh buf with
  | .ok l => into buf old = (old ++ l, .ok ())
  | .err e => ∃ l, into buf old = (old ++ l, .err e)
  | .panic => ∃ l, into buf old = (old ++ l, .panic)

theorem stale_until {α : Type} (p : BitM α) (fuel : Nat) (buf : Bytes) (pos : Nat) (old : List α) :
    match ByteR.untilEnd p fuel buf pos with
    | .ok r => appendUntilEnd p fuel buf pos old = (old ++ r.1, .ok ())
    | .err e => ∃ l, appendUntilEnd p fuel buf pos old = (old ++ l, .err e)
    | .panic => ∃ l, appendUntilEnd p fuel buf pos old = (old ++ l, .panic) := by
  induction fuel generalizing pos old with
  | zero => exact ⟨[], by simp [appendUntilEnd, StepM.lift]⟩
  | succ n ih =>
    cases hp : p buf pos with
    | err e =>
      have e1 : ByteR.untilEnd p (n + 1) buf pos = .err e := by simp [ByteR.untilEnd, Bind.bind, hp, Res.bind]
      rw [e1]
      exact ⟨[], by simp [appendUntilEnd, StepM.lift, Bind.bind, hp]⟩
    | panic =>
      have e1 : ByteR.untilEnd p (n + 1) buf pos = .panic := by simp [ByteR.untilEnd, Bind.bind, hp, Res.bind]
      rw [e1]
      exact ⟨[], by simp [appendUntilEnd, StepM.lift, Bind.bind, hp]⟩
    | ok r =>
      obtain ⟨a, pos'⟩ := r
      by_cases hl : buf.length - pos' = 0
      · have e1 : ByteR.untilEnd p (n + 1) buf pos = .ok ([a], pos') := by
          simp [ByteR.untilEnd, Bind.bind, hp, Res.bind, BitM.getPos, BitM.bufLen, hl, Pure.pure]
        rw [e1]
        simp [appendUntilEnd, StepM.lift, StepM.modify, Bind.bind, hp, hl, Pure.pure]
      · have e1 : ByteR.untilEnd p (n + 1) buf pos = ((ByteR.untilEnd p n buf pos').bind fun q => .ok (a :: q.1, q.2)) := by
          simp [ByteR.untilEnd, Bind.bind, hp, Res.bind, BitM.getPos, BitM.bufLen, hl, Pure.pure]
        have e2 : appendUntilEnd p (n + 1) buf pos old = appendUntilEnd p n buf pos' (old ++ [a]) := by
          simp [appendUntilEnd, StepM.lift, StepM.modify, Bind.bind, hp, hl]
        have i := ih pos' (old ++ [a])
        rw [e1, e2]
        cases hu : ByteR.untilEnd p n buf pos' with
        | ok q => rw [hu] at i; simpa [Res.bind] using i
        | err e => rw [hu] at i; obtain ⟨l, i⟩ := i; exact ⟨a :: l, by simpa using i⟩
        | panic => rw [hu] at i; obtain ⟨l, i⟩ := i; exact ⟨a :: l, by simpa using i⟩

/-- **C103**, ADTS packets are appended to those that are held. -/
theorem C103_adts : Appends MPEG4Audio.ADTSPackets.unmarshalInto MPEG4Audio.ADTSPackets.unmarshal := by
  intro old buf
  have h := stale_until MPEG4Audio.ADTSPacket.unmarshal (buf.length + 1) buf 0 old
  unfold MPEG4Audio.ADTSPackets.unmarshal MPEG4Audio.ADTSPackets.unmarshalInto
  revert h
  simp only [Bind.bind]
  cases ByteR.untilEnd MPEG4Audio.ADTSPacket.unmarshal (buf.length + 1) buf 0 <;> exact fun h => h

/-- **C103**, the elements of an AudioSyncStream are appended to those that are held. -/
theorem C103_sync : Appends MPEG4Audio.AudioSyncStream.unmarshalInto MPEG4Audio.AudioSyncStream.unmarshal := by
  intro old buf
  have h := stale_until MPEG4Audio.audioMuxElementRaw (buf.length + 1) buf 0 old
  unfold MPEG4Audio.AudioSyncStream.unmarshal MPEG4Audio.AudioSyncStream.unmarshalInto
  revert h
  simp only [Bind.bind]
  cases ByteR.untilEnd MPEG4Audio.audioMuxElementRaw (buf.length + 1) buf 0 <;> exact fun h => h

theorem stale_obus (fuel : Nat) (buf : Bytes) (old : List Bytes) :
    match AV1.bitstreamLoop fuel buf with
    | .ok l => AV1.bitstreamLoopInto fuel buf old = (old ++ l, .ok ())
    | .err e => ∃ l, AV1.bitstreamLoopInto fuel buf old = (old ++ l, .err e)
    | .panic => ∃ l, AV1.bitstreamLoopInto fuel buf old = (old ++ l, .panic) := by
  induction fuel generalizing buf old with
  | zero => exact ⟨[], by simp [AV1.bitstreamLoopInto, StepM.lift]⟩
  | succ n ih =>
    cases hp : AV1.bitstreamStep buf with
    | err e =>
      have e1 : AV1.bitstreamLoop (n + 1) buf = .err e := by simp [AV1.bitstreamLoop, Bind.bind, hp, Res.bind]
      rw [e1]
      exact ⟨[], by simp [AV1.bitstreamLoopInto, StepM.lift, Bind.bind, hp]⟩
    | panic =>
      have e1 : AV1.bitstreamLoop (n + 1) buf = .panic := by simp [AV1.bitstreamLoop, Bind.bind, hp, Res.bind]
      rw [e1]
      exact ⟨[], by simp [AV1.bitstreamLoopInto, StepM.lift, Bind.bind, hp]⟩
    | ok r =>
      obtain ⟨a, rest⟩ := r
      by_cases hl : rest.length = 0
      · have e1 : AV1.bitstreamLoop (n + 1) buf = .ok [a] := by
          simp only [AV1.bitstreamLoop, Bind.bind, hp, Res.bind]
          rw [if_pos hl]
        rw [e1]
        simp only [AV1.bitstreamLoopInto, StepM.lift, StepM.modify, Bind.bind, hp]
        rw [if_pos hl]
        rfl
      · have e1 : AV1.bitstreamLoop (n + 1) buf = ((AV1.bitstreamLoop n rest).bind fun q => .ok (a :: q)) := by
          simp only [AV1.bitstreamLoop, Bind.bind, hp, Res.bind]
          rw [if_neg hl]
        have e2 : AV1.bitstreamLoopInto (n + 1) buf old = AV1.bitstreamLoopInto n rest (old ++ [a]) := by
          simp only [AV1.bitstreamLoopInto, StepM.lift, StepM.modify, Bind.bind, hp]
          rw [if_neg hl]
        have i := ih rest (old ++ [a])
        rw [e1, e2]
        cases hu : AV1.bitstreamLoop n rest with
        | ok q => rw [hu] at i; simpa [Res.bind] using i
        | err e => rw [hu] at i; obtain ⟨l, i⟩ := i; exact ⟨a :: l, by simpa using i⟩
        | panic => rw [hu] at i; obtain ⟨l, i⟩ := i; exact ⟨a :: l, by simpa using i⟩

/-- **C103**, the OBUs of an AV1 bitstream are appended to those that are held. -/
theorem C103_obus : Appends AV1.bitstreamUnmarshalInto AV1.bitstreamUnmarshal := by
  intro old buf
  have h := stale_obus (buf.length + 1) buf old
  revert h
  unfold AV1.bitstreamUnmarshal AV1.bitstreamUnmarshalInto
  cases AV1.bitstreamLoop (buf.length + 1) buf <;> exact fun h => h

/-- **C103**, for the three: decoding one buffer after another gives the elements of all of them. -/
theorem C103_append_after {α : Type} {into : Bytes → StepM (List α) Unit} {fresh : Bytes → Res (List α)} (h : Appends into fresh) :
    ∀ (l : List (Bytes × List α)) (old : List α), (∀ x ∈ l, fresh x.1 = .ok x.2) → StepM.after into old (l.map (·.1)) = old ++ (l.map (·.2)).flatten
  | [], old, _ => by simp [StepM.after]
  | x :: l, old, hl => by
    have hx := h old x.1
    rw [hl x (List.mem_cons_self ..)] at hx
    show StepM.after into (into x.1 old).1 (l.map (·.1)) = _
    rw [hx, C103_append_after h l _ fun y hy => hl y (List.mem_cons_of_mem _ hy)]
    simp

/-- Two temporal units of AV1 into one value. -/
example : AV1.bitstreamUnmarshal [0x12, 0x00] = .ok [[0x10]] ∧ AV1.bitstreamUnmarshal [0x12, 0x00, 0x0a, 0x01, 0x77] = .ok [[0x10], [0x08, 0x77]] ∧
    StepM.after AV1.bitstreamUnmarshalInto [] [[0x12, 0x00], [0x12, 0x00, 0x0a, 0x01, 0x77]] = [[0x10], [0x10], [0x08, 0x77]] := by decide +kernel

/-- **C103** is false for the three: the element that was decoded before an error stays, and that of the previous call comes first. -/
theorem C103_append_false : AV1.bitstreamUnmarshalInto [0x12, 0x00, 0xff] [] = ([[0x10]], .err "forbidden bit is set") ∧
    AV1.bitstreamUnmarshalInto [0x12, 0x00] [[0x10]] = ([[0x10], [0x10]], .ok ()) ∧
    MPEG4Audio.AudioSyncStream.unmarshalInto [0x56, 0xe0, 0x01, 0x33] [[0x22]] = ([[0x22], [0x33]], .ok ()) ∧
    (MPEG4Audio.ADTSPackets.unmarshalInto [0xff, 0xf1, 0x4c, 0x80, 0x01, 0x1f, 0xfc, 0x55] [⟨2, 44100, 1, 1, [0xaa]⟩]).1 =
      [⟨2, 44100, 1, 1, [0xaa]⟩, ⟨2, 48000, 2, 2, [0x55]⟩] := by decide +kernel

/-! ## Opus in MPEG-TS -/

section
open TSOpus

/-- What is decoded, with the fields that stay. -/
def staleControl (old h : ControlHeader) : ControlHeader :=
  { h with startTrim := if h.startTrimFlag = true then h.startTrim else old.startTrim,
           endTrim := if h.endTrimFlag = true then h.endTrim else old.endTrim,
           controlExtensionLength := if h.controlExtensionFlag = true then h.controlExtensionLength else old.controlExtensionLength }

/-- **C103**, Opus control header: exactly what stays. -/
theorem C103_control (old : ControlHeader) : old.unmarshalInto = (ControlHeader.unmarshal >>= fun h => pure (staleControl old h)) := by
  unfold ControlHeader.unmarshalInto ControlHeader.unmarshal
  simp only [stale_cond _ _ old.startTrim 0, stale_cond _ _ old.endTrim 0, stale_cond _ _ old.controlExtensionLength 0, bind_assoc, pure_bind,
    stale_ite, stale_fail, staleControl]

/-- **C103**, Opus access unit: exactly what stays. -/
theorem C103_opusAU (old : AccessUnit) (buf : Bytes) :
    old.unmarshalInto buf = (AccessUnit.unmarshal buf >>= fun r => .ok ({ r.1 with controlHeader := staleControl old.controlHeader r.1.controlHeader }, r.2)) := by
  unfold AccessUnit.unmarshalInto AccessUnit.unmarshal
  rw [C103_control]
  simp only [Bind.bind, Pure.pure]
  cases ControlHeader.unmarshal buf 0 with
  | err e => rfl
  | panic => rfl
  | ok r =>
    simp only [Res.bind]
    cases sliceFrom buf (r.2 / 8) with
    | err e => rfl
    | panic => rfl
    | ok b =>
      show (if b.length < r.1.payloadSize then _ else _) = _
      by_cases hb : b.length < r.1.payloadSize
      · rw [if_pos hb]; dsimp only; rw [if_pos hb]
      · rw [if_neg hb]; dsimp only; rw [if_neg hb]
        rw [show (staleControl old.controlHeader r.1).payloadSize = r.1.payloadSize from rfl]
        cases slice b 0 r.1.payloadSize <;> rfl

/-- **C103**, Opus access unit: what is written is the same, whatever the value held. -/
theorem C103_opusAU_marshal (old : AccessUnit) (buf : Bytes) :
    (old.unmarshalInto buf >>= fun r => .ok (r.1.marshalSize, r.1.marshalTo, r.1.packet, r.2)) =
      (AccessUnit.unmarshal buf >>= fun r => .ok (r.1.marshalSize, r.1.marshalTo, r.1.packet, r.2)) := by
  rw [C103_opusAU]
  cases AccessUnit.unmarshal buf with
  | err e => rfl
  | panic => rfl
  | ok r =>
    obtain ⟨⟨⟨ps, s, e, c, st, et, cl⟩, pk⟩, n⟩ := r
    cases s <;> cases e <;> cases c <;> rfl

/-- An access unit without trimming, into a value that trimmed. -/
example : (AccessUnit.mk ⟨3, true, true, false, 100, 200, 0⟩ [1, 2, 3]).unmarshalInto [0x7f, 0xe0, 0x01, 0x09] =
    .ok (⟨⟨1, false, false, false, 100, 200, 0⟩, [0x09]⟩, 4) := by decide +kernel

/-- What is decoded, with the fields that stay. -/
def staleOpus (old d : Descriptor) : Descriptor :=
  { d with explicitChannelCount := if d.channelConfigCode = 0x81 then d.explicitChannelCount else old.explicitChannelCount,
           mappingFamily := if d.channelConfigCode = 0x81 then d.mappingFamily else old.mappingFamily,
           streamCount := if d.channelConfigCode = 0x81 ∧ d.mappingFamily ≠ 0 then d.streamCount else old.streamCount,
           coupledStreamCount := if d.channelConfigCode = 0x81 ∧ d.mappingFamily ≠ 0 then d.coupledStreamCount else old.coupledStreamCount,
           channelMapping := if d.channelConfigCode = 0x81 ∧ d.mappingFamily ≠ 0 then d.channelMapping else old.channelMapping }

/-- **C103**, Opus audio descriptor: exactly what stays. -/
theorem C103_opusDescriptor (old : Descriptor) (buf : Bytes) : old.unmarshalInto buf = (Descriptor.unmarshal buf >>= fun d => .ok (staleOpus old d)) := by
  unfold Descriptor.unmarshalInto Descriptor.unmarshal
  by_cases h1 : buf.length < 1
  · rw [if_pos h1, if_pos h1]; rfl
  rw [if_neg h1, if_neg h1]
  simp only [Bind.bind]
  cases idx buf 0 with
  | err e => rfl
  | panic => rfl
  | ok code =>
    simp only [Res.bind]
    by_cases hc : code = 0x81
    · rw [if_pos hc, if_pos hc]
      by_cases h3 : buf.length < 3
      · rw [if_pos h3, if_pos h3]
      rw [if_neg h3, if_neg h3]
      cases idx buf 1 with
      | err e => rfl
      | panic => rfl
      | ok ch =>
        dsimp only
        by_cases h0 : ch.toNat = 0
        · rw [if_pos h0, if_pos h0]
        rw [if_neg h0, if_neg h0]
        cases idx buf 2 with
        | err e => rfl
        | panic => rfl
        | ok fam =>
          dsimp only
          cases sliceFrom buf 3 with
          | err e => rfl
          | panic => rfl
          | ok b =>
            dsimp only
            by_cases hf : fam.toNat = 0
            · rw [if_pos hf, if_pos hf]
              by_cases h12 : ch.toNat = 1 ∨ ch.toNat = 2
              · rw [if_pos h12, if_pos h12]; simp [staleOpus, hc]
              · rw [if_neg h12, if_neg h12]
            · rw [if_neg hf, if_neg hf]
              cases readMapping ch.toNat b 0 with
              | err e => rfl
              | panic => rfl
              | ok r => simp [staleOpus, hc, hf]
    · rw [if_neg hc, if_neg hc]
      cases hl : (channelConfigTable.lookup code).isNone
      · simp [staleOpus, hc]
      · rfl

/-- **C103**, Opus audio descriptor: what is written and the number of channels are the same, whatever the value held. -/
theorem C103_opusDescriptor_marshal (old : Descriptor) (buf : Bytes) :
    (old.unmarshalInto buf >>= fun d => .ok (d.marshal, d.channelCount)) = (Descriptor.unmarshal buf >>= fun d => .ok (d.marshal, d.channelCount)) := by
  rw [C103_opusDescriptor]
  cases Descriptor.unmarshal buf with
  | err e => rfl
  | panic => rfl
  | ok d =>
    show Res.ok ((staleOpus old d).marshal, (staleOpus old d).channelCount) = .ok (d.marshal, d.channelCount)
    have e1 : (staleOpus old d).channelCount = d.channelCount := by
      by_cases hc : d.channelConfigCode = 0x81 <;> simp [Descriptor.channelCount, staleOpus, hc]
    have e2 : (staleOpus old d).marshal = d.marshal := by
      obtain ⟨code, ch, fam, sc, cc, cm⟩ := d
      by_cases hc : code = 0x81
      · by_cases hf : fam = 0
        · simp [Descriptor.marshal, staleOpus, hc, hf]
        · have : staleOpus old ⟨code, ch, fam, sc, cc, cm⟩ = ⟨code, ch, fam, sc, cc, cm⟩ := by simp [staleOpus, hc, hf]
          rw [this]
      · simp [Descriptor.marshal, staleOpus, hc]
    rw [e1, e2]

/-- Two channels, into a value that held an explicit mapping. -/
example : (Descriptor.mk 0x81 3 1 2 1 [0, 1, 2]).unmarshalInto [0x02] = .ok ⟨0x02, 3, 1, 2, 1, [0, 1, 2]⟩ := by decide +kernel

end

/-! ## Metadata descriptor -/

section
open TSMetadata

/-- What is decoded, with the fields that stay. -/
def staleMetadata (old d : Descriptor) : Descriptor :=
  { d with applicationFormatIdentifier := if (d.applicationFormat == 0xFFFF) = true then d.applicationFormatIdentifier else old.applicationFormatIdentifier,
           formatIdentifier := if (d.format == 0xFF) = true then d.formatIdentifier else old.formatIdentifier,
           serviceIdentification := if d.dsmccFlag = true then d.serviceIdentification else old.serviceIdentification,
           decoderConfig := if (d.decoderConfigFlags == 0b001) = true then d.decoderConfig else old.decoderConfig,
           decConfigIdentification := if (d.decoderConfigFlags == 0b011) = true then d.decConfigIdentification else old.decConfigIdentification,
           decoderConfigServiceID := if (d.decoderConfigFlags == 0b100) = true then d.decoderConfigServiceID else old.decoderConfigServiceID }

theorem stale_metadata (old : Descriptor) : old.unmarshalIntoM = (Descriptor.unmarshalM >>= fun d => pure (staleMetadata old d)) := by
  unfold Descriptor.unmarshalIntoM Descriptor.unmarshalM
  simp only [stale_cond _ _ old.applicationFormatIdentifier 0, stale_cond _ _ old.formatIdentifier 0, stale_cond _ _ old.serviceIdentification [],
    stale_cond _ _ old.decoderConfig [], stale_cond _ _ old.decConfigIdentification [], stale_cond _ _ old.decoderConfigServiceID 0,
    bind_assoc, pure_bind, stale_ite, stale_fail, staleMetadata]

/-- **C103**, metadata descriptor: exactly what stays. -/
theorem C103_metadata (old : Descriptor) (buf : Bytes) : old.unmarshalInto buf = (Descriptor.unmarshal buf >>= fun d => .ok (staleMetadata old d)) := by
  unfold Descriptor.unmarshalInto Descriptor.unmarshal
  rw [stale_metadata]
  exact stale_run _ _ _ _

/-- **C103**, metadata descriptor: what is written is the same, whatever the value held. -/
theorem C103_metadata_marshal (old : Descriptor) (buf : Bytes) :
    (old.unmarshalInto buf >>= Descriptor.marshal) = (Descriptor.unmarshal buf >>= Descriptor.marshal) := by
  rw [C103_metadata]
  cases Descriptor.unmarshal buf with
  | err e => rfl
  | panic => rfl
  | ok d =>
    show (staleMetadata old d).marshal = d.marshal
    obtain ⟨af, afi, f, fi, sid, dcf, ds, si, dc, dci, dcs, pd⟩ := d
    unfold Descriptor.marshal Descriptor.marshalSize staleMetadata
    dsimp only
    by_cases h1 : af = 0xFFFF <;> by_cases h2 : f = 0xFF <;> cases ds <;> by_cases h3 : dcf = 0b001 <;>
      by_cases h4 : dcf = 0b011 <;> by_cases h5 : dcf = 0b100 <;> simp [h1, h2, h3, h4, h5]

/-- KLVA after a descriptor with an application identifier. -/
example : (Descriptor.mk 0xFFFF 7 1 0 0 0 false [] [] [] 0 []).unmarshalInto [0x01, 0x00, 0xff, 0x4b, 0x4c, 0x56, 0x41, 0x00, 0x0f] =
    .ok ⟨0x0100, 7, 0xff, 0x4b4c5641, 0, 0, false, [], [], [], 0, []⟩ := by decide +kernel

end

/-! ## E-AC-3 -/

section
open EAC3

/-- What is decoded, with the field that stays. -/
def staleEAC3 (old s : SyncInfo) : SyncInfo := { s with fscod2 := if s.fscod = 3 then s.fscod2 else old.fscod2 }

/-- **C103**, E-AC-3: exactly what stays. -/
theorem C103_eac3 (old : SyncInfo) (frame : Bytes) : old.unmarshalInto frame = (SyncInfo.unmarshal frame >>= fun s => .ok (staleEAC3 old s)) := by
  have hb : ∀ pos f, readBlksInto old.fscod2 frame pos f = (readBlks frame pos f >>= fun r => .ok (if f = 3 then r.1 else old.fscod2, r.2.1, r.2.2)) := by
    intro pos f
    unfold readBlksInto readBlks
    simp only [Bind.bind]
    by_cases hf : f = 3
    · rw [if_pos hf, if_pos hf]
      cases Bits.readBitsUnsafe frame pos 2 with
      | err e => rfl
      | panic => rfl
      | ok r =>
        simp only [Res.bind]
        by_cases h3 : UInt8.ofNat r.1 = 3
        · rw [if_pos h3]
        · rw [if_neg h3]
          simp [hf]
    · rw [if_neg hf, if_neg hf]
      cases Bits.readBitsUnsafe frame pos 2 with
      | err e => rfl
      | panic => rfl
      | ok r => simp [Res.bind, hf]
  unfold SyncInfo.unmarshalInto SyncInfo.unmarshal
  by_cases h1 : frame.length < 8
  · rw [if_pos h1, if_pos h1]; rfl
  rw [if_neg h1, if_neg h1]
  simp only [Bind.bind]
  cases idx frame 0 with
  | err e => rfl
  | panic => rfl
  | ok f0 =>
  simp only [Res.bind]
  cases idx frame 1 with
  | err e => rfl
  | panic => rfl
  | ok f1 =>
  dsimp only
  by_cases h2 : f0 ≠ 0x0B ∨ f1 ≠ 0x77
  · rw [if_pos h2, if_pos h2]
  rw [if_neg h2, if_neg h2]
  cases Bits.readBitsUnsafe frame 16 2 with
  | err e => rfl
  | panic => rfl
  | ok r1 =>
  dsimp only
  cases Bits.readBitsUnsafe frame r1.2 3 with
  | err e => rfl
  | panic => rfl
  | ok r2 =>
  dsimp only
  cases Bits.readBitsUnsafe frame r2.2 11 with
  | err e => rfl
  | panic => rfl
  | ok r3 =>
  dsimp only
  cases Bits.readBitsUnsafe frame r3.2 2 with
  | err e => rfl
  | panic => rfl
  | ok r4 =>
  dsimp only
  rw [hb]
  simp only [Bind.bind]
  cases readBlks frame r4.2 (UInt8.ofNat r4.1) with
  | err e => rfl
  | panic => rfl
  | ok r5 =>
  simp only [Res.bind]
  cases Bits.readBitsUnsafe frame r5.2.2 3 with
  | err e => rfl
  | panic => rfl
  | ok r6 =>
  dsimp only
  cases Bits.readFlagUnsafe frame r6.2 with
  | err e => rfl
  | panic => rfl
  | ok r7 =>
  dsimp only
  cases Bits.readBitsUnsafe frame r7.2 5 with
  | err e => rfl
  | panic => rfl
  | ok r8 =>
  dsimp only
  by_cases h8 : UInt8.ofNat r8.1 ≠ 16
  · rw [if_pos h8, if_pos h8]
  · rw [if_neg h8, if_neg h8]
    rfl

/-- **C103**, E-AC-3: what is asked of it is the same, whatever the value held. -/
theorem C103_eac3_answers (old : SyncInfo) (frame : Bytes) :
    (old.unmarshalInto frame >>= fun s => .ok (s.frameSize, s.sampleRate, s.channelCount, s.numBlocks)) =
      (SyncInfo.unmarshal frame >>= fun s => .ok (s.frameSize, s.sampleRate, s.channelCount, s.numBlocks)) := by
  rw [C103_eac3]
  cases SyncInfo.unmarshal frame with
  | err e => rfl
  | panic => rfl
  | ok s =>
    show Res.ok ((staleEAC3 old s).frameSize, (staleEAC3 old s).sampleRate, (staleEAC3 old s).channelCount, (staleEAC3 old s).numBlocks) = _
    have e : (staleEAC3 old s).sampleRate = s.sampleRate := by
      by_cases h : s.fscod = 3 <;> simp [SyncInfo.sampleRate, staleEAC3, h]
    rw [e]
    rfl

/-- 48 kHz into a value that held 16 kHz. -/
example : ((SyncInfo.mk 0 0 0 3 2 3 2 false 16).unmarshalInto [0x0b, 0x77, 0x01, 0xff, 0x34, 0x80, 0x00, 0x00] >>= SyncInfo.sampleRate) = .ok 48000 := by
  decide +kernel

end

end Verif.Props
