import Verif.Spec.ADTS
import Verif.Lemmas.ByteR
import Verif.Lemmas.ByteW

/-!
# Properties C19, C20 and C21: ADTS and AudioSyncStream
-/

namespace Verif.Props
open Verif.Spec Verif.MPEG4Audio Verif.ByteR

/-! ## The header as bits -/

theorem adts_byte1 : ∀ b : UInt8, byteBits b = bitsOfNat 4 (b.toNat >>> 4) ++
    ([((b >>> 3) &&& 1) != 0] ++ (bitsOfNat 2 ((b >>> 1) &&& 3).toNat ++ [(b &&& 1) == 1])) := forall_u8 (by decide +kernel)
theorem adts_byte2 : ∀ b : UInt8, byteBits b = bitsOfNat 2 (b >>> 6).toNat ++ (bitsOfNat 4 ((b >>> 2) &&& 0xF).toNat ++
    ([((b >>> 1) &&& 1) != 0] ++ bitsOfNat 1 (b &&& 1).toNat)) := forall_u8 (by decide +kernel)
theorem adts_byte3 : ∀ b : UInt8, byteBits b = bitsOfNat 2 ((b >>> 6) &&& 3).toNat ++
    (bitsOfNat 4 ((b >>> 2) &&& 15).toNat ++ bitsOfNat 2 (b.toNat &&& 3)) := forall_u8 (by decide +kernel)
theorem adts_byte5 : ∀ b : UInt8, byteBits b = bitsOfNat 3 ((b.toNat >>> 5) &&& 7) ++ bitsOfNat 5 (b.toNat % 32) :=
  forall_u8 (by decide +kernel)
theorem adts_byte6 : ∀ b : UInt8, byteBits b = bitsOfNat 6 (b.toNat >>> 2) ++ bitsOfNat 2 (b &&& 3).toNat :=
  forall_u8 (by decide +kernel)

theorem adts_lt : ∀ b : UInt8, b.toNat >>> 4 < 16 ∧ ((b >>> 1) &&& 3).toNat < 4 ∧ (b >>> 6).toNat < 4 ∧
    ((b >>> 2) &&& 0xF).toNat < 16 ∧ (b &&& 1).toNat < 2 ∧ ((b >>> 6) &&& 3).toNat < 4 ∧ ((b >>> 2) &&& 15).toNat < 16 ∧
    b.toNat &&& 3 < 4 ∧ (b.toNat >>> 5) &&& 7 < 8 ∧ b.toNat >>> 2 < 64 ∧ (b &&& 3).toNat < 4 ∧
    ((b >>> 6) + 1).toNat = (b >>> 6).toNat + 1 := forall_u8 (by decide +kernel)

theorem adts_config (b2 b3 : UInt8) : (((b2 &&& 0x01) <<< 2) ||| ((b3 >>> 6) &&& 0x03)).toNat =
    (b2 &&& 1).toNat * 2 ^ 2 + ((b3 >>> 6) &&& 3).toNat := by
  have : ∀ a : Fin 2, ∀ b : Fin 4, ((UInt8.ofNat a.val) <<< 2 ||| UInt8.ofNat b.val).toNat = a.val * 2 ^ 2 + b.val := by
    decide +kernel
  have h := this ⟨(b2 &&& 1).toNat, (adts_lt b2).2.2.2.2.1⟩ ⟨((b3 >>> 6) &&& 3).toNat, (adts_lt b3).2.2.2.2.2.1⟩
  simpa only [UInt8.ofNat_toNat] using h

theorem adts_frameLen (b3 b4 b5 : UInt8) : (b3.toNat &&& 0x03) <<< 11 ||| b4.toNat <<< 3 ||| ((b5.toNat >>> 5) &&& 0x07) =
    (b3.toNat &&& 3) * 2 ^ 11 + (b4.toNat * 2 ^ 3 + ((b5.toNat >>> 5) &&& 7)) := by
  have h4 := b4.toNat_lt
  have h5 := (adts_lt b5).2.2.2.2.2.2.2.2.1
  rw [Nat.or_assoc, shiftLeft_or _ _ 3 h5, shiftLeft_or _ _ 11 (by omega)]

/-- The fields of seven bytes, as they are read from them. -/
structure AdtsFields where
  sync : Nat
  protectionAbsent : Bool
  profile : Nat
  rateIndex : Nat
  config : Nat
  len : Nat
  blocks : Nat
  rest : AdtsRest

/-- The whole header, with every field free. -/
def adtsBits7 (f : AdtsFields) : List Bool :=
  bitsOfNat 12 f.sync ++ ([f.rest.id] ++ (bitsOfNat 2 f.rest.layer ++ ([f.protectionAbsent] ++ (bitsOfNat 2 f.profile ++
  (bitsOfNat 4 f.rateIndex ++ ([f.rest.privateBit] ++ (bitsOfNat 3 f.config ++ (bitsOfNat 4 f.rest.copyright ++
  (bitsOfNat 13 f.len ++ (bitsOfNat 11 f.rest.fullness ++ bitsOfNat 2 f.blocks))))))))))

structure AdtsFields.Fits (f : AdtsFields) : Prop where
  sync : f.sync < 2 ^ 12
  layer : f.rest.layer < 2 ^ 2
  profile : f.profile < 2 ^ 2
  rateIndex : f.rateIndex < 2 ^ 4
  config : f.config < 2 ^ 3
  copyright : f.rest.copyright < 2 ^ 4
  len : f.len < 2 ^ 13
  fullness : f.rest.fullness < 2 ^ 11
  blocks : f.blocks < 2 ^ 2

/-- What the decoder computes from the bytes. -/
def adtsFieldsOf (b0 b1 b2 b3 b4 b5 b6 : UInt8) : AdtsFields where
  sync := (b0.toNat <<< 4) ||| (b1.toNat >>> 4)
  protectionAbsent := (b1 &&& 1) == 1
  profile := (b2 >>> 6).toNat
  rateIndex := ((b2 >>> 2) &&& 0x0F).toNat
  config := (((b2 &&& 0x01) <<< 2) ||| ((b3 >>> 6) &&& 0x03)).toNat
  len := (b3.toNat &&& 0x03) <<< 11 ||| b4.toNat <<< 3 ||| ((b5.toNat >>> 5) &&& 0x07)
  blocks := (b6 &&& 3).toNat
  rest := { id := ((b1 >>> 3) &&& 1) != 0, layer := ((b1 >>> 1) &&& 3).toNat, privateBit := ((b2 >>> 1) &&& 1) != 0,
            copyright := ((b3 >>> 2) &&& 15).toNat, fullness := (b5.toNat % 32) * 2 ^ 6 + b6.toNat >>> 2 }

theorem adtsFields_bits (b0 b1 b2 b3 b4 b5 b6 : UInt8) :
    (adtsFieldsOf b0 b1 b2 b3 b4 b5 b6).Fits ∧
    bitsOf [b0, b1, b2, b3, b4, b5, b6] = adtsBits7 (adtsFieldsOf b0 b1 b2 b3 b4 b5 b6) := by
  have h0 := b0.toNat_lt
  have h4 := b4.toNat_lt
  obtain ⟨s1, l1, -⟩ := adts_lt b1
  obtain ⟨-, -, p2, r2, c2, -⟩ := adts_lt b2
  obtain ⟨-, -, -, -, -, c3, y3, n3, -⟩ := adts_lt b3
  obtain ⟨-, -, -, -, -, -, -, -, n5, -⟩ := adts_lt b5
  obtain ⟨-, -, -, -, -, -, -, -, -, f6, k6, -⟩ := adts_lt b6
  unfold adtsFieldsOf adtsBits7
  rw [shiftLeft_or _ _ 4 s1, adts_config, adts_frameLen]
  constructor
  · constructor <;> dsimp only <;> omega
  · dsimp only
    rw [bitsOfNat_cut 8 4 _ _ s1, bitsOfNat_cut 1 2 _ _ c3, bitsOfNat_cut 2 11 _ _ (by omega), bitsOfNat_cut 8 3 _ _ n5,
      bitsOfNat_cut 5 6 _ _ f6]
    simp only [bitsOf, List.flatMap_cons, List.flatMap_nil]
    rw [adts_byte1 b1, adts_byte2 b2, adts_byte3 b3, adts_byte5 b5, adts_byte6 b6, byteBits_eq b0, byteBits_eq b4]
    simp only [List.append_assoc, List.append_nil]

theorem flag_append_inj {a b : Bool} {x y : List Bool} (h : [a] ++ x = [b] ++ y) : a = b ∧ x = y := by simpa using h

theorem adtsBits7_inj {f g : AdtsFields} (hf : f.Fits) (hg : g.Fits) (h : adtsBits7 f = adtsBits7 g) : f = g := by
  unfold adtsBits7 at h
  obtain ⟨e1, h⟩ := bitsOfNat_append_inj hf.sync hg.sync h
  obtain ⟨e2, h⟩ := flag_append_inj h
  obtain ⟨e3, h⟩ := bitsOfNat_append_inj hf.layer hg.layer h
  obtain ⟨e4, h⟩ := flag_append_inj h
  obtain ⟨e5, h⟩ := bitsOfNat_append_inj hf.profile hg.profile h
  obtain ⟨e6, h⟩ := bitsOfNat_append_inj hf.rateIndex hg.rateIndex h
  obtain ⟨e7, h⟩ := flag_append_inj h
  obtain ⟨e8, h⟩ := bitsOfNat_append_inj hf.config hg.config h
  obtain ⟨e9, h⟩ := bitsOfNat_append_inj hf.copyright hg.copyright h
  obtain ⟨e10, h⟩ := bitsOfNat_append_inj hf.len hg.len h
  obtain ⟨e11, h⟩ := bitsOfNat_append_inj hf.fullness hg.fullness h
  obtain ⟨e12, -⟩ := bitsOfNat_append_inj (x := []) (y := []) hf.blocks hg.blocks (by simpa using h)
  rcases f with ⟨_, _, _, _, _, _, _, ⟨_, _, _, _, _⟩⟩
  rcases g with ⟨_, _, _, _, _, _, _, ⟨_, _, _, _, _⟩⟩
  simp_all

/-! ## Decoding -/

theorem rate_table (i : Nat) (h : i < 13) : ∃ r, rateOfIndex i = some r ∧ sampleRateAt i = .ok r := by
  have : ∀ i : Fin 13, rateOfIndex i.val = some ((rateOfIndex i.val).getD 0) ∧
    sampleRateAt i.val = .ok ((rateOfIndex i.val).getD 0) := by decide +kernel
  exact ⟨_, this ⟨i, h⟩⟩

theorem rate_lookup : ∀ i r : Nat, rateOfIndex i = some r ↔ i ≤ 12 ∧ sampleRateAt i = .ok r := by
  intro i r
  by_cases h : i ≤ 12
  · obtain ⟨r', h1, h2⟩ := rate_table i (by omega)
    rw [h1, h2]
    simp [h]
  · constructor
    · intro h'
      exfalso
      unfold rateOfIndex at h'
      split at h' <;> first | omega | cases h'
    · intro h'; exact absurd h'.1 h

theorem adts_count (c : UInt8) : c.toNat < 8 → adtsChannelCount c = .ok (channelsOfConfig c.toNat) := by
  revert c
  exact forall_u8 (by decide +kernel)

theorem seven_bytes {hdr : Bytes} (h : hdr.length = 7) : ∃ b0 b1 b2 b3 b4 b5 b6, hdr = [b0, b1, b2, b3, b4, b5, b6] := by
  match hdr, h with
  | [b0, b1, b2, b3, b4, b5, b6], _ => exact ⟨b0, b1, b2, b3, b4, b5, b6, rfl⟩

/-- C20: a frame is decoded to the packet it carries, whatever follows it. -/
theorem C20_frame_complete {p : ADTSPacket} {bs : Bytes} (h : IsAdtsFrame p bs) : Reads ADTSPacket.unmarshal bs p := by
  obtain ⟨⟨ht1, ht2⟩, hc, hcc, hn1, hn2, hdr, i, o, hi, ho, rfl, hl, hbits⟩ := h
  obtain ⟨b0, b1, b2, b3, b4, b5, b6, rfl⟩ := seven_bytes hl
  obtain ⟨hfit, hfb⟩ := adtsFields_bits b0 b1 b2 b3 b4 b5 b6
  obtain ⟨hi12, hrate⟩ := (rate_lookup _ _).1 hi
  have heq := adtsBits7_inj (g := ⟨0xFFF, true, p.type - 1, i, p.channelConfig.toNat, 7 + p.au.length, 0, o⟩) hfit
    ⟨by dsimp only; decide, ho.1, by dsimp only; omega, by dsimp only; omega, hc, ho.2.1, by dsimp only; omega, ho.2.2,
      by dsimp only; decide⟩
    (by rw [← hfb, hbits]; rfl)
  simp only [adtsFieldsOf, AdtsFields.mk.injEq] at heq
  obtain ⟨e1, e2, e3, e4, e5, e6, e7, -⟩ := heq
  have e5' : ((b2 &&& 0x01) <<< 2) ||| ((b3 >>> 6) &&& 0x03) = p.channelConfig := UInt8.toNat_inj.1 e5
  unfold ADTSPacket.unmarshal
  refine Reads.need (by simp; omega) ?_
  refine Reads.bind (x := [_]) (Reads.byte _) (Reads.bind (x := [_]) (Reads.byte _) (Reads.bind (x := [_]) (Reads.byte _)
    (Reads.bind (x := [_]) (Reads.byte _) (Reads.bind (x := [_]) (Reads.byte _) (Reads.bind (x := [_]) (Reads.byte _)
    (Reads.bind (x := [_]) (Reads.byte _) ?_))))))
  rw [e1, e5', e6]
  dsimp only
  refine Reads.ite_neg (by simp) (Reads.ite_neg (by simpa using e2) (Reads.ite_neg ?_ ?_))
  · rw [Decidable.not_not, UInt8.le_iff_toNat_le, e4]; exact hi12
  rw [e4]
  refine Reads.bind (x := []) (Reads.lift hrate) ?_
  refine Reads.bind (x := []) (Reads.lift (adts_count _ hc)) ?_
  rw [show (((7 + p.au.length : Nat) : Int) - 7) = (p.au.length : Int) by omega]
  refine Reads.ite_neg (by omega) (Reads.ite_neg (by unfold maxAccessUnitSize; omega) (Reads.ite_neg ?_ ?_))
  · rw [Decidable.not_not, ← UInt8.toNat_inj]; exact e7
  rw [Int.toNat_natCast]
  refine Reads.need (by simp) (Reads.congr (Reads.bind (Reads.take p.au) ?_) (List.append_nil _))
  have : ((b2 >>> 6) + 1).toNat = p.type := by rw [(adts_lt b2).2.2.2.2.2.2.2.2.2.2.2]; omega
  rw [this, ← hcc]
  exact Reads.pure _

/-- C20: decoding a frame never panics, and what it accepts is a frame of the packet returned. -/
theorem C20_frame_sound : Tot 0 ADTSPacket.unmarshal IsAdtsFrame := by
  unfold ADTSPacket.unmarshal
  refine Tot.need (Tot.byte (by omega) fun b0 => Tot.byte (by omega) fun b1 => Tot.byte (by omega) fun b2 =>
    Tot.byte (by omega) fun b3 => Tot.byte (by omega) fun b4 => Tot.byte (by omega) fun b5 => Tot.byte (by omega) fun b6 => ?_)
  obtain ⟨hfit, hfb⟩ := adtsFields_bits b0 b1 b2 b3 b4 b5 b6
  have ⟨f1, f2, f3, f4, f5, f6, f7, f8, f9⟩ := hfit
  dsimp only [adtsFieldsOf] at f1 f2 f3 f4 f5 f6 f7 f8 f9
  refine Tot.ite (fun _ => Tot.fail) fun h1 => Tot.ite (fun _ => Tot.fail) fun h2 => Tot.ite (fun _ => Tot.fail) fun h3 => ?_
  rw [Decidable.not_not] at h1 h2 h3
  rw [UInt8.le_iff_toNat_le] at h3
  obtain ⟨r, -, hr⟩ := rate_table ((b2 >>> 2) &&& 0x0F).toNat (Nat.lt_succ_of_le h3)
  refine Tot.lift (by rw [hr]; simp) fun sr hsr => ?_
  refine Tot.lift (by rw [adts_count _ f5]; simp) fun cc hcc => ?_
  rw [adts_count _ f5] at hcc
  refine Tot.ite (fun _ => Tot.fail) fun h4 => Tot.ite (fun _ => Tot.fail) fun h5 => Tot.ite (fun _ => Tot.fail) fun h6 => ?_
  rw [Decidable.not_not] at h6
  unfold maxAccessUnitSize at h5
  refine Tot.need (Tot.take (by omega) fun au hau => Tot.pure ?_)
  refine ⟨?_, f5, by cases hcc; rfl, by dsimp only; omega, by dsimp only; omega,
    [b0, b1, b2, b3, b4, b5, b6], ((b2 >>> 2) &&& 0x0F).toNat, (adtsFieldsOf b0 b1 b2 b3 b4 b5 b6).rest,
    (rate_lookup _ _).2 ⟨h3, hsr⟩, ⟨f2, f6, f8⟩, by simp, rfl, ?_⟩
  · dsimp only; rw [(adts_lt b2).2.2.2.2.2.2.2.2.2.2.2]; omega
  · rw [hfb]
    unfold adtsBits7 adtsHeaderBits
    dsimp only [adtsFieldsOf]
    rw [h1, h2, h6, (adts_lt b2).2.2.2.2.2.2.2.2.2.2.2, hau,
      show 7 + ((((b3.toNat &&& 3) <<< 11 ||| b4.toNat <<< 3 ||| b5.toNat >>> 5 &&& 7 : Nat) : Int) - 7).toNat =
        ((b3.toNat &&& 3) <<< 11 ||| b4.toNat <<< 3 ||| b5.toNat >>> 5 &&& 7) by omega]
    rfl

theorem adts_ne (p : ADTSPacket) (bs : Bytes) (h : IsAdtsFrame p bs) : bs ≠ [] := by
  obtain ⟨_, _, _, h1, _, hdr, _, _, _, _, rfl, _⟩ := h
  intro e
  have := congrArg List.length e
  simp at this
  simp [this] at h1

/-- C20: the decoder returns a list of packets exactly when it is not empty and the buffer is one frame of them after the
other. -/
theorem C20_decode (buf : Bytes) (ps : List ADTSPacket) :
    ADTSPackets.unmarshal buf = .ok ps ↔ ps ≠ [] ∧ Tiles IsAdtsFrame ps buf := by
  have h := TotEnd.untilEnd C20_frame_sound adts_ne (buf.length + 1) [] buf (by omega)
  simp only [List.nil_append, List.length_nil] at h
  unfold ADTSPackets.unmarshal
  constructor
  · intro e
    obtain ⟨⟨l, pos⟩, he, e⟩ := Res.bind_eq_ok.1 e
    cases e
    exact h.2 l pos he
  · rintro ⟨hne, ht⟩
    rw [(ReadsEnd.untilEnd (fun a bs h => ⟨adts_ne a bs h, C20_frame_complete h⟩) ps buf (buf.length + 1) hne
      (Nat.le_succ_of_le (tiles_length adts_ne ps buf ht)) ht).run]
    rfl

/-- C20: the decoder never panics. -/
theorem C20_no_panic (buf : Bytes) : (ADTSPackets.unmarshal buf).NoPanic := by
  have h := (TotEnd.untilEnd C20_frame_sound adts_ne (buf.length + 1) [] buf (by omega)).1
  simp only [List.nil_append, List.length_nil] at h
  unfold ADTSPackets.unmarshal
  exact Res.noPanic_bind h (by simp)

/-- C20: the access units are non-empty, of at most 5120 bytes, and with seven bytes of header each they add up to the
buffer. -/
theorem C20_sizes (buf : Bytes) (ps : List ADTSPacket) (h : ADTSPackets.unmarshal buf = .ok ps) :
    (∀ p ∈ ps, 1 ≤ p.au.length ∧ p.au.length ≤ 5120) ∧ buf.length = (ps.map fun p => 7 + p.au.length).sum := by
  obtain ⟨-, ht⟩ := (C20_decode buf ps).1 h
  clear h
  induction ps generalizing buf with
  | nil => simp only [Tiles] at ht; simp [ht]
  | cons p ps ih =>
    obtain ⟨bs, rest, rfl, hf, ht⟩ := ht
    obtain ⟨h1, h2⟩ := ih rest ht
    obtain ⟨_, _, _, g1, g2, hdr, _, _, _, _, rfl, hl, _⟩ := hf
    refine ⟨?_, ?_⟩
    · simp only [List.mem_cons, forall_eq_or_imp]; exact ⟨⟨g1, g2⟩, h1⟩
    · simp only [List.length_append, List.map_cons, List.sum_cons, h2, hl]

/-! ## Encoding -/

/-- The packet with its channel fields made consistent: a configuration of 0 with a channel count stands for the
configuration of that count. -/
def adtsNormal (p : ADTSPacket) : ADTSPacket :=
  if p.channelConfig = 0 then
    { p with channelConfig := if p.channelCount = 8 then 7 else UInt8.ofNat p.channelCount }
  else { p with channelCount := channelsOfConfig p.channelConfig.toNat }

/-- Packets with an ADTS form. -/
structure AdtsValid (p : ADTSPacket) : Prop where
  type : 1 ≤ p.type ∧ p.type ≤ 4
  rate : ∃ i, rateOfIndex i = some p.sampleRate
  config : p.channelConfig.toNat < 8
  count : p.channelConfig = 0 → p.channelCount ≤ 6 ∨ p.channelCount = 8
  size : 1 ≤ p.au.length ∧ p.au.length ≤ 5120

theorem adtsNormal_config (p : ADTSPacket) (h : AdtsValid p) : adtsConfig p = some (adtsNormal p).channelConfig ∧
    (adtsNormal p).channelConfig.toNat < 8 ∧
    (adtsNormal p).channelCount = channelsOfConfig (adtsNormal p).channelConfig.toNat ∧
    (adtsNormal p).type = p.type ∧ (adtsNormal p).sampleRate = p.sampleRate ∧ (adtsNormal p).au = p.au := by
  obtain ⟨-, -, hc, hcc, -⟩ := h
  rcases p with ⟨t, r, c, n, au⟩
  dsimp only at hc hcc
  unfold adtsConfig adtsNormal
  dsimp only
  by_cases h0 : c = 0
  · rw [if_pos h0, if_pos h0]
    have hn : n = 0 ∨ n = 1 ∨ n = 2 ∨ n = 3 ∨ n = 4 ∨ n = 5 ∨ n = 6 ∨ n = 8 := by have := hcc h0; omega
    rcases hn with rfl | rfl | rfl | rfl | rfl | rfl | rfl | rfl <;> exact ⟨rfl, by simp, rfl, rfl, rfl, rfl⟩
  · rw [if_neg h0, if_neg h0]
    exact ⟨rfl, hc, rfl, rfl, rfl, rfl⟩

theorem rate_reverse (i r : Nat) (h : rateOfIndex i = some r) : reverseSampleRates.lookup r = some i ∧ i ≤ 12 := by
  unfold rateOfIndex at h
  split at h <;> first | (cases h; done) | (cases h; exact ⟨by decide +kernel, by omega⟩)

theorem adts_hdr2 : ∀ t : Fin 4, ∀ i : Fin 13, ∀ c : Fin 8,
    byteBits (UInt8.ofNat t.val <<< 6 ||| UInt8.ofNat i.val <<< 2 ||| (UInt8.ofNat c.val >>> 2)) =
      bitsOfNat 2 t.val ++ (bitsOfNat 4 i.val ++ ([false] ++ bitsOfNat 1 (c.val / 2 ^ 2))) := by decide +kernel
theorem adts_hdr3 : ∀ c : Fin 8, ∀ n : Fin 4,
    byteBits ((UInt8.ofNat c.val &&& 0x03) <<< 6 ||| UInt8.ofNat n.val) =
      bitsOfNat 2 c.val ++ (bitsOfNat 4 0 ++ bitsOfNat 2 n.val) := by decide +kernel
theorem adts_hdr5 : ∀ n : Fin 8, byteBits (UInt8.ofNat n.val <<< 5 ||| UInt8.ofNat (0x07FF >>> 6)) =
      bitsOfNat 3 n.val ++ bitsOfNat 5 31 := by decide +kernel

/-- The bytes of one packet. -/
def adtsHeader (p : ADTSPacket) (i : Nat) (cfg : UInt8) : Bytes :=
  [0xFF, 0xF1, UInt8.ofNat (p.type - 1) <<< 6 ||| UInt8.ofNat i <<< 2 ||| (cfg >>> 2),
   (cfg &&& 0x03) <<< 6 ||| UInt8.ofNat ((p.au.length + 7) >>> 11), UInt8.ofNat ((p.au.length + 7) >>> 3),
   UInt8.ofNat ((p.au.length + 7) &&& 0x07) <<< 5 ||| UInt8.ofNat (0x07FF >>> 6), UInt8.ofNat (0x07FF &&& 0x3F) <<< 2]

theorem adtsHeader_bits (p : ADTSPacket) (i : Nat) (cfg : UInt8) (ht : 1 ≤ p.type ∧ p.type ≤ 4) (hi : i ≤ 12)
    (hc : cfg.toNat < 8) (hn : p.au.length ≤ 5120) :
    bitsOf (adtsHeader p i cfg) = adtsHeaderBits p.type i cfg.toNat (7 + p.au.length) ⟨false, 0, false, 0, 0x7FF⟩ := by
  have e2 := adts_hdr2 ⟨p.type - 1, by omega⟩ ⟨i, by omega⟩ ⟨cfg.toNat, hc⟩
  have e3 := adts_hdr3 ⟨cfg.toNat, hc⟩ ⟨(7 + p.au.length) / 2 ^ 11, by omega⟩
  have e5 := adts_hdr5 ⟨(7 + p.au.length) % 8, by omega⟩
  simp only [UInt8.ofNat_toNat] at e2 e3 e5
  unfold adtsHeader adtsHeaderBits
  rw [Nat.add_comm p.au.length 7, Nat.shiftRight_eq_div_pow, show (7 + p.au.length) &&& 7 = (7 + p.au.length) % 8 from
    Nat.and_two_pow_sub_one_eq_mod _ 3]
  simp only [bitsOf, List.flatMap_cons, List.flatMap_nil]
  rw [e2, e3, e5, bitsOfNat_add 1 2 cfg.toNat, bitsOfNat_add 2 11 (7 + p.au.length), bitsOfNat_add 8 3 (7 + p.au.length),
    Bits.byteBits_ofNat, Nat.shiftRight_eq_div_pow, ← bitsOfNat_mod 3 3 (7 + p.au.length) (Nat.le_refl _)]
  simp only [List.append_assoc, List.append_nil]
  rfl

theorem adts_puts (p : ADTSPacket) (h : AdtsValid p) : ∃ bs, ByteW.Puts p.marshal bs ∧ IsAdtsFrame (adtsNormal p) bs ∧
    bs.length = 7 + p.au.length := by
  obtain ⟨g1, g2, g3, g4, g5, g6⟩ := adtsNormal_config p h
  obtain ⟨i, hi⟩ := h.rate
  obtain ⟨hl, hi12⟩ := rate_reverse i _ hi
  refine ⟨adtsHeader p i (adtsNormal p).channelConfig ++ p.au, ?_, ?_, ?_⟩
  · unfold ADTSPacket.marshal
    rw [if_neg (by have := h.type; omega), hl, g1]
    exact ByteW.Puts.seq (ByteW.Puts.put _) (ByteW.Puts.copy _)
  · refine ⟨by rw [g4]; exact h.type, g2, g3, by rw [g6]; exact h.size.1, by rw [g6]; exact h.size.2,
      adtsHeader p i (adtsNormal p).channelConfig, i, ⟨false, 0, false, 0, 0x7FF⟩, by rw [g5]; exact hi, ⟨by decide, by decide, by decide⟩,
      by rw [g6], rfl, ?_⟩
    rw [g4, g6]
    exact adtsHeader_bits p i _ h.type hi12 g2 h.size.2
  · rw [List.length_append]; rfl

theorem adts_all (ps : List ADTSPacket) (h : ∀ p ∈ ps, AdtsValid p) : ∃ bs,
    ByteW.Puts (BitW.all (ps.map ADTSPacket.marshal)) bs ∧ Tiles IsAdtsFrame (ps.map adtsNormal) bs ∧
    bs.length = ADTSPackets.marshalSize ps := by
  induction ps with
  | nil => exact ⟨[], ByteW.Puts.all_nil, rfl, rfl⟩
  | cons p ps ih =>
    obtain ⟨rest, h1, h2, h3⟩ := ih fun q hq => h q (by simp [hq])
    obtain ⟨bs, g1, g2, g3⟩ := adts_puts p (h p (by simp))
    refine ⟨bs ++ rest, ByteW.Puts.all_cons g1 h1, ⟨bs, rest, rfl, g2, h2⟩, ?_⟩
    simp only [ADTSPackets.marshalSize, List.map_cons, List.sum_cons, List.length_append] at h3 ⊢
    omega

/-- C19: encoding succeeds and writes one frame of each packet after the other. -/
theorem C19_encode (ps : List ADTSPacket) (h : ∀ p ∈ ps, AdtsValid p) :
    ∃ buf, ADTSPackets.marshal ps = .ok buf ∧ Tiles IsAdtsFrame (ps.map adtsNormal) buf := by
  obtain ⟨bs, h1, h2, h3⟩ := adts_all ps h
  refine ⟨bs, ?_, h2⟩
  unfold ADTSPackets.marshal
  rw [h1.run _ (by omega), ← h3]
  simp

/-- C19: ADTS round trip, with the channel fields made consistent. -/
theorem C19_round_trip_normal (ps : List ADTSPacket) (hne : ps ≠ []) (h : ∀ p ∈ ps, AdtsValid p) :
    (ADTSPackets.marshal ps >>= ADTSPackets.unmarshal) = .ok (ps.map adtsNormal) := by
  obtain ⟨buf, h1, h2⟩ := C19_encode ps h
  rw [h1, Res.bind_ok]
  exact (C20_decode _ _).2 ⟨by simpa using hne, h2⟩

/-- C19: ADTS round trip. -/
theorem C19_round_trip (ps : List ADTSPacket) (hne : ps ≠ []) (h : ∀ p ∈ ps, 1 ≤ p.type ∧ p.type ≤ 4 ∧
    (∃ i, rateOfIndex i = some p.sampleRate) ∧ p.channelConfig.toNat < 8 ∧
    p.channelCount = channelsOfConfig p.channelConfig.toNat ∧ 1 ≤ p.au.length ∧ p.au.length ≤ 5120) :
    (ADTSPackets.marshal ps >>= ADTSPackets.unmarshal) = .ok ps := by
  rw [C19_round_trip_normal ps hne]
  · congr 1
    rw [List.map_congr_left (g := id), List.map_id]
    intro p hp
    obtain ⟨-, -, -, h1, h2, -⟩ := h p hp
    rcases p with ⟨t, r, c, n, au⟩
    unfold adtsNormal
    dsimp only at h1 h2 ⊢
    subst h2
    split
    · rename_i h0; subst h0; rfl
    · rfl
  · intro p hp
    obtain ⟨h1, h2, h3, h4, h5, h6⟩ := h p hp
    refine ⟨⟨h1, h2⟩, h3, h4, fun h0 => Or.inl ?_, h6⟩
    rw [h5, h0]; decide

/-- C19: nothing else is encoded: an object type outside 1-4, a rate without an index or a channel count without a
configuration is an error. -/
theorem C19_reject (p : ADTSPacket) (ps qs : List ADTSPacket) (hps : ∀ q ∈ ps, AdtsValid q)
    (h : p.type < 1 ∨ 4 < p.type ∨ (∀ i, rateOfIndex i ≠ some p.sampleRate) ∨
      (p.channelConfig = 0 ∧ p.channelCount ≠ 8 ∧ 6 < p.channelCount)) :
    ∃ e, ADTSPackets.marshal (ps ++ p :: qs) = .err e := by
  have hp : ∃ e, ∀ buf n, p.marshal buf n = .err e := by
    unfold ADTSPacket.marshal
    by_cases ht : p.type < 1 ∨ p.type > 4
    · rw [if_pos ht]; exact ⟨_, fun _ _ => rfl⟩
    · rw [if_neg ht]
      rcases hl : reverseSampleRates.lookup p.sampleRate with _ | i
      · exact ⟨_, fun _ _ => rfl⟩
      · have hr : ∀ r i, reverseSampleRates.lookup r = some i → rateOfIndex i = some r := by
          intro r i hl
          unfold reverseSampleRates at hl
          simp only [List.lookup] at hl
          repeat' (split at hl; · rename_i he; cases hl; rw [beq_iff_eq.1 he]; rfl)
          cases hl
        rcases h with h | h | h | ⟨h1, h2, h3⟩
        · exact absurd (Or.inl h) ht
        · exact absurd (Or.inr h) ht
        · exact absurd (hr _ _ hl) (h i)
        · have : adtsConfig p = none := by
            unfold adtsConfig
            rw [if_pos h1, if_neg (by omega), if_neg (by omega), if_neg h2]
          rw [this]
          exact ⟨_, fun _ _ => rfl⟩
  obtain ⟨e, he⟩ := hp
  obtain ⟨bs, h1, -, h3⟩ := adts_all ps hps
  refine ⟨e, ?_⟩
  have key : ∀ (ws vs : List BitW) buf n, BitW.all (ws ++ vs) buf n = (BitW.all ws buf n >>= fun r => BitW.all vs r.1 r.2) := by
    intro ws
    induction ws with
    | nil => intro vs buf n; rfl
    | cons w ws ih =>
      intro vs buf n
      simp only [List.cons_append, BitW.all, BitW.seq]
      rcases w buf n with r | e | _
      · exact ih vs r.1 r.2
      · rfl
      · rfl
  unfold ADTSPackets.marshal
  rw [List.map_append, key, h1.run _ (by
    simp only [ADTSPackets.marshalSize, List.map_append, List.sum_append] at h3 ⊢; omega), Res.bind_ok]
  simp only [List.map_cons, BitW.all, BitW.seq, he]
  rfl

example : ∀ p ∈ [(⟨2, 48000, 2, 2, [1, 2, 3]⟩ : ADTSPacket), ⟨4, 7350, 7, 8, [9]⟩], 1 ≤ p.type ∧ p.type ≤ 4 ∧
    (∃ i, rateOfIndex i = some p.sampleRate) ∧ p.channelConfig.toNat < 8 ∧
    p.channelCount = channelsOfConfig p.channelConfig.toNat ∧ 1 ≤ p.au.length ∧ p.au.length ≤ 5120 := by
  simp only [List.mem_cons, List.not_mem_nil, or_false, forall_eq_or_imp, forall_eq]
  exact ⟨⟨by decide, by decide, ⟨3, rfl⟩, by decide, by decide, by decide, by decide⟩,
    ⟨by decide, by decide, ⟨12, rfl⟩, by decide, by decide, by decide, by decide⟩⟩
example : ADTSPackets.marshal [⟨2, 48000, 2, 2, [1, 2, 3]⟩] = .ok [0xFF, 0xF1, 0x4C, 0x80, 0x01, 0x5F, 0xFC, 1, 2, 3] := by
  decide +kernel
example : ADTSPackets.unmarshal [0xFF, 0xF1, 0x4C, 0x80, 0x01, 0x5F, 0xFC, 1, 2, 3] = .ok [⟨2, 48000, 2, 2, [1, 2, 3]⟩] := by
  decide +kernel

/-! ## AudioSyncStream -/

theorem sync_byte1 : ∀ b : UInt8, byteBits b = bitsOfNat 3 (b.toNat >>> 5) ++ bitsOfNat 5 (b.toNat % 32) ∧ b.toNat >>> 5 < 8 :=
  forall_u8 (by decide +kernel)

theorem sync_bits (b0 b1 b2 : UInt8) :
    bitsOf [b0, b1, b2] = bitsOfNat 11 ((b0.toNat <<< 8 ||| b1.toNat) >>> 5) ++
      bitsOfNat 13 ((b1.toNat <<< 8 ||| b2.toNat) &&& 0b1111111111111) ∧
    (b0.toNat <<< 8 ||| b1.toNat) >>> 5 < 2 ^ 11 ∧ (b1.toNat <<< 8 ||| b2.toNat) &&& 0b1111111111111 < 2 ^ 13 := by
  have h0 := b0.toNat_lt
  have h1 := b1.toNat_lt
  have h2 := b2.toNat_lt
  obtain ⟨e1, l1⟩ := sync_byte1 b1
  have ea : (b0.toNat <<< 8 ||| b1.toNat) >>> 5 = b0.toNat * 2 ^ 3 + b1.toNat >>> 5 := by
    rw [or2, Nat.shiftRight_eq_div_pow, Nat.shiftRight_eq_div_pow]; omega
  have eb : (b1.toNat <<< 8 ||| b2.toNat) &&& 0b1111111111111 = (b1.toNat % 32) * 2 ^ 8 + b2.toNat := by
    rw [show (0b1111111111111 : Nat) = 2 ^ 13 - 1 from rfl, Nat.and_two_pow_sub_one_eq_mod, or2]; omega
  rw [ea, eb, bitsOfNat_cut 8 3 _ _ l1, bitsOfNat_cut 5 8 _ _ h2]
  refine ⟨?_, by omega, by omega⟩
  simp only [bitsOf, List.flatMap_cons, List.flatMap_nil]
  rw [e1, byteBits_eq b0, byteBits_eq b2]
  simp

theorem three_bytes {hdr : Bytes} (h : hdr.length = 3) : ∃ b0 b1 b2, hdr = [b0, b1, b2] := by
  match hdr, h with
  | [b0, b1, b2], _ => exact ⟨b0, b1, b2, rfl⟩

theorem sync_reads {el bs : Bytes} (h : IsSyncFrame el bs) : Reads audioMuxElementRaw bs el := by
  obtain ⟨hl, hdr, h3, rfl, hb⟩ := h
  obtain ⟨b0, b1, b2, rfl⟩ := three_bytes h3
  obtain ⟨e, l1, l2⟩ := sync_bits b0 b1 b2
  rw [e] at hb
  obtain ⟨e1, hb⟩ := bitsOfNat_append_inj l1 (by decide) hb
  obtain ⟨e2, -⟩ := bitsOfNat_append_inj (x := []) (y := []) l2 hl (by simpa using hb)
  unfold audioMuxElementRaw
  refine Reads.need (by simp) ?_
  refine Reads.bind (x := [_]) (Reads.byte _) (Reads.bind (x := [_]) (Reads.byte _) (Reads.bind (x := [_]) (Reads.byte _) ?_))
  rw [e1, e2]
  exact Reads.ite_neg (by simp) (Reads.need (by simp) (Reads.take el))

theorem sync_tot : Tot 0 audioMuxElementRaw IsSyncFrame := by
  unfold audioMuxElementRaw
  refine Tot.need (Tot.byte (by omega) fun b0 => Tot.byte (by omega) fun b1 => Tot.byte (by omega) fun b2 => ?_)
  obtain ⟨e, l1, l2⟩ := sync_bits b0 b1 b2
  refine Tot.ite (fun _ => Tot.fail) fun h1 => ?_
  rw [Decidable.not_not] at h1
  dsimp only
  rw [← bind_pure (ByteR.take _)]
  refine Tot.need (Tot.take (by omega) fun el hel => Tot.pure ?_)
  exact ⟨by omega, [b0, b1, b2], rfl, by simp, by rw [e, h1, hel]⟩

theorem sync_ne (el bs : Bytes) (h : IsSyncFrame el bs) : bs ≠ [] := by
  obtain ⟨_, hdr, h3, rfl, _⟩ := h
  intro e
  have := congrArg List.length e
  simp at this
  simp [this] at h3

/-- C21: the decoder returns a list of elements exactly when it is not empty and the buffer is one of them after the other,
each with the sync word and its 13-bit length. -/
theorem C21_decode (buf : Bytes) (els : List Bytes) :
    AudioSyncStream.unmarshal buf = .ok els ↔ els ≠ [] ∧ Tiles IsSyncFrame els buf := by
  have h := TotEnd.untilEnd sync_tot sync_ne (buf.length + 1) [] buf (by omega)
  simp only [List.nil_append, List.length_nil] at h
  unfold AudioSyncStream.unmarshal
  constructor
  · intro e
    obtain ⟨⟨l, pos⟩, he, e⟩ := Res.bind_eq_ok.1 e
    cases e
    exact h.2 l pos he
  · rintro ⟨hne, ht⟩
    rw [(ReadsEnd.untilEnd (fun a bs h => ⟨sync_ne a bs h, sync_reads h⟩) els buf (buf.length + 1) hne
      (Nat.le_succ_of_le (tiles_length sync_ne els buf ht)) ht).run]
    rfl

/-- C21: the decoder never panics. -/
theorem C21_no_panic (buf : Bytes) : (AudioSyncStream.unmarshal buf).NoPanic := by
  have h := (TotEnd.untilEnd sync_tot sync_ne (buf.length + 1) [] buf (by omega)).1
  simp only [List.nil_append, List.length_nil] at h
  unfold AudioSyncStream.unmarshal
  exact Res.noPanic_bind h (by simp)

theorem sync_written : ∀ n : Fin 32, UInt8.ofNat (0x2B7 <<< 5) ||| UInt8.ofNat n.val = UInt8.ofNat (7 * 32 + n.val) := by
  decide +kernel

theorem sync_puts (el : Bytes) (h : el.length < 2 ^ 13) : ∃ bs, ByteW.Puts (syncElementW el) bs ∧ IsSyncFrame el bs ∧
    bs.length = 3 + el.length := by
  refine ⟨_, ByteW.Puts.seq (ByteW.Puts.put _) (ByteW.Puts.copy _), ⟨h, _, rfl, rfl, ?_⟩, by simp; omega⟩
  have := sync_written ⟨el.length / 2 ^ 8, by omega⟩
  simp only at this
  rw [Nat.shiftRight_eq_div_pow el.length, this]
  simp only [bitsOf, List.flatMap_cons, List.flatMap_nil]
  rw [Bits.byteBits_ofNat, Bits.byteBits_ofNat, bitsOfNat_add 5 8 el.length,
    show (8 : Nat) = 3 + 5 from rfl, bitsOfNat_cut 3 5 _ _ (by omega), Bits.byteBits_ofNat]
  simp only [List.append_assoc, List.append_nil]
  rfl

theorem sync_all (els : List Bytes) (h : ∀ el ∈ els, el.length < 2 ^ 13) : ∃ bs,
    ByteW.Puts (BitW.all (els.map syncElementW)) bs ∧ Tiles IsSyncFrame els bs ∧
    bs.length = AudioSyncStream.marshalSize els := by
  induction els with
  | nil => exact ⟨[], ByteW.Puts.all_nil, rfl, rfl⟩
  | cons el els ih =>
    obtain ⟨rest, h1, h2, h3⟩ := ih fun q hq => h q (by simp [hq])
    obtain ⟨bs, g1, g2, g3⟩ := sync_puts el (h el (by simp))
    refine ⟨bs ++ rest, ByteW.Puts.all_cons g1 h1, ⟨bs, rest, rfl, g2, h2⟩, ?_⟩
    simp only [AudioSyncStream.marshalSize, List.map_cons, List.sum_cons, List.length_append, List.length_cons] at h3 ⊢
    omega

/-- C21: encoding writes one element after the other, each with the sync word and its length. -/
theorem C21_encode (els : List Bytes) (h : ∀ el ∈ els, el.length < 2 ^ 13) :
    ∃ buf, AudioSyncStream.marshal els = .ok buf ∧ Tiles IsSyncFrame els buf := by
  obtain ⟨bs, h1, h2, h3⟩ := sync_all els h
  refine ⟨bs, ?_, h2⟩
  unfold AudioSyncStream.marshal
  rw [h1.run _ (by omega), ← h3]
  simp

/-- C21: AudioSyncStream round trip. -/
theorem C21_round_trip (els : List Bytes) (hne : els ≠ []) (h : ∀ el ∈ els, el.length < 8192) :
    (AudioSyncStream.marshal els >>= AudioSyncStream.unmarshal) = .ok els := by
  obtain ⟨buf, h1, h2⟩ := C21_encode els h
  rw [h1, Res.bind_ok]
  exact (C21_decode _ _).2 ⟨hne, h2⟩

example : AudioSyncStream.marshal [[1, 2], []] = .ok [0x56, 0xE0, 2, 1, 2, 0x56, 0xE0, 0] := by decide +kernel
example : AudioSyncStream.unmarshal [0x56, 0xE0, 2, 1, 2, 0x56, 0xE0, 0] = .ok [[1, 2], []] := by decide +kernel

end Verif.Props
