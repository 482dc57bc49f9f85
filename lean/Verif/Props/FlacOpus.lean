import Verif.Model.FlacOpus
import Verif.Spec.FlacOpus
import Verif.Lemmas.BE

/-!
# Properties C25, C26, C29: Opus packet duration, Opus identification header, FLAC STREAMINFO
-/

namespace Verif.Props
open Verif.Spec Verif.Bits

section Flac
open Verif.Flac

/-- The ranges of the fields: the Go types, the 24-, 20- and 36-bit comments of the struct, at least one channel
and at most 8, bit depth 1 to 32, and a 16-byte digest. -/
def StreamInfoInRange (s : StreamInfo) : Prop :=
  s.minBlockSize < 2 ^ 16 ∧ s.maxBlockSize < 2 ^ 16 ∧ s.minFrameSize < 2 ^ 24 ∧ s.maxFrameSize < 2 ^ 24 ∧
  s.sampleRate < 2 ^ 20 ∧ (1 ≤ s.channelCount.toNat ∧ s.channelCount.toNat ≤ 8) ∧
  (1 ≤ s.bitDepth.toNat ∧ s.bitDepth.toNat ≤ 32) ∧ s.totalSamples < 2 ^ 36 ∧ s.md5.length = 16

/-- The bits that RFC 9639 assigns to a value. -/
def specBits (s : StreamInfo) : List Bool :=
  streamInfoBits s.minBlockSize s.maxBlockSize s.minFrameSize s.maxFrameSize s.sampleRate
    s.channelCount.toNat s.bitDepth.toNat s.totalSamples s.md5

theorem byte12_dec (b : UInt8) : byteBits b =
    bitsOfNat 4 (b.toNat >>> 4) ++ (bitsOfNat 3 ((((b >>> 1) &&& 0x7) + 1).toNat - 1) ++
      bitsOfNat 1 (b &&& 1).toNat) := by
  revert b; exact forall_u8 (by decide +kernel)

theorem byte13_dec (b : UInt8) : byteBits b = bitsOfNat 4 (b >>> 4).toNat ++ bitsOfNat 4 (b &&& 0xF).toNat := by
  revert b; exact forall_u8 (by decide +kernel)

theorem depth_dec (b c : UInt8) : ((((b &&& 0x1) <<< 4 ||| c >>> 4) + 1).toNat - 1)
    = (b &&& 1).toNat * 2 ^ 4 + (c >>> 4).toNat := by
  have h1 : ∀ x : UInt8, (x &&& 1) = 0 ∨ (x &&& 1) = 1 := forall_u8 (by decide +kernel)
  rcases h1 b with h | h <;> rw [h] <;> revert c <;> exact forall_u8 (by decide +kernel)

theorem rate_dec (a b c : UInt8) : a.toNat <<< 12 ||| b.toNat <<< 4 ||| c.toNat >>> 4
    = a.toNat * 2 ^ 12 + (b.toNat * 2 ^ 4 + c.toNat / 16) := by
  have hb := b.toNat_lt
  have hc := c.toNat_lt
  rw [show c.toNat >>> 4 = c.toNat / 16 from Nat.shiftRight_eq_div_pow _ 4, Nat.or_assoc,
    shiftLeft_or b.toNat _ 4 (by omega), shiftLeft_or _ _ 12 (by omega)]

theorem total_dec (x b c d e : UInt8) :
    x.toNat <<< 32 ||| b.toNat <<< 24 ||| c.toNat <<< 16 ||| d.toNat <<< 8 ||| e.toNat
      = x.toNat * 2 ^ 32 + (b.toNat <<< 24 ||| c.toNat <<< 16 ||| d.toNat <<< 8 ||| e.toNat) := by
  have hb := b.toNat_lt
  have hc := c.toNat_lt
  have hd := d.toNat_lt
  have he := e.toNat_lt
  rw [← shiftLeft_or x.toNat]
  · simp only [Nat.or_assoc]
  · rw [Verif.H264.or4 _ _ _ _ hc hd he]; omega

/-- C29: decoding reads exactly the RFC 9639 fields of the first 34 bytes; it fails only below 34 bytes. -/
theorem C29_decode (buf : Bytes) :
    (buf.length < 34 → unmarshal buf = .err "not enough bytes") ∧
    (34 ≤ buf.length → ∃ s, unmarshal buf = .ok s ∧ StreamInfoInRange s ∧ bitsOf (buf.take 34) = specBits s) := by
  refine ⟨fun h => by unfold unmarshal; rw [if_pos h], fun hl => ?_⟩
  obtain ⟨b0, buf, rfl, hl0⟩ := exists_cons hl
  obtain ⟨b1, buf, rfl, hl1⟩ := exists_cons hl0
  obtain ⟨b2, buf, rfl, hl2⟩ := exists_cons hl1
  obtain ⟨b3, buf, rfl, hl3⟩ := exists_cons hl2
  obtain ⟨b4, buf, rfl, hl4⟩ := exists_cons hl3
  obtain ⟨b5, buf, rfl, hl5⟩ := exists_cons hl4
  obtain ⟨b6, buf, rfl, hl6⟩ := exists_cons hl5
  obtain ⟨b7, buf, rfl, hl7⟩ := exists_cons hl6
  obtain ⟨b8, buf, rfl, hl8⟩ := exists_cons hl7
  obtain ⟨b9, buf, rfl, hl9⟩ := exists_cons hl8
  obtain ⟨b10, buf, rfl, hl10⟩ := exists_cons hl9
  obtain ⟨b11, buf, rfl, hl11⟩ := exists_cons hl10
  obtain ⟨b12, buf, rfl, hl12⟩ := exists_cons hl11
  obtain ⟨b13, buf, rfl, hl13⟩ := exists_cons hl12
  obtain ⟨b14, buf, rfl, hl14⟩ := exists_cons hl13
  obtain ⟨b15, buf, rfl, hl15⟩ := exists_cons hl14
  obtain ⟨b16, buf, rfl, hl16⟩ := exists_cons hl15
  obtain ⟨b17, buf, rfl, hl17⟩ := exists_cons hl16
  unfold unmarshal
  rw [if_neg (by simp; omega)]
  simp only [idx_zero_cons, idx_succ_cons, Res.bind_ok]
  rw [slice_ok (by omega) (by simp; omega)]
  refine ⟨_, rfl, ?_, ?_⟩
  · have hd : ∀ b c : UInt8, (((b &&& 0x1) <<< 4 ||| c >>> 4) + 1).toNat ≤ 32 ∧
        1 ≤ (((b &&& 0x1) <<< 4 ||| c >>> 4) + 1).toNat := by
      intro b c
      have h1 : ∀ x : UInt8, (x &&& 1) = 0 ∨ (x &&& 1) = 1 := forall_u8 (by decide +kernel)
      rcases h1 b with h | h <;> rw [h] <;> revert c <;> exact forall_u8 (by decide +kernel)
    have hc : ∀ b : UInt8, 1 ≤ (((b >>> 1) &&& 0x7) + 1).toNat ∧ (((b >>> 1) &&& 0x7) + 1).toNat ≤ 8 :=
      forall_u8 (by decide +kernel)
    have h13 : ∀ b : UInt8, (b &&& 0xF).toNat < 16 := forall_u8 (by decide +kernel)
    have hb : ∀ b : UInt8, b.toNat < 256 := fun b => b.toNat_lt
    refine ⟨?_, ?_, ?_, ?_, ?_, hc _, ⟨(hd _ _).2, (hd _ _).1⟩, ?_, ?_⟩
    · simp only [or2]; have := hb b0; have := hb b1; omega
    · simp only [or2]; have := hb b2; have := hb b3; omega
    · simp only [or3]; have := hb b4; have := hb b5; have := hb b6; omega
    · simp only [or3]; have := hb b7; have := hb b8; have := hb b9; omega
    · simp only [rate_dec]; have := hb b10; have := hb b11; have := hb b12; omega
    · simp only [total_dec, Verif.H264.or4 _ _ _ _ (hb b15) (hb b16) (hb b17)]
      have := h13 b13; have := hb b14; have := hb b15; have := hb b16; have := hb b17; omega
    · simp; omega
  · simp only [specBits, streamInfoBits, bits16_of, bits24_of]
    rw [depth_dec, total_dec, rate_dec, bitsOfNat_cut 8 12 _ _ (by have := b11.toNat_lt; have := b12.toNat_lt; omega),
      bitsOfNat_cut 8 4 _ _ (by have := b12.toNat_lt; omega),
      bitsOfNat_cut 1 4 _ _ (by have : ∀ b : UInt8, (b >>> 4).toNat < 16 := forall_u8 (by decide +kernel); exact this _),
      bitsOfNat_cut 4 32 _ _ (by
        rw [Verif.H264.or4 _ _ _ _ b15.toNat_lt b16.toNat_lt b17.toNat_lt]
        have := b14.toNat_lt; have := b15.toNat_lt; have := b16.toNat_lt; have := b17.toNat_lt; omega), bits32_of]
    simp only [List.take_succ_cons, bitsOf_cons, byte12_dec b12, byte13_dec b13, List.append_assoc, byteBits_eq b10,
      byteBits_eq b11, show b12.toNat >>> 4 = b12.toNat / 16 from Nat.shiftRight_eq_div_pow _ 4]
    simp

theorem byte12_enc (sr : Nat) (c d : UInt8) (hc : 1 ≤ c.toNat ∧ c.toNat ≤ 8) (hd : 1 ≤ d.toNat ∧ d.toNat ≤ 32) :
    byteBits (UInt8.ofNat (sr &&& 0xF) <<< 4 ||| (c - 1) <<< 1 ||| (d - 1) >>> 4)
      = bitsOfNat 4 sr ++ (bitsOfNat 3 (c.toNat - 1) ++ bitsOfNat 1 ((d.toNat - 1) / 16)) := by
  have hs : sr &&& 0xF = sr % 16 := Nat.and_two_pow_sub_one_eq_mod sr 4
  have h : ∀ s < 16, ∀ c < 8, ∀ d < 2, byteBits (UInt8.ofNat s <<< 4 ||| UInt8.ofNat c <<< 1 ||| UInt8.ofNat d)
      = bitsOfNat 4 s ++ (bitsOfNat 3 c ++ bitsOfNat 1 d) := by decide +kernel
  have hc1 : c - 1 = UInt8.ofNat (c.toNat - 1) := by
    apply UInt8.toNat_inj.1
    rw [UInt8.toNat_sub_of_le _ _ (by rw [UInt8.le_iff_toNat_le]; exact hc.1)]
    simp; omega
  have hd1 : (d - 1) >>> 4 = UInt8.ofNat ((d.toNat - 1) / 16) := by
    apply UInt8.toNat_inj.1
    rw [UInt8.toNat_shiftRight, UInt8.toNat_sub_of_le _ _ (by rw [UInt8.le_iff_toNat_le]; exact hd.1)]
    simp [Nat.shiftRight_eq_div_pow]; omega
  rw [hs, hc1, hd1, h _ (by omega) _ (by omega) _ (by omega)]
  congr 1
  exact bitsOfNat_mod 4 4 sr (Nat.le_refl _)

theorem byte13_enc (ts : Nat) (d : UInt8) (hd : 1 ≤ d.toNat ∧ d.toNat ≤ 32) :
    byteBits (((d - 1) &&& 0xF) <<< 4 ||| UInt8.ofNat (ts >>> 32) &&& 0xF)
      = bitsOfNat 4 (d.toNat - 1) ++ bitsOfNat 4 (ts / 2 ^ 32) := by
  have h : ∀ d < 16, ∀ t < 16, byteBits (UInt8.ofNat d <<< 4 ||| UInt8.ofNat t)
      = bitsOfNat 4 d ++ bitsOfNat 4 t := by decide +kernel
  have hd1 : (d - 1) &&& 0xF = UInt8.ofNat ((d.toNat - 1) % 16) := by
    apply UInt8.toNat_inj.1
    rw [UInt8.toNat_and, UInt8.toNat_sub_of_le _ _ (by rw [UInt8.le_iff_toNat_le]; exact hd.1)]
    rw [show (0xF : UInt8).toNat = 2 ^ 4 - 1 from rfl, Nat.and_two_pow_sub_one_eq_mod]
    simp; omega
  have ht : UInt8.ofNat (ts >>> 32) &&& 0xF = UInt8.ofNat (ts / 2 ^ 32 % 16) := by
    apply UInt8.toNat_inj.1
    rw [UInt8.toNat_and, show (0xF : UInt8).toNat = 2 ^ 4 - 1 from rfl, Nat.and_two_pow_sub_one_eq_mod,
      Nat.shiftRight_eq_div_pow]
    simp; omega
  rw [hd1, ht, h _ (by omega) _ (by omega)]
  congr 1
  · exact bitsOfNat_mod 4 4 _ (Nat.le_refl _)
  · exact bitsOfNat_mod 4 4 _ (Nat.le_refl _)

/-- C29: encoding an in-range value gives 34 bytes with the RFC 9639 layout. -/
theorem C29_encode (s : StreamInfo) (h : StreamInfoInRange s) :
    (marshal s).length = 34 ∧ bitsOf (marshal s) = specBits s := by
  obtain ⟨h1, h2, h3, h4, h5, h6, h7, h8, h9⟩ := h
  refine ⟨by simp [marshal, h9], ?_⟩
  unfold marshal specBits streamInfoBits
  rw [bits16, bits16, bits24, bits24, bitsOfNat_add 8 12, bitsOfNat_add 8 4, bitsOfNat_add 1 4, bitsOfNat_add 4 32,
    bits32]
  simp only [bitsOf_append, bitsOf_cons, bitsOf_nil, byte12_enc _ _ _ h6 h7, byte13_enc _ _ h7]
  simp only [List.append_assoc, List.nil_append, Nat.shiftRight_eq_div_pow s.sampleRate,
    byteBits_ofNat (s.sampleRate / 2 ^ 12), byteBits_ofNat (s.sampleRate / 2 ^ 4), show (2 : Nat) ^ 4 = 16 from rfl]

/-- C29: an in-range value survives encoding and decoding, with any bytes after the block. -/
theorem C29_round_trip (s : StreamInfo) (h : StreamInfoInRange s) (rest : Bytes) :
    unmarshal (marshal s ++ rest) = .ok s := by
  obtain ⟨hlen, hb⟩ := C29_encode s h
  obtain ⟨s', h', hr, hb'⟩ := (C29_decode (marshal s ++ rest)).2 (by simp; omega)
  rw [List.take_left' hlen, hb] at hb'
  rw [h']
  congr 1
  obtain ⟨h1, h2, h3, h4, h5, h6, h7, h8, h9⟩ := h
  obtain ⟨g1, g2, g3, g4, g5, g6, g7, g8, g9⟩ := hr
  unfold specBits streamInfoBits at hb'
  obtain ⟨e1, hb'⟩ := bitsOfNat_append_inj h1 g1 hb'
  obtain ⟨e2, hb'⟩ := bitsOfNat_append_inj h2 g2 hb'
  obtain ⟨e3, hb'⟩ := bitsOfNat_append_inj h3 g3 hb'
  obtain ⟨e4, hb'⟩ := bitsOfNat_append_inj h4 g4 hb'
  obtain ⟨e5, hb'⟩ := bitsOfNat_append_inj h5 g5 hb'
  obtain ⟨e6, hb'⟩ := bitsOfNat_append_inj (by omega) (by omega) hb'
  obtain ⟨e7, hb'⟩ := bitsOfNat_append_inj (by omega) (by omega) hb'
  obtain ⟨e8, hb'⟩ := bitsOfNat_append_inj h8 g8 hb'
  have e9 := bitsOf_inj hb'
  have e6' : s.channelCount = s'.channelCount := UInt8.toNat_inj.1 (by omega)
  have e7' : s.bitDepth = s'.bitDepth := UInt8.toNat_inj.1 (by omega)
  cases s; cases s'; simp_all

/-- C29: decoding never panics. -/
theorem C29_no_panic (buf : Bytes) : (unmarshal buf).NoPanic := by
  by_cases h : buf.length < 34
  · rw [(C29_decode buf).1 h]; simp
  · obtain ⟨s, hs, _⟩ := (C29_decode buf).2 (by omega)
    rw [hs]; simp

/-- A 24-bit 96 kHz stereo value with all wide fields non-zero. -/
def exampleInfo : StreamInfo :=
  { minBlockSize := 4096, maxBlockSize := 4608, minFrameSize := 0x010203, maxFrameSize := 0xFFEEDD,
    sampleRate := 96001, channelCount := 7, bitDepth := 24, totalSamples := 0xA12345678,
    md5 := [1, 2, 3, 4, 5, 6, 7, 8, 9, 10, 11, 12, 13, 14, 15, 16] }

example : StreamInfoInRange exampleInfo := by unfold StreamInfoInRange exampleInfo; decide
example : unmarshal (marshal exampleInfo ++ [99]) = .ok exampleInfo := by decide +kernel
example : ¬ StreamInfoInRange { exampleInfo with sampleRate := 2 ^ 20 } := by
  unfold StreamInfoInRange exampleInfo; decide

end Flac

section Opus
open Verif.Opus

/-- The ranges of the wide fields (`uint16`, `uint32`, `uint16`). -/
def IDHeaderInRange (h : IDHeader) : Prop :=
  h.preSkip < 2 ^ 16 ∧ h.inputSampleRate < 2 ^ 32 ∧ h.outputGain < 2 ^ 16

/-- C26: an encoded header decodes to itself with version 1, for every mapping table. -/
theorem C26_round_trip (h : IDHeader) (hr : IDHeaderInRange h) :
    IDHeader.unmarshal h.marshal = .ok { h with version := 1 } := by
  unfold IDHeader.unmarshal IDHeader.marshal magicSignature
  rw [if_neg (by simp), slice_ok (by omega) (by simp)]
  simp only [List.cons_append, List.nil_append, List.drop_zero, Nat.sub_zero, List.take_succ_cons, List.take_zero,
    Res.bind_ok, ne_eq, not_true_eq_false, if_false, idx_zero_cons, idx_succ_cons]
  rw [sliceFrom_ok (by simp)]
  simp only [Res.bind_ok, List.drop_succ_cons, List.drop_zero, be16_back _ hr.1, be32_back _ hr.2.1,
    be16_back _ hr.2.2]

/-- C26: what decoding accepts: at least 19 bytes, "OpusHead", version 1; the result then re-encodes to the input. -/
theorem C26_decode (buf : Bytes) :
    (∀ h, IDHeader.unmarshal buf = .ok h → h.version = 1 ∧ IDHeaderInRange h ∧ h.marshal = buf) ∧
    (19 ≤ buf.length → "OpusHead".toUTF8.toList <+: buf → buf[8]? = some 1 →
      ∃ h, IDHeader.unmarshal buf = .ok h) ∧
    (IDHeader.unmarshal buf).NoPanic := by
  by_cases hl : buf.length < 19
  · have : IDHeader.unmarshal buf = .err "not enough bytes" := by unfold IDHeader.unmarshal; rw [if_pos hl]
    rw [this]
    exact ⟨by simp, fun h => absurd h (by omega), by simp⟩
  have hsig : "OpusHead".toUTF8.toList = magicSignature := by decide +kernel
  rw [hsig]
  have hl : 19 ≤ buf.length := by omega
  obtain ⟨b0, buf, rfl, hl0⟩ := exists_cons hl
  obtain ⟨b1, buf, rfl, hl1⟩ := exists_cons hl0
  obtain ⟨b2, buf, rfl, hl2⟩ := exists_cons hl1
  obtain ⟨b3, buf, rfl, hl3⟩ := exists_cons hl2
  obtain ⟨b4, buf, rfl, hl4⟩ := exists_cons hl3
  obtain ⟨b5, buf, rfl, hl5⟩ := exists_cons hl4
  obtain ⟨b6, buf, rfl, hl6⟩ := exists_cons hl5
  obtain ⟨b7, buf, rfl, hl7⟩ := exists_cons hl6
  obtain ⟨b8, buf, rfl, hl8⟩ := exists_cons hl7
  obtain ⟨b9, buf, rfl, hl9⟩ := exists_cons hl8
  obtain ⟨b10, buf, rfl, hl10⟩ := exists_cons hl9
  obtain ⟨b11, buf, rfl, hl11⟩ := exists_cons hl10
  obtain ⟨b12, buf, rfl, hl12⟩ := exists_cons hl11
  obtain ⟨b13, buf, rfl, hl13⟩ := exists_cons hl12
  obtain ⟨b14, buf, rfl, hl14⟩ := exists_cons hl13
  obtain ⟨b15, buf, rfl, hl15⟩ := exists_cons hl14
  obtain ⟨b16, buf, rfl, hl16⟩ := exists_cons hl15
  obtain ⟨b17, buf, rfl, hl17⟩ := exists_cons hl16
  obtain ⟨b18, buf, rfl, hl18⟩ := exists_cons hl17
  unfold IDHeader.unmarshal
  rw [if_neg (by simp), slice_ok (by omega) (by simp), sliceFrom_ok (by simp)]
  simp only [List.drop_zero, Nat.sub_zero, List.take_succ_cons, List.take_zero, Res.bind_ok, idx_zero_cons,
    idx_succ_cons, List.drop_succ_cons]
  by_cases h1 : [b0, b1, b2, b3, b4, b5, b6, b7] ≠ magicSignature
  · rw [if_pos h1]
    refine ⟨by simp, ?_, by simp⟩
    rintro - ⟨t, ht⟩ -
    exfalso; apply h1
    have := congrArg (List.take 8) ht
    simpa [magicSignature] using this.symm
  rw [if_neg h1]
  by_cases h2 : b8 ≠ 1
  · rw [if_pos h2]
    refine ⟨by simp, ?_, by simp⟩
    intro _ _ h
    simp only [List.getElem?_cons_succ, List.getElem?_cons_zero, Option.some.injEq] at h
    exact absurd h h2
  rw [if_neg h2]
  simp only [ne_eq, Decidable.not_not] at h1 h2
  have hb : ∀ b : UInt8, b.toNat < 256 := fun b => b.toNat_lt
  have e2 : ∀ a b : UInt8, UInt8.ofNat ((a.toNat <<< 8 ||| b.toNat) >>> 8) = a ∧
      UInt8.ofNat (a.toNat <<< 8 ||| b.toNat) = b := by
    intro a b
    have := hb a; have := hb b
    constructor <;> apply UInt8.toNat_inj.1 <;>
      simp only [or2, UInt8.toNat_ofNat', Nat.shiftRight_eq_div_pow] <;> omega
  have e4 : ∀ a b c d : UInt8,
      UInt8.ofNat ((a.toNat <<< 24 ||| b.toNat <<< 16 ||| c.toNat <<< 8 ||| d.toNat) >>> 24) = a ∧
      UInt8.ofNat ((a.toNat <<< 24 ||| b.toNat <<< 16 ||| c.toNat <<< 8 ||| d.toNat) >>> 16) = b ∧
      UInt8.ofNat ((a.toNat <<< 24 ||| b.toNat <<< 16 ||| c.toNat <<< 8 ||| d.toNat) >>> 8) = c ∧
      UInt8.ofNat (a.toNat <<< 24 ||| b.toNat <<< 16 ||| c.toNat <<< 8 ||| d.toNat) = d := by
    intro a b c d
    have := hb a; have := hb b; have := hb c; have := hb d
    refine ⟨?_, ?_, ?_, ?_⟩ <;> apply UInt8.toNat_inj.1 <;>
      simp only [Verif.H264.or4 _ _ _ _ (hb b) (hb c) (hb d), UInt8.toNat_ofNat', Nat.shiftRight_eq_div_pow] <;> omega
  refine ⟨?_, fun _ _ _ => ⟨_, rfl⟩, by simp⟩
  intro h hh
  cases hh
  refine ⟨h2, ⟨?_, ?_, ?_⟩, ?_⟩
  · simp only [or2]; have := hb b10; have := hb b11; omega
  · simp only [Verif.H264.or4 _ _ _ _ (hb b13) (hb b14) (hb b15)]
    have := hb b12; have := hb b13; have := hb b14; have := hb b15; omega
  · simp only [or2]; have := hb b16; have := hb b17; omega
  · unfold IDHeader.marshal
    rw [← h1, h2]
    simp only [(e2 _ _).1, (e2 _ _).2, (e4 _ _ _ _).1, (e4 _ _ _ _).2.1, (e4 _ _ _ _).2.2.1, (e4 _ _ _ _).2.2.2,
      List.cons_append, List.nil_append]

/-- C26, a departure from RFC 7845 section 5.1: the multi-byte fields of an identification header are little-endian
there, and the code reads them big-endian. The RFC form of pre-skip 312 is decoded as 14337. -/
theorem C26_not_little_endian : ∃ h, IDHeader.unmarshal
    (magicSignature ++ [1, 2, 0x38, 0x01, 0x80, 0xBB, 0, 0, 0, 0, 0]) = .ok h ∧
    0x38 + 0x01 * 256 = 312 ∧ h.preSkip = 14337 := by
  refine ⟨_, rfl, by decide, by decide⟩

example : IDHeaderInRange ⟨1, 6, 3840, 48000, 0x1234, 1, [4, 2, 0, 4, 1, 2, 3, 5]⟩ := by
  unfold IDHeaderInRange; decide
example : IDHeader.unmarshal (IDHeader.marshal ⟨7, 6, 3840, 48000, 0x1234, 1, [4, 2, 0, 4, 1, 2, 3, 5]⟩)
    = .ok ⟨1, 6, 3840, 48000, 0x1234, 1, [4, 2, 0, 4, 1, 2, 3, 5]⟩ := by decide +kernel

/-- C25: the duration is the RFC 6716 frame count times the frame duration of the configuration; the call never
panics, and an empty packet has duration 0. -/
theorem C25_duration (pkt : Bytes) : packetDuration2 pkt = .ok (
    match pkt with
    | [] => 0
    | toc :: rest => opusFrameCount (toc.toNat % 4) rest.head? * opusFrameSamples (toc.toNat / 8)) := by
  cases pkt with
  | nil => rfl
  | cons toc rest =>
    have ht : ∀ b : UInt8, idx frameSizes (b >>> 3).toNat = .ok (opusFrameSamples (b.toNat / 8)) :=
      forall_u8 (by decide +kernel)
    have hc : ∀ b : UInt8, ((b &&& 3 = 0 ∧ b.toNat % 4 = 0) ∨ (b &&& 3 = 1 ∧ b.toNat % 4 = 1) ∨
        (b &&& 3 = 2 ∧ b.toNat % 4 = 2) ∨ (b &&& 3 = 3 ∧ b.toNat % 4 = 3)) := forall_u8 (by decide +kernel)
    have h63 : ∀ b : UInt8, (b &&& 63).toNat = b.toNat % 64 := forall_u8 (by decide +kernel)
    unfold packetDuration2
    rw [if_neg (by simp)]
    simp only [idx_zero_cons, Res.bind_ok, ht]
    rcases hc toc with ⟨h, h'⟩ | ⟨h, h'⟩ | ⟨h, h'⟩ | ⟨h, h'⟩ <;> rw [h, h']
    · simp [opusFrameCount]
    · simp [opusFrameCount, Nat.mul_comm]
    · simp [opusFrameCount, Nat.mul_comm]
    · cases rest with
      | nil => simp [opusFrameCount]
      | cons b l =>
        simp [opusFrameCount, Nat.mul_comm, h63]
        omega

/-- C25: a packet that respects RFC 6716 (at most 120 ms in a code 3 packet, requirement R5) lasts at most 5760
samples; without that requirement the result still stays below 63 frames of 60 ms. -/
theorem C25_bounded (pkt : Bytes) : ∃ d, packetDuration2 pkt = .ok d ∧ d ≤ 63 * 2880 ∧
    (∀ toc rest, pkt = toc :: rest → toc.toNat % 4 ≠ 3 → 120 ≤ d ∧ d ≤ 5760) ∧
    (∀ toc count rest, pkt = toc :: count :: rest → toc.toNat % 4 = 3 →
      count.toNat % 64 * opusFrameSamples (toc.toNat / 8) ≤ 120 * 48 → d ≤ 5760) := by
  have hs : ∀ b : UInt8, 120 ≤ opusFrameSamples (b.toNat / 8) ∧ opusFrameSamples (b.toNat / 8) ≤ 2880 :=
    forall_u8 (by decide +kernel)
  refine ⟨_, C25_duration pkt, ?_, ?_, ?_⟩
  · cases pkt with
    | nil => simp
    | cons toc rest =>
      refine Nat.mul_le_mul ?_ (hs toc).2
      have := toc.toNat % 4
      unfold opusFrameCount
      split <;> try omega
      split <;> omega
  · rintro toc rest rfl h
    have hlt : toc.toNat % 4 < 4 := Nat.mod_lt _ (by decide)
    have h1 := hs toc
    have : opusFrameCount (toc.toNat % 4) rest.head? = 1 ∨ opusFrameCount (toc.toNat % 4) rest.head? = 2 := by
      have : toc.toNat % 4 = 0 ∨ toc.toNat % 4 = 1 ∨ toc.toNat % 4 = 2 := by omega
      rcases this with h | h | h <;> rw [h] <;> simp [opusFrameCount]
    simp only
    rcases this with h | h <;> rw [h] <;> omega
  · rintro toc count rest rfl h hle
    simp only [h, opusFrameCount, List.head?_cons]
    exact hle

example : packetDuration2 [0xFC, 1, 2] = .ok 960 := rfl
example : packetDuration2 [0xFF, 0x06] = .ok 5760 := rfl
example : packetDuration2 [0x1B] = .ok 0 := rfl

end Opus
end Verif.Props
