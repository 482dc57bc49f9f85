import Verif.Spec.MPEG4Config
import Verif.Lemmas.BitM
import Verif.Props.ADTS

/-!
# Properties C22 and C23: AudioSpecificConfig
-/

namespace Verif.Props
open Verif.Spec Verif.MPEG4Audio Verif.BitM

/-! ## Decoding -/

theorem rate_parses {r : Nat} {bits : List Bool} (h : IsRate r bits) : Parses readRate bits r := by
  unfold readRate
  rcases h with ⟨i, hi, rfl⟩ | ⟨hr, rfl⟩
  · obtain ⟨h12, hl⟩ := (rate_lookup i r).1 hi
    rw [← List.append_nil (bitsOfNat 4 i)]
    refine Parses.bind (Parses.readBits (by omega) (by omega) (by omega)) ?_
    exact Parses.ite_pos h12 (Parses.lift hl)
  · refine Parses.bind (Parses.readBits (by omega) (by omega) (by omega)) ?_
    exact Parses.ite_neg (by omega) (Parses.ite_pos rfl (Parses.readBits (by omega) (by omega) hr))

theorem rate_tot (n : Nat) : Tot n readRate IsRate := by
  unfold readRate
  refine Tot.readBits (by omega) (by omega) fun i hi => ?_
  refine Tot.ite (fun h => ?_) fun h => Tot.ite (fun h => ?_) fun _ => Tot.fail
  · obtain ⟨r, h1, h2⟩ := rate_table i (by omega)
    refine Tot.lift' (by rw [h2]; simp) fun a ha => ?_
    rw [h2] at ha
    cases ha
    exact Or.inl ⟨i, h1, by simp⟩
  · subst h
    exact Tot.readBits' (by omega) (by omega) fun v hv => Or.inr ⟨hv, rfl⟩

theorem asc_count {c : Nat} (h : c ≤ 7) : ascChannelCount c = .ok (channelsOfConfig c) := by
  have : ∀ c : Fin 8, ascChannelCount c.val = .ok (channelsOfConfig c.val) := by decide +kernel
  exact this ⟨c, by omega⟩

theorem asc_count_inv {c n : Nat} (h : ascChannelCount c = .ok n) : c ≤ 7 ∧ n = channelsOfConfig c := by
  by_cases hc : c ≤ 7
  · rw [asc_count hc] at h; cases h; exact ⟨hc, rfl⟩
  · unfold ascChannelCount at h
    rw [if_neg (by omega), if_neg (by omega), if_neg (by omega)] at h
    cases h

theorem asc_count_noPanic (c : Nat) : (ascChannelCount c).NoPanic := by
  unfold ascChannelCount; split <;> (try split) <;> (try split) <;> simp

theorem delay_parses {dep : Bool} {d : Nat} (hd : d < 2 ^ 14) (h0 : dep = false → d = 0) :
    Parses (cond dep (readBits 14) 0) (if dep then bitsOfNat 14 d else []) d := by
  refine Parses.condP ?_ ?_
  · rintro rfl; exact Parses.readBits (by omega) (by omega) hd
  · rintro rfl; exact ⟨h0 rfl, rfl⟩

/-- C22: every AudioSpecificConfig of the standard that is in scope is decoded to its fields, whatever follows it. -/
theorem C22_decode_complete {c : ASC} {bits : List Bool} (h : IsASC c bits) : Parses ASC.unmarshalBits bits c := by
  obtain ⟨ht, hc, hcc, hd, hd0, rb, hrb, hlay⟩ := h
  obtain ⟨t, ext, hte, hext, hbits⟩ : ∃ t eb, (t = 2 ∨ t = 5 ∨ t = 29) ∧
      (Parses (cond (t == 5 || t == 29) readExtension 0) eb c.extensionSampleRate ∧
        (if t = 5 ∨ t = 29 then t else 0) = c.extensionType) ∧
      bits = bitsOfNat 5 t ++ (rb ++ (bitsOfNat 4 c.channelConfig ++ ([] ++ (eb ++ gaBits c)))) := by
    rcases hlay with ⟨h1, h2, rfl⟩ | ⟨h1, eb, h2, rfl⟩
    · refine ⟨2, [], Or.inl rfl, ⟨?_, by simp [h1]⟩, by simp⟩
      exact Parses.condP (by simp) fun _ => ⟨h2, rfl⟩
    · refine ⟨c.extensionType, eb ++ bitsOfNat 5 2, Or.inr h1, ⟨?_, by rw [if_pos h1]⟩, by simp⟩
      refine Parses.condP (fun _ => ?_) (fun h => ?_)
      · unfold readExtension
        refine Parses.bind (rate_parses h2) ?_
        rw [← List.append_nil (bitsOfNat 5 2)]
        refine Parses.bind (Parses.readBits (by omega) (by omega) (by omega)) ?_
        exact Parses.ite_neg (by simp) (Parses.pure _)
      · simp at h; omega
  rw [hbits]
  unfold ASC.unmarshalBits
  refine Parses.bind (Parses.readBits (by omega) (by omega) (by omega)) ?_
  refine Parses.ite_neg (by rw [Decidable.not_not]; exact hte) ?_
  refine Parses.bind (rate_parses hrb) ?_
  refine Parses.bind (Parses.readBits (by omega) (by omega) (by omega)) ?_
  refine Parses.bind (Parses.lift (asc_count hc)) ?_
  refine Parses.bind hext.1 ?_
  unfold gaBits
  refine Parses.bind Parses.readFlag ?_
  refine Parses.bind Parses.readFlag ?_
  refine Parses.bind (delay_parses hd hd0) ?_
  rw [← List.append_nil [false]]
  refine Parses.bind Parses.readFlag ?_
  refine Parses.ite_neg (by simp) ?_
  rw [hext.2, ← hcc]
  rcases c with ⟨_, _, _, _, _, _, _, _, _⟩
  dsimp only at ht
  subst ht
  exact Parses.pure _

theorem ext_rate_tot (n : Nat) : Tot n readExtension (fun r b => ∃ eb, IsRate r eb ∧ b = eb ++ bitsOfNat 5 2) := by
  unfold readExtension
  refine Tot.bind (rate_tot n) ?_
  intro r eb hr
  refine Tot.readBits (by omega) (by omega) fun t ht => ?_
  refine Tot.ite (fun _ => Tot.fail) fun h => Tot.pure ?_
  rw [Decidable.not_not] at h
  subst h
  exact ⟨eb, hr, by simp⟩

/-- C23: decoding an AudioSpecificConfig from any position inside a buffer never panics; what is accepted has the layout of
the standard, with the fields that are returned. -/
theorem C23_decode_sound : Tot 0 ASC.unmarshalBits IsASC := by
  unfold ASC.unmarshalBits
  refine Tot.readBits (by omega) (by omega) fun t ht => ?_
  refine Tot.ite (fun _ => Tot.fail) fun h => ?_
  rw [Decidable.not_not] at h
  refine Tot.bind (rate_tot _) ?_
  intro r rb hr
  refine Tot.readBits (by omega) (by omega) fun cfg hcfg => ?_
  refine Tot.lift (asc_count_noPanic cfg) fun cc hcc => ?_
  obtain ⟨h7, rfl⟩ := asc_count_inv hcc
  refine Tot.bind (Tot.condP (ext_rate_tot _)) ?_
  intro er eb her
  refine Tot.readFlag fun fl => Tot.readFlag fun dep => ?_
  refine Tot.bind (Tot.condP (Tot.readBits' (P := fun v b => v < 2 ^ 14 ∧ b = bitsOfNat 14 v) (by omega) (by omega)
    fun v hv => ⟨hv, rfl⟩)) ?_
  intro d db hd
  refine Tot.readFlag fun ef => Tot.ite (fun _ => Tot.fail) fun hef => Tot.pure ?_
  have hef : ef = false := by simpa using hef
  subst hef
  have hdb : d < 2 ^ 14 ∧ (dep = false → d = 0) ∧ db = if dep then bitsOfNat 14 d else [] := by
    rcases hd with ⟨rfl, h1, rfl⟩ | ⟨rfl, rfl, rfl⟩
    · exact ⟨h1, by simp, rfl⟩
    · exact ⟨by omega, by simp, rfl⟩
  refine ⟨rfl, h7, rfl, hdb.1, hdb.2.1, rb, hr, ?_⟩
  rcases her with ⟨h5, eb, he, rfl⟩ | ⟨h5, rfl, rfl⟩
  · right
    have h5' : t = 5 ∨ t = 29 := by simpa using h5
    dsimp only
    rw [if_pos h5']
    refine ⟨h5', eb, he, ?_⟩
    simp only [gaBits, hdb.2.2, List.append_assoc, List.append_nil]
  · left
    have h5' : ¬ (t = 5 ∨ t = 29) := by simpa using h5
    have h2 : t = 2 := by omega
    subst h2
    refine ⟨rfl, rfl, ?_⟩
    simp only [gaBits, hdb.2.2, List.append_assoc, List.append_nil, List.nil_append]

/-- C22: the decoder accepts exactly the buffers that start with an AudioSpecificConfig, and returns its fields. -/
theorem C22_decode (buf : Bytes) (c : ASC) :
    ASC.unmarshal buf = .ok c ↔ ∃ bits rest, IsASC c bits ∧ bitsOf buf = bits ++ rest := by
  unfold ASC.unmarshal
  constructor
  · intro e
    obtain ⟨⟨c', pos⟩, he, e⟩ := Res.bind_eq_ok.1 e
    cases e
    obtain ⟨bits, h1, h2, h3, -⟩ := (C23_decode_sound.run buf).2 c' pos he
    exact ⟨bits, _, h1, h3⟩
  · rintro ⟨bits, rest, h1, h2⟩
    rw [(C22_decode_complete h1).run h2]
    rfl

/-- C23: `Unmarshal` never panics. -/
theorem C23_no_panic (buf : Bytes) : (ASC.unmarshal buf).NoPanic := by
  unfold ASC.unmarshal
  exact Res.noPanic_bind (C23_decode_sound.run buf).1 (by simp)

/-! ## Encoding -/

theorem rate_lookup_inv (r i : Nat) (h : reverseSampleRates.lookup r = some i) : rateOfIndex i = some r := by
  unfold reverseSampleRates at h
  simp only [List.lookup] at h
  repeat' (split at h; · rename_i he; cases h; rw [beq_iff_eq.1 he]; rfl)
  cases h

theorem rate_writes {r : Nat} (hr : r < 2 ^ 24) :
    ∃ rb, IsRate r rb ∧ BitW.Writes (rateW r) rb ∧ rb.length = rateSize r := by
  unfold rateW rateSize
  rcases hl : reverseSampleRates.lookup r with _ | i
  · exact ⟨bitsOfNat 4 15 ++ bitsOfNat 24 r, Or.inr ⟨hr, rfl⟩,
      BitW.Writes.seq (BitW.Writes.bits (by omega) (by omega)) (BitW.Writes.bits (by omega) hr), by simp⟩
  · have hi := rate_lookup_inv r i hl
    have := (rate_lookup i r).1 hi
    exact ⟨bitsOfNat 4 i, Or.inl ⟨i, hi, rfl⟩, BitW.Writes.bits (by omega) (by omega), by simp⟩

/-- The configuration with its channel fields made consistent: a channel count takes precedence. -/
def ascNormal (c : ASC) : ASC :=
  if c.channelCount = 0 then { c with channelCount := channelsOfConfig c.channelConfig }
  else { c with channelConfig := if c.channelCount = 8 then 7 else c.channelCount }

/-- Configurations in scope. -/
structure ASCValid (c : ASC) : Prop where
  type : c.type = 2
  rate : c.sampleRate < 2 ^ 24
  count : c.channelCount ≤ 6 ∨ c.channelCount = 8
  config : c.channelCount = 0 → c.channelConfig ≤ 7
  extType : c.extensionType = 0 ∨ c.extensionType = 5 ∨ c.extensionType = 29
  extRate : c.extensionSampleRate < 2 ^ 24
  noExt : c.extensionType = 0 → c.extensionSampleRate = 0
  delay : c.coreCoderDelay < 2 ^ 14
  noDelay : c.dependsOnCoreCoder = false → c.coreCoderDelay = 0

theorem ascNormal_fields (c : ASC) : (ascNormal c).type = c.type ∧ (ascNormal c).sampleRate = c.sampleRate ∧
    (ascNormal c).extensionType = c.extensionType ∧ (ascNormal c).extensionSampleRate = c.extensionSampleRate ∧
    (ascNormal c).coreCoderDelay = c.coreCoderDelay ∧ (ascNormal c).dependsOnCoreCoder = c.dependsOnCoreCoder ∧
    gaBits (ascNormal c) = gaBits c := by
  unfold ascNormal
  split <;> exact ⟨rfl, rfl, rfl, rfl, rfl, rfl, rfl⟩

theorem ascNormal_channels (c : ASC) (h : ASCValid c) : (ascNormal c).channelConfig ≤ 7 ∧
    (ascNormal c).channelCount = channelsOfConfig (ascNormal c).channelConfig ∧
    BitW.Writes (configW c) (bitsOfNat 4 (ascNormal c).channelConfig) := by
  obtain ⟨-, -, hcc, hc, -⟩ := h
  unfold configW ascNormal
  by_cases h0 : c.channelCount = 0
  · have h7 := hc h0
    simp only [h0, if_true, ne_eq, not_true, if_false]
    exact ⟨h7, trivial, BitW.Writes.bits (by omega) (by omega)⟩
  · by_cases h8 : c.channelCount = 8
    · simp only [h8, if_true, if_false, ne_eq, reduceCtorEq, not_false_iff, show ¬ (8 : Nat) = 0 by decide, show ¬ (8 ≥ 1 ∧ 8 ≤ 6) by decide]
      refine ⟨by omega, by decide, ?_⟩
      exact BitW.Writes.bits (by omega) (by omega)
    · have h6 : c.channelCount ≥ 1 ∧ c.channelCount ≤ 6 := by omega
      simp only [h0, h8, if_false, ne_eq, not_false_iff, if_true, h6, and_self]
      refine ⟨by omega, ?_, BitW.Writes.bits (by omega) (by omega)⟩
      unfold channelsOfConfig
      split <;> omega

theorem asc_writes (c : ASC) (h : ASCValid c) :
    ∃ bits, IsASC (ascNormal c) bits ∧ BitW.Writes c.marshalW bits ∧ bits.length = c.marshalSizeBits := by
  obtain ⟨f1, f2, f3, f4, f5, f6, f7⟩ := ascNormal_fields c
  obtain ⟨g1, g2, g3⟩ := ascNormal_channels c h
  obtain ⟨rb, hr1, hr2, hr3⟩ := rate_writes h.rate
  obtain ⟨eb, he1, he2, he3⟩ := rate_writes h.extRate
  have hdw : BitW.Writes (if c.dependsOnCoreCoder then BitW.bits c.coreCoderDelay 14 else BitW.nop)
      (if c.dependsOnCoreCoder then bitsOfNat 14 c.coreCoderDelay else []) := by
    split
    · exact BitW.Writes.bits (by omega) h.delay
    · exact BitW.Writes.nop
  have htype := h.type
  have key : ∀ (t : Nat) (xw : BitW) (xb : List Bool), t < 32 → BitW.Writes xw xb →
      BitW.Writes (BitW.all [BitW.bits t 5, rateW c.sampleRate, configW c, xw, BitW.flag c.frameLengthFlag,
        BitW.flag c.dependsOnCoreCoder, if c.dependsOnCoreCoder then BitW.bits c.coreCoderDelay 14 else BitW.nop, BitW.skip 1])
        (bitsOfNat 5 t ++ (rb ++ (bitsOfNat 4 (ascNormal c).channelConfig ++ (xb ++ gaBits c)))) := by
    intro t xw xb ht hx
    refine BitW.Writes.congr (BitW.Writes.all_cons (BitW.Writes.bits (by omega) (by omega)) (BitW.Writes.all_cons hr2
      (BitW.Writes.all_cons g3 (BitW.Writes.all_cons hx (BitW.Writes.all_cons BitW.Writes.flag
      (BitW.Writes.all_cons BitW.Writes.flag (BitW.Writes.all_cons hdw (BitW.Writes.all_cons (BitW.Writes.skip (n := 1))
      BitW.Writes.all_nil)))))))) ?_
    simp [gaBits]
  have hga : (gaBits c).length = 3 + if c.dependsOnCoreCoder then 14 else 0 := by
    unfold gaBits; split <;> simp
  unfold ASC.marshalW ASC.marshalSizeBits
  by_cases hx : c.extensionType = 5 ∨ c.extensionType = 29
  · refine ⟨_, ⟨by rw [f1]; exact h.type, g1, g2, by rw [f5]; exact h.delay, by rw [f5, f6]; exact h.noDelay, rb,
      by rw [f2]; exact hr1, Or.inr ⟨by rw [f3]; exact hx, eb, by rw [f4]; exact he1, rfl⟩⟩, ?_, ?_⟩
    · rw [if_pos hx, if_pos hx, f3, f7]
      refine BitW.Writes.congr (key c.extensionType _ (eb ++ bitsOfNat 5 2) (by omega)
        (BitW.Writes.seq he2 (by rw [htype]; exact BitW.Writes.bits (by omega) (by omega)))) ?_
      simp
    · rw [if_pos hx, f7]
      simp only [List.length_append, length_bitsOfNat, hga, hr3, he3]
      omega
  · have h0 : c.extensionType = 0 := by have := h.extType; omega
    refine ⟨_, ⟨by rw [f1]; exact h.type, g1, g2, by rw [f5]; exact h.delay, by rw [f5, f6]; exact h.noDelay, rb,
      by rw [f2]; exact hr1, Or.inl ⟨by rw [f3]; exact h0, by rw [f4]; exact h.noExt h0, rfl⟩⟩, ?_, ?_⟩
    · rw [if_neg hx, if_neg hx, f7]
      refine BitW.Writes.congr (key c.type _ [] (by omega) BitW.Writes.nop) ?_
      simp [htype]
    · rw [if_neg hx, f7]
      simp only [List.length_append, length_bitsOfNat, hga, hr3]
      omega

theorem ceil8_le (n : Nat) : n ≤ 8 * ceil8 n ∧ 8 * ceil8 n < n + 8 := by
  unfold ceil8; split <;> omega

/-- C22: encoding a configuration in scope writes its layout (rates that have an index by it), padded with zeros to a whole
byte. -/
theorem C22_encode (c : ASC) (h : ASCValid c) : ∃ buf bits k, c.marshal = .ok buf ∧ IsASC (ascNormal c) bits ∧
    bitsOf buf = bits ++ List.replicate k false ∧ k < 8 := by
  obtain ⟨bits, h1, h2, h3⟩ := asc_writes c h
  have hc := ceil8_le c.marshalSizeBits
  obtain ⟨buf, g1, g2, g3⟩ := h2.run (ceil8 c.marshalSizeBits) (by omega)
  refine ⟨buf, bits, _, ?_, h1, g3, by omega⟩
  unfold ASC.marshal makeBytes
  rw [g1]
  rfl

/-- C22: AudioSpecificConfig round trip, with the channel fields made consistent. -/
theorem C22_round_trip_normal (c : ASC) (h : ASCValid c) : (c.marshal >>= ASC.unmarshal) = .ok (ascNormal c) := by
  obtain ⟨buf, bits, k, h1, h2, h3, -⟩ := C22_encode c h
  rw [h1, Res.bind_ok]
  exact (C22_decode _ _).2 ⟨bits, _, h2, h3⟩

theorem ascNormal_id (c : ASC) (h7 : c.channelConfig ≤ 7) (hc : c.channelCount = channelsOfConfig c.channelConfig) :
    ascNormal c = c := by
  unfold ascNormal
  split
  · rw [← hc]
  · rename_i h0
    have : (if c.channelCount = 8 then 7 else c.channelCount) = c.channelConfig := by
      rw [hc]; unfold channelsOfConfig; split <;> (try split) <;> omega
    rw [this]

/-- C22: AudioSpecificConfig round trip. -/
theorem C22_round_trip (c : ASC) (h : ASCValid c) (h7 : c.channelConfig ≤ 7)
    (hc : c.channelCount = channelsOfConfig c.channelConfig) : (c.marshal >>= ASC.unmarshal) = .ok c := by
  rw [C22_round_trip_normal c h, ascNormal_id c h7 hc]

/-- C22: any other channel count is an error. -/
theorem C22_reject_count (c : ASC) (h : c.channelCount = 7 ∨ 8 < c.channelCount) (hr : c.sampleRate < 2 ^ 24)
    (ht : c.type < 32) : ∃ e, c.marshal = .err e := by
  obtain ⟨rb, hr1, hr2, hr3⟩ := rate_writes hr
  have hw := BitW.Writes.seq (BitW.Writes.bits (v := if c.extensionType = 5 ∨ c.extensionType = 29 then c.extensionType else c.type)
    (n := 5) (by omega) (by split <;> omega)) hr2
  have hl : (bitsOfNat 5 (if c.extensionType = 5 ∨ c.extensionType = 29 then c.extensionType else c.type) ++ rb).length ≤
      8 * ceil8 c.marshalSizeBits := by
    have := (ceil8_le c.marshalSizeBits).1
    rw [List.length_append, length_bitsOfNat, hr3]
    unfold ASC.marshalSizeBits at this ⊢
    omega
  obtain ⟨buf, g1, -, -⟩ := hw.run _ hl
  refine ⟨"invalid channel count", ?_⟩
  unfold BitW.seq at g1
  obtain ⟨⟨b1, p1⟩, e1, e2⟩ := Res.bind_eq_ok.1 g1
  unfold ASC.marshal ASC.marshalW makeBytes
  simp only [BitW.all, BitW.seq]
  rw [e1]
  simp only [Res.bind]
  dsimp only at e2
  rw [e2]
  simp only [Res.bind]
  have : configW c = BitW.fail "invalid channel count" := by
    unfold configW
    rw [if_pos (by omega), if_neg (by omega), if_neg (by omega)]
  rw [this]
  rfl

example : ASCValid ⟨2, 48000, 6, 6, 29, 47999, true, true, 385⟩ := by constructor <;> simp
example : (⟨2, 24000, 7, 8, 5, 48000, false, true, 385⟩ : ASC).marshal = .ok [0x2B, 0x39, 0x89, 0x06, 0x04] := by decide +kernel
example : ASC.unmarshal [0x11, 0x90] = .ok ⟨2, 48000, 2, 2, 0, 0, false, false, 0⟩ := by decide +kernel
example : ASC.unmarshal [0x11, 0xC0] = .err "unsupported channel configuration" := by decide +kernel

end Verif.Props
