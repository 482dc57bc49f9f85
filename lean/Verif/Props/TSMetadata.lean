import Verif.Model.TSMetadata
import Verif.Spec.TSMetadata
import Verif.Lemmas.ByteR
import Verif.Lemmas.ByteW

/-!
# Properties C42 and C43: metadata in MPEG-TS
-/

namespace Verif.Props
open Verif.Spec Verif.TSMetadata Verif.ByteR

/-! ## Metadata descriptor -/

theorem prefixed_reads {b : Bytes} (h : b.length < 256) : Reads readPrefixed (lenPrefixed b) b := by
  unfold readPrefixed lenPrefixed
  refine Reads.need (by simp) ?_
  rw [← List.singleton_append]
  refine Reads.bind (Reads.byte _) ?_
  have : (UInt8.ofNat b.length).toNat = b.length := by simp; omega
  rw [this]
  exact Reads.need (by omega) (Reads.take b)

theorem cond_reads {α : Type} {p : BitM α} {d a : α} {c : Bool} {bs : Bytes} (h1 : c = true → Reads p bs a)
    (h2 : c = false → a = d) : Reads (BitM.cond c p d) (if c = true then bs else []) a := by
  cases c
  · rw [h2 rfl]; exact Reads.cond_false
  · exact Reads.cond_true (h1 rfl)

theorem flags_of (fl : Nat) (ds : Bool) (r : Nat) (hf : fl < 8) (hr : r < 16) :
    UInt8.ofNat (fl * 32 + ds.toNat * 16 + r) >>> 5 = UInt8.ofNat fl ∧
      (((UInt8.ofNat (fl * 32 + ds.toNat * 16 + r) >>> 4) &&& 1) != 0) = ds := by
  have : ∀ fl : Fin 8, ∀ ds : Bool, ∀ r : Fin 16, UInt8.ofNat (fl.val * 32 + ds.toNat * 16 + r.val) >>> 5 = UInt8.ofNat fl.val ∧
      (((UInt8.ofNat (fl.val * 32 + ds.toNat * 16 + r.val) >>> 4) &&& 1) != 0) = ds := by decide +kernel
  exact this ⟨fl, hf⟩ ds ⟨r, hr⟩

theorem flags_split : ∀ b : UInt8, ∃ r, r < 16 ∧ (b >>> 5).toNat < 8 ∧
    b = UInt8.ofNat ((b >>> 5).toNat * 32 + (((b >>> 4) &&& 1) != 0).toNat * 16 + r) := by
  intro b
  have : ∀ b : UInt8, (b >>> 5).toNat < 8 ∧
    b = UInt8.ofNat ((b >>> 5).toNat * 32 + (((b >>> 4) &&& 1) != 0).toNat * 16 + b.toNat % 16) := forall_u8 (by decide +kernel)
  exact ⟨b.toNat % 16, by omega, this b⟩

theorem decoder_split (d : Descriptor) : decoderConfigBytes d =
    (if (d.decoderConfigFlags == 1) = true then lenPrefixed d.decoderConfig else []) ++
    ((if (d.decoderConfigFlags == 3) = true then lenPrefixed d.decConfigIdentification else []) ++
     (if (d.decoderConfigFlags == 4) = true then [d.decoderConfigServiceID] else [])) := by
  have h : ∀ k : UInt8, (d.decoderConfigFlags == k) = (d.decoderConfigFlags.toNat == k.toNat) := by
    intro k
    rw [Bool.eq_iff_iff]
    simp [UInt8.toNat_inj]
  unfold decoderConfigBytes
  rw [h, h, h]
  split <;> rename_i he <;> simp_all

theorem u8_beq {a : UInt8} {k : Nat} (hk : k < 256) : (a == UInt8.ofNat k) = true ↔ a.toNat = k := by
  rw [beq_iff_eq, ← UInt8.toNat_inj]
  simp
  omega

theorem u8_beq_false {a : UInt8} {k : Nat} (hk : k < 256) : (a == UInt8.ofNat k) = false ↔ a.toNat ≠ k := by
  rw [ne_eq, ← u8_beq hk]; simp

/-- C42: every well-formed metadata descriptor, whatever its reserved bits, is decoded to its fields. -/
theorem C42_descriptor_complete (d : Descriptor) (r : Nat) (h : DescriptorValid d) (hr : r < 16) :
    Descriptor.unmarshal (metadataDescriptorBytes d r) = .ok d := by
  obtain ⟨f1, f2⟩ := flags_of d.decoderConfigFlags.toNat d.dsmccFlag r h.flags.1 hr
  have fl : UInt8.ofNat d.decoderConfigFlags.toNat = d.decoderConfigFlags := by simp
  rw [fl] at f1
  have hM : ReadsEnd Descriptor.unmarshalM (metadataDescriptorBytes d r) d := by
    unfold metadataDescriptorBytes Descriptor.unmarshalM
    rw [decoder_split, List.append_assoc, List.append_assoc]
    simp only [← beq_iff_eq (a := d.applicationFormat), ← beq_iff_eq (a := d.format)]
    refine ReadsEnd.need (by simp [beBytes_length]) ?_
    refine ReadsEnd.bind (Reads.be16 h.applicationFormat) ?_
    refine ReadsEnd.bind (cond_reads (fun _ => Reads.need (by simp [beBytes_length]) (Reads.be32 h.applicationFormatIdentifier))
      fun hc => h.noApplication (by simpa using hc)) ?_
    refine ReadsEnd.need (by simp) ?_
    refine ReadsEnd.bind (Reads.byte _) ?_
    refine ReadsEnd.bind (cond_reads (fun _ => Reads.need (by simp [beBytes_length]) (Reads.be32 h.formatIdentifier))
      fun hc => h.noFormat (by simpa using hc)) ?_
    refine ReadsEnd.need (by simp) ?_
    refine ReadsEnd.bind (Reads.byte _) ?_
    refine ReadsEnd.bind (Reads.byte _) ?_
    simp only [f1, f2]
    refine ReadsEnd.bind (cond_reads (fun _ => prefixed_reads h.service) h.noService) ?_
    refine ReadsEnd.bind (cond_reads (fun _ => prefixed_reads h.config)
      fun hc => h.noConfig ((u8_beq_false (by omega)).1 hc)) ?_
    refine ReadsEnd.bind (cond_reads (fun _ => prefixed_reads h.ident)
      fun hc => h.noIdent ((u8_beq_false (by omega)).1 hc)) ?_
    refine ReadsEnd.bind (cond_reads (fun _ => Reads.need (by simp) (Reads.byte _))
      fun hc => h.noServiceID ((u8_beq_false (by omega)).1 hc)) ?_
    rw [if_neg (by
      rintro (hc | hc)
      · exact h.flags.2.1 (by rw [hc]; rfl)
      · exact h.flags.2.2 (by rw [hc]; rfl))]
    exact ReadsEnd.rest fun b pos => rfl
  unfold Descriptor.unmarshal
  rw [hM.run]
  rfl

theorem prefixed_tot (n : Nat) : Tot n readPrefixed (fun b x => b.length < 256 ∧ x = lenPrefixed b) := by
  unfold readPrefixed
  refine Tot.need (Tot.byte (by omega) fun le => Tot.need ?_)
  have := Tot.take (n := le.toNat) (k := le.toNat) (f := fun b => (pure b : BitM Bytes))
    (Q := fun b x => b.length < 256 ∧ [le] ++ x = lenPrefixed b) (by omega) (fun bs hb => Tot.pure ⟨by
      have := le.toNat_lt; omega, by simp [lenPrefixed, hb]⟩)
  simpa using this

theorem ident_tot (n : Nat) : Tot n readIdentifier (fun v x => v < 2 ^ 32 ∧ x = beBytes 4 v) := by
  unfold readIdentifier
  refine Tot.need ?_
  have := Tot.be32 (n := 4) (f := fun b => (pure b : BitM Nat))
    (Q := fun v x => v < 2 ^ 32 ∧ x = beBytes 4 v) (by omega) (fun v hv => Tot.pure ⟨hv, by simp⟩)
  simpa using this

theorem sid_tot (n : Nat) : Tot n readServiceID (fun v x => x = [v]) := by
  unfold readServiceID
  refine Tot.need ?_
  have := Tot.byte (n := 1) (f := fun b => (pure b : BitM UInt8)) (Q := fun v x => x = [v]) (by omega)
    (fun v => Tot.pure (by simp))
  simpa using this

theorem cond_tot {α : Type} {n : Nat} {c : Bool} {p : BitM α} {d : α} {P : α → Prop} {enc : α → Bytes} (hd : P d)
    (h : Tot n p (fun a x => P a ∧ x = enc a)) :
    Tot n (BitM.cond c p d) (fun a x => P a ∧ (c = false → a = d) ∧ x = if c = true then enc a else []) := by
  refine Tot.cond ?_ ?_
  · rintro rfl
    exact h.mono (Nat.le_refl _) fun a x hx => ⟨hx.1, by simp, by simpa using hx.2⟩
  · rintro rfl
    exact ⟨hd, by simp, by simp⟩

/-- C42: decoding a metadata descriptor never panics and accepts only well-formed ones, whose fields it returns. -/
theorem C42_descriptor_sound (buf : Bytes) : (Descriptor.unmarshal buf).NoPanic ∧
    ∀ d, Descriptor.unmarshal buf = .ok d → DescriptorValid d ∧ ∃ r, r < 16 ∧ buf = metadataDescriptorBytes d r := by
  have hT : TotEnd 0 Descriptor.unmarshalM (fun d x => DescriptorValid d ∧ ∃ r, r < 16 ∧ x = metadataDescriptorBytes d r) := by
    unfold Descriptor.unmarshalM
    refine TotEnd.need (TotEnd.be16 (by omega) fun af haf => ?_)
    refine TotEnd.bind (cond_tot (by omega) (ident_tot _)) ?_
    rintro afi _ ⟨h1, h2, rfl⟩
    refine TotEnd.need (TotEnd.byte (by omega) fun f => ?_)
    refine TotEnd.bind (cond_tot (by omega) (ident_tot _)) ?_
    rintro fi _ ⟨h3, h4, rfl⟩
    refine TotEnd.need (TotEnd.byte (by omega) fun sid => TotEnd.byte (by omega) fun fl => ?_)
    refine TotEnd.bind (cond_tot (by simp) (prefixed_tot _)) ?_
    rintro si _ ⟨h5, h6, rfl⟩
    refine TotEnd.bind (cond_tot (by simp) (prefixed_tot _)) ?_
    rintro dc _ ⟨h7, h8, rfl⟩
    refine TotEnd.bind (cond_tot (by simp) (prefixed_tot _)) ?_
    rintro di _ ⟨h9, h10, rfl⟩
    refine TotEnd.bind (cond_tot (P := fun _ => True) (enc := fun v => [v]) trivial
      ((sid_tot _).mono (Nat.le_refl _) fun _ _ h => ⟨trivial, h⟩)) ?_
    rintro ds _ ⟨-, h11, rfl⟩
    refine TotEnd.ite (fun _ => TotEnd.fail) fun hfl => ?_
    refine TotEnd.rest fun pd => ?_
    obtain ⟨r, hr, hf8, hfe⟩ := flags_split fl
    refine ⟨⟨haf, h1, fun h => h2 (by simpa using h), h3, fun h => h4 (by simpa using h), ⟨hf8, ?_, ?_⟩, h5, h6, h7,
      fun h => h8 ((u8_beq_false (k := 1) (by decide)).2 h), h9, fun h => h10 ((u8_beq_false (k := 3) (by decide)).2 h),
      fun h => h11 ((u8_beq_false (k := 4) (by decide)).2 h)⟩, r, hr, ?_⟩
    · exact fun h => hfl (Or.inl (UInt8.toNat_inj.1 h))
    · exact fun h => hfl (Or.inr (UInt8.toNat_inj.1 h))
    · unfold metadataDescriptorBytes
      rw [decoder_split]
      simp only [beq_iff_eq, List.append_assoc, ← hfe]
  obtain ⟨h1, h2⟩ := hT.run buf
  unfold Descriptor.unmarshal
  rcases hr : Descriptor.unmarshalM buf 0 with ⟨d, pos⟩ | e | _
  · rw [Res.bind_ok]
    refine ⟨by simp, ?_⟩
    intro d' e
    cases e
    exact h2 d pos hr
  · exact ⟨by simp, by simp⟩
  · exact absurd hr h1

theorem prefixed_puts (b : Bytes) : ByteW.Puts (putPrefixed b) (lenPrefixed b) :=
  ByteW.Puts.seq (x := [_]) (ByteW.Puts.put _) (ByteW.Puts.copy b)

theorem flags_written : ∀ fl : Fin 8, ∀ ds : Bool,
    (UInt8.ofNat fl.val <<< 5 ||| flagToByte ds <<< 4 ||| 0b1111) = UInt8.ofNat (fl.val * 32 + ds.toNat * 16 + 15) := by
  decide +kernel

theorem ite_nop {c : Prop} [Decidable c] {w : BitW} {x : Bytes} (h : ByteW.Puts w x) :
    ByteW.Puts (if c then w else BitW.nop) (if c then x else []) :=
  ByteW.Puts.ite (fun _ => h) (fun _ => ByteW.Puts.nop)

/-- C42: encoding a metadata descriptor writes the specified bytes, all reserved bits set. -/
theorem C42_descriptor_encode (d : Descriptor) (h : d.decoderConfigFlags.toNat < 8) :
    d.marshal = .ok (metadataDescriptorBytes d 15) := by
  have hdec : ByteW.Puts
      (if d.decoderConfigFlags = 0b001 then putPrefixed d.decoderConfig
       else if d.decoderConfigFlags = 0b011 then putPrefixed d.decConfigIdentification
       else if d.decoderConfigFlags = 0b100 then ByteW.put [d.decoderConfigServiceID] else BitW.nop)
      (if d.decoderConfigFlags = 0b001 then lenPrefixed d.decoderConfig
       else if d.decoderConfigFlags = 0b011 then lenPrefixed d.decConfigIdentification
       else if d.decoderConfigFlags = 0b100 then [d.decoderConfigServiceID] else []) :=
    ByteW.Puts.ite (fun _ => prefixed_puts _) fun _ => ByteW.Puts.ite (fun _ => prefixed_puts _) fun _ =>
      ByteW.Puts.ite (fun _ => ByteW.Puts.put _) fun _ => ByteW.Puts.nop
  have hde : (if d.decoderConfigFlags = 0b001 then lenPrefixed d.decoderConfig
       else if d.decoderConfigFlags = 0b011 then lenPrefixed d.decConfigIdentification
       else if d.decoderConfigFlags = 0b100 then [d.decoderConfigServiceID] else []) = decoderConfigBytes d := by
    rw [decoder_split]
    by_cases h1 : d.decoderConfigFlags = 1
    · simp [h1]
    · by_cases h3 : d.decoderConfigFlags = 3
      · simp [h3]
      · by_cases h4 : d.decoderConfigFlags = 4
        · simp [h4]
        · simp [h1, h3, h4]
  rw [hde] at hdec
  have hfl := flags_written ⟨d.decoderConfigFlags.toNat, h⟩ d.dsmccFlag
  simp only [UInt8.ofNat_toNat] at hfl
  have hp := ByteW.Puts.all_cons (ByteW.Puts.put [UInt8.ofNat (d.applicationFormat >>> 8), UInt8.ofNat d.applicationFormat])
    (ByteW.Puts.all_cons (ite_nop (c := d.applicationFormat = 0xFFFF) (ByteW.Puts.put [UInt8.ofNat (d.applicationFormatIdentifier >>> 24),
        UInt8.ofNat (d.applicationFormatIdentifier >>> 16), UInt8.ofNat (d.applicationFormatIdentifier >>> 8),
        UInt8.ofNat d.applicationFormatIdentifier]))
    (ByteW.Puts.all_cons (ByteW.Puts.put [d.format])
    (ByteW.Puts.all_cons (ite_nop (c := d.format = 0xFF) (ByteW.Puts.put [UInt8.ofNat (d.formatIdentifier >>> 24),
        UInt8.ofNat (d.formatIdentifier >>> 16), UInt8.ofNat (d.formatIdentifier >>> 8), UInt8.ofNat d.formatIdentifier]))
    (ByteW.Puts.all_cons (ByteW.Puts.put [d.serviceID])
    (ByteW.Puts.all_cons (ByteW.Puts.put [d.decoderConfigFlags <<< 5 ||| flagToByte d.dsmccFlag <<< 4 ||| 0b1111])
    (ByteW.Puts.all_cons (ite_nop (c := d.dsmccFlag = true) (prefixed_puts d.serviceIdentification))
    (ByteW.Puts.all_cons hdec
    (ByteW.Puts.all_cons (ByteW.Puts.copy d.privateData) ByteW.Puts.all_nil))))))))
  rw [← beBytes_2, ← beBytes_4, ← beBytes_4, hfl, List.append_nil] at hp
  change ByteW.Puts _ (metadataDescriptorBytes d 15) at hp
  have hlen : (metadataDescriptorBytes d 15).length = d.marshalSize := by
    unfold metadataDescriptorBytes Descriptor.marshalSize
    rw [← hde]
    simp only [List.length_append, beBytes_length, List.length_cons, List.length_nil, apply_ite List.length, lenPrefixed]
    split <;> split <;> split <;> split <;> (try split) <;> (try split) <;> omega
  unfold Descriptor.marshal
  have := hp.run d.marshalSize (by omega)
  unfold putIdentifier
  rw [← beBytes_2, ← beBytes_4, ← beBytes_4, hfl, this, hlen]
  simp

/-- C42: metadata descriptor round trip. -/
theorem C42_descriptor_round_trip (d : Descriptor) (h : DescriptorValid d) :
    (d.marshal >>= Descriptor.unmarshal) = .ok d := by
  rw [C42_descriptor_encode d h.flags.1, Res.bind_ok, C42_descriptor_complete d 15 h (by omega)]

example : DescriptorValid ⟨0x0100, 0, 0xFF, 0x4B4C5641, 0, 1, true, [1, 2], [9], [], 0, [7]⟩ := by
  constructor <;> simp
example : Descriptor.unmarshal [1, 0, 0xFF, 0x4B, 0x4C, 0x56, 0x41, 0, 0x3F, 2, 1, 2, 1, 9, 7] =
    .ok ⟨0x0100, 0, 0xFF, 0x4B4C5641, 0, 1, true, [1, 2], [9], [], 0, [7]⟩ := by decide +kernel

/-! ## Metadata STD descriptor -/

theorem and63 : ∀ b : UInt8, (b &&& 0b00111111).toNat = b.toNat % 64 := forall_u8 (by decide +kernel)

theorem read22_value (a b c : UInt8) : (a &&& 0b00111111).toNat <<< 16 ||| b.toNat <<< 8 ||| c.toNat =
    a.toNat % 64 * 2 ^ 16 + b.toNat * 2 ^ 8 + c.toNat := by
  rw [and63]
  have := H264.or4 0 (a.toNat % 64) b.toNat c.toNat (by omega) b.toNat_lt c.toNat_lt
  simpa using this

theorem std_reads {r v : Nat} (hv : v < 2 ^ 22) : Reads read22 (stdField r v) v := by
  unfold stdField read22
  rw [beBytes_3]
  refine Reads.bind (x := [_]) (Reads.byte _) (Reads.bind (x := [_]) (Reads.byte _)
    (Reads.bind (x := [_]) (y := []) (Reads.byte _) ?_))
  rw [read22_value]
  have : (UInt8.ofNat ((r * 2 ^ 22 + v) >>> 16)).toNat % 64 * 2 ^ 16 + (UInt8.ofNat ((r * 2 ^ 22 + v) >>> 8)).toNat * 2 ^ 8 +
      (UInt8.ofNat (r * 2 ^ 22 + v)).toNat = v := by
    simp only [UInt8.toNat_ofNat', Nat.shiftRight_eq_div_pow]; omega
  rw [this]
  exact Reads.pure _

theorem std_tot {n : Nat} (hn : 3 ≤ n) : Tot n read22 (fun v x => v < 2 ^ 22 ∧ ∃ r, r < 4 ∧ x = stdField r v) := by
  unfold read22
  refine Tot.byte (by omega) fun a => Tot.byte (by omega) fun b => Tot.byte (by omega) fun c => Tot.pure ?_
  rw [read22_value]
  have ha := a.toNat_lt
  have hb := b.toNat_lt
  have hc := c.toNat_lt
  refine ⟨by omega, a.toNat / 64, by omega, ?_⟩
  have := (be24_of a b c).1
  rw [or3] at this
  unfold stdField
  rw [show a.toNat / 64 * 2 ^ 22 + (a.toNat % 64 * 2 ^ 16 + b.toNat * 2 ^ 8 + c.toNat) =
    a.toNat * 2 ^ 16 + b.toNat * 2 ^ 8 + c.toNat by omega, this]
  rfl

/-- The bytes of a metadata STD descriptor with given reserved bits. -/
def stdBytes (d : STDDescriptor) (r1 r2 r3 : Nat) : Bytes :=
  stdField r1 d.inputLeakRate ++ (stdField r2 d.bufferSize ++ stdField r3 d.outputLeakRate)

/-- The three fields have 22 bits. -/
def STDFits (d : STDDescriptor) : Prop := d.inputLeakRate < 2 ^ 22 ∧ d.bufferSize < 2 ^ 22 ∧ d.outputLeakRate < 2 ^ 22

/-- C42: decoding a metadata STD descriptor accepts exactly its nine-byte encodings, whatever the reserved bits. -/
theorem C42_std_decode (buf : Bytes) (d : STDDescriptor) : STDDescriptor.unmarshal buf = .ok d ↔
    STDFits d ∧ ∃ r1 r2 r3, r1 < 4 ∧ r2 < 4 ∧ r3 < 4 ∧ buf = stdBytes d r1 r2 r3 := by
  constructor
  · have hT : TotEnd 0 STDDescriptor.unmarshalM (fun d x => STDFits d ∧ ∃ r1 r2 r3, r1 < 4 ∧ r2 < 4 ∧ r3 < 4 ∧
        x = stdBytes d r1 r2 r3) := by
      unfold STDDescriptor.unmarshalM
      refine TotEnd.need ?_
      refine TotEnd.bind (std_tot (by omega)) ?_
      rintro a _ ⟨ha, r1, h1, rfl⟩
      refine TotEnd.bind (std_tot (by simp [stdField, beBytes_length])) ?_
      rintro b _ ⟨hb, r2, h2, rfl⟩
      refine TotEnd.bind (std_tot (by simp [stdField, beBytes_length])) ?_
      rintro c _ ⟨hc, r3, h3, rfl⟩
      exact TotEnd.atEnd ⟨⟨ha, hb, hc⟩, r1, r2, r3, h1, h2, h3, by simp [stdBytes]⟩
    obtain ⟨h1, h2⟩ := hT.run buf
    unfold STDDescriptor.unmarshal
    rcases hr : STDDescriptor.unmarshalM buf 0 with ⟨d, pos⟩ | e | _
    · rw [Res.bind_ok]
      intro e
      cases e
      exact h2 d pos hr
    · simp
    · simp
  · rintro ⟨⟨h1, h2, h3⟩, r1, r2, r3, -, -, -, rfl⟩
    have hM : ReadsEnd STDDescriptor.unmarshalM (stdBytes d r1 r2 r3) d := by
      unfold STDDescriptor.unmarshalM stdBytes
      refine ReadsEnd.need (by simp [stdField, beBytes_length]) ?_
      refine ReadsEnd.bind (std_reads h1) (ReadsEnd.bind (std_reads h2) ?_)
      rw [← List.append_nil (stdField r3 _)]
      exact ReadsEnd.bind (std_reads h3) (ReadsEnd.atEnd (Reads.pure _).toEnd)
    unfold STDDescriptor.unmarshal
    rw [hM.run]
    rfl

/-- C42: decoding a metadata STD descriptor never panics. -/
theorem C42_std_no_panic (buf : Bytes) : (STDDescriptor.unmarshal buf).NoPanic := by
  have hT : TotEnd 0 STDDescriptor.unmarshalM (fun _ _ => True) := by
    unfold STDDescriptor.unmarshalM
    refine TotEnd.need ?_
    refine TotEnd.bind (std_tot (by omega)) ?_
    rintro a _ ⟨ha, r1, h1, rfl⟩
    refine TotEnd.bind (std_tot (by simp [stdField, beBytes_length])) ?_
    rintro b _ ⟨hb, r2, h2, rfl⟩
    refine TotEnd.bind (std_tot (by simp [stdField, beBytes_length])) ?_
    rintro c _ ⟨hc, r3, h3, rfl⟩
    exact TotEnd.atEnd trivial
  have h1 := (hT.run buf).1
  unfold STDDescriptor.unmarshal
  rcases hr : STDDescriptor.unmarshalM buf 0 with ⟨d, pos⟩ | e | _
  · simp
  · simp
  · exact absurd hr h1

theorem or192 : ∀ b : UInt8, b < 64 → ((0b11000000 : UInt8) ||| b).toNat = 192 + b.toNat := forall_u8 (by decide +kernel)

theorem std_puts {v : Nat} (hv : v < 2 ^ 22) : ByteW.Puts (put22 v) (stdField 3 v) := by
  refine ByteW.Puts.congr (ByteW.Puts.put _) ?_
  unfold stdField
  rw [beBytes_3]
  congr 1
  · apply UInt8.toNat_inj.1
    rw [or192]
    · simp only [UInt8.toNat_ofNat', Nat.shiftRight_eq_div_pow]; omega
    · rw [UInt8.lt_iff_toNat_lt]; simp [Nat.shiftRight_eq_div_pow]; omega
  · congr 1
    · apply UInt8.toNat_inj.1; simp only [UInt8.toNat_ofNat', Nat.shiftRight_eq_div_pow]; omega
    · congr 1; apply UInt8.toNat_inj.1; simp only [UInt8.toNat_ofNat']; omega

/-- C42: encoding a metadata STD descriptor writes its nine bytes, all reserved bits set. -/
theorem C42_std_encode (d : STDDescriptor) (h : STDFits d) : d.marshal = .ok (stdBytes d 3 3 3) := by
  have hp := ByteW.Puts.all_cons (std_puts h.1) (ByteW.Puts.all_cons (std_puts h.2.1)
    (ByteW.Puts.all_cons (std_puts h.2.2) ByteW.Puts.all_nil))
  rw [List.append_nil] at hp
  change ByteW.Puts _ (stdBytes d 3 3 3) at hp
  have hl : (stdBytes d 3 3 3).length = 9 := by simp [stdBytes, stdField, beBytes_length]
  unfold STDDescriptor.marshal
  rw [hp.run 9 (by omega), hl]
  simp

/-- C42: metadata STD descriptor round trip. -/
theorem C42_std_round_trip (d : STDDescriptor) (h : STDFits d) : (d.marshal >>= STDDescriptor.unmarshal) = .ok d := by
  rw [C42_std_encode d h, Res.bind_ok]
  exact (C42_std_decode _ d).2 ⟨h, 3, 3, 3, by omega, by omega, by omega, rfl⟩

example : STDFits ⟨0x3FFFFF, 0, 0x12345⟩ := ⟨by decide, by decide, by decide⟩
example : STDDescriptor.unmarshal [0xFF, 0xFF, 0xFF, 0x40, 0, 0, 0xC1, 0x23, 0x45] = .ok ⟨0x3FFFFF, 0, 0x12345⟩ := by decide +kernel

/-! ## Metadata access unit cell -/

theorem cell_flags_of : ∀ fi : Fin 4, ∀ d r : Bool, ∀ x : Fin 16,
    UInt8.ofNat (fi.val * 64 + d.toNat * 32 + r.toNat * 16 + x.val) >>> 6 = UInt8.ofNat fi.val ∧
    (((UInt8.ofNat (fi.val * 64 + d.toNat * 32 + r.toNat * 16 + x.val) >>> 5) &&& 1) != 0) = d ∧
    (((UInt8.ofNat (fi.val * 64 + d.toNat * 32 + r.toNat * 16 + x.val) >>> 4) &&& 1) != 0) = r := by decide +kernel

theorem cell_flags_split : ∀ b : UInt8, (b >>> 6).toNat < 4 ∧
    b = UInt8.ofNat ((b >>> 6).toNat * 64 + (((b >>> 5) &&& 1) != 0).toNat * 32 + (((b >>> 4) &&& 1) != 0).toNat * 16 +
      b.toNat % 16) := forall_u8 (by decide +kernel)

/-- C42: a cell followed by anything is decoded to its fields, consuming exactly it. -/
theorem C42_cell_complete (c : AUCell) (r : Nat) (h : CellFits c) (hr : r < 16) :
    Reads AUCell.unmarshal (cellBytes c r) c := by
  obtain ⟨f1, f2, f3⟩ := cell_flags_of ⟨c.fragmentIndication.toNat, h.1⟩ c.decoderConfigFlag c.randomAccessIndicator ⟨r, hr⟩
  simp only [UInt8.ofNat_toNat] at f1 f2 f3
  unfold AUCell.unmarshal cellBytes
  refine Reads.need (by simp [beBytes_length]) ?_
  refine Reads.bind (x := [_]) (Reads.byte _) (Reads.bind (x := [_]) (Reads.byte _) (Reads.bind (x := [_]) (Reads.byte _) ?_))
  refine Reads.bind (Reads.be16 h.2) (Reads.need (by simp) ?_)
  rw [← List.append_nil c.data]
  have : (c.data ++ []).length = c.data.length := by simp
  rw [this]
  refine Reads.bind (Reads.take _) ?_
  rw [f1, f2, f3]
  exact Reads.pure _

/-- C42: decoding a cell never panics, and accepts only well-formed cells, whose fields it returns. -/
theorem C42_cell_sound : Tot 0 AUCell.unmarshal (fun c x => CellFits c ∧ ∃ r, r < 16 ∧ x = cellBytes c r) := by
  unfold AUCell.unmarshal
  refine Tot.need (Tot.byte (by omega) fun s => Tot.byte (by omega) fun q => Tot.byte (by omega) fun fl =>
    Tot.be16 (by omega) fun le hle => Tot.need (Tot.take (by omega) fun bs hb => Tot.pure ?_))
  obtain ⟨h1, h2⟩ := cell_flags_split fl
  refine ⟨⟨h1, by simpa [hb] using hle⟩, fl.toNat % 16, by omega, ?_⟩
  unfold cellBytes
  rw [← h2, hb]
  simp

theorem cell_flags_written : ∀ fi : Fin 4, ∀ d r : Bool,
    (UInt8.ofNat fi.val <<< 6 ||| flagToByte d <<< 5 ||| flagToByte r <<< 4 ||| 0b1111) =
      UInt8.ofNat (fi.val * 64 + d.toNat * 32 + r.toNat * 16 + 15) := by decide +kernel

theorem cell_puts (c : AUCell) (h : CellFits c) : ByteW.Puts c.marshalTo (cellBytes c 15) := by
  have hfl := cell_flags_written ⟨c.fragmentIndication.toNat, h.1⟩ c.decoderConfigFlag c.randomAccessIndicator
  simp only [UInt8.ofNat_toNat] at hfl
  unfold AUCell.marshalTo
  refine ByteW.Puts.congr (ByteW.Puts.all_cons (ByteW.Puts.put _) (ByteW.Puts.all_cons (ByteW.Puts.put _)
    (ByteW.Puts.all_cons (ByteW.Puts.put _) (ByteW.Puts.all_cons (ByteW.Puts.put _) (ByteW.Puts.all_cons (ByteW.Puts.copy _)
    ByteW.Puts.all_nil))))) ?_
  rw [← beBytes_2, hfl]
  simp [cellBytes]

theorem cellBytes_length (c : AUCell) (r : Nat) : (cellBytes c r).length = 5 + c.data.length := by
  simp [cellBytes, beBytes_length]; try omega

/-- C42: encoding a cell writes its bytes, all reserved bits set. -/
theorem C42_cell_encode (c : AUCell) (h : CellFits c) : c.marshal = .ok (cellBytes c 15) := by
  unfold AUCell.marshal
  have hl : (cellBytes c 15).length = c.marshalSize := cellBytes_length c 15
  rw [(cell_puts c h).run c.marshalSize (by omega), hl]
  simp

/-- C42: cell round trip, followed by anything. -/
theorem C42_cell_round_trip (c : AUCell) (post : Bytes) (h : CellFits c) :
    ∃ enc, c.marshal = .ok enc ∧ AUCell.unmarshal (enc ++ post) 0 = .ok (c, enc.length) :=
  ⟨_, C42_cell_encode c h, (C42_cell_complete c 15 h (by omega)).run post⟩

example : CellFits ⟨1, 2, 3, true, false, [5, 6]⟩ := ⟨by decide, by decide⟩
example : AUCell.unmarshal [1, 2, 0xE0, 0, 2, 5, 6, 7] 0 = .ok (⟨1, 2, 3, true, false, [5, 6]⟩, 7) := by decide +kernel

/-! ## C43: the metadata access-unit wrapper -/

/-- The bytes of a list of cells. -/
def wrapped (l : List (AUCell × Nat)) : Bytes := l.flatMap fun c => cellBytes c.1 c.2

/-- The payload of a list of cells. -/
def payload (l : List (AUCell × Nat)) : Bytes := l.flatMap fun c => c.1.data

theorem readLoop_complete (fuel i : Nat) (l : List (AUCell × Nat)) (pre out : Bytes) (hi : 1 ≤ i) (hne : l ≠ [])
    (hf : l.length ≤ fuel) (h : CellsFrom i l) :
    readLoop fuel (pre ++ wrapped l) pre.length i out = .ok (out ++ payload l) := by
  induction l generalizing fuel i pre out with
  | nil => exact absurd rfl hne
  | cons c l ih =>
    obtain ⟨fuel, rfl⟩ : ∃ f, fuel = f + 1 := ⟨fuel - 1, by simp at hf; omega⟩
    obtain ⟨h1, h2, h3, h4, h5⟩ := h
    have hi0 : (i == 0) = false := by simp; omega
    rw [hi0] at h2
    unfold readLoop
    have hw : wrapped (c :: l) = cellBytes c.1 c.2 ++ wrapped l := by simp [wrapped]
    rw [hw, C42_cell_complete c.1 c.2 h3 h4 pre (wrapped l), Res.bind_ok]
    simp only
    rw [if_neg (by omega)]
    by_cases hl : l = []
    · subst hl
      have : c.1.fragmentIndication = 0b01 := UInt8.toNat_inj.1 (by simpa using h2)
      rw [if_pos this, if_neg (by simp [wrapped])]
      simp [payload]
    · have he : l.isEmpty = false := by simpa using hl
      rw [he] at h2
      have : c.1.fragmentIndication = 0b00 := UInt8.toNat_inj.1 (by simpa using h2)
      rw [this, if_neg (by decide), if_pos rfl]
      have := ih fuel (i + 1) (pre ++ cellBytes c.1 c.2) (out ++ c.1.data) (by omega) hl (by simp at hf; omega) h5
      rw [List.length_append] at this
      rw [← List.append_assoc, this]
      simp [payload]

/-- C43: the reader returns the concatenated payload of every well-formed sequence of cells, whatever their service
identifiers, flags and reserved bits. -/
theorem C43_read_complete (l : List (AUCell × Nat)) (hne : l ≠ []) (h : CellsFrom 0 l) :
    readWrapper (wrapped l) = .ok (payload l) := by
  obtain ⟨c, l, rfl⟩ := List.exists_cons_of_ne_nil hne
  obtain ⟨h1, h2, h3, h4, h5⟩ := h
  unfold readWrapper
  have hw : wrapped (c :: l) = cellBytes c.1 c.2 ++ wrapped l := by simp [wrapped]
  rw [hw, (C42_cell_complete c.1 c.2 h3 h4).run (wrapped l), Res.bind_ok]
  simp only
  rw [if_neg (by omega)]
  by_cases hl : l = []
  · subst hl
    have : c.1.fragmentIndication = 0b11 := UInt8.toNat_inj.1 (by simpa using h2)
    rw [if_pos this, if_neg (by simp [wrapped])]
    simp [payload]
  · have he : l.isEmpty = false := by simpa using hl
    rw [he] at h2
    have : c.1.fragmentIndication = 0b10 := UInt8.toNat_inj.1 (by simpa using h2)
    rw [this, if_neg (by decide), if_pos rfl]
    have hlen : l.length ≤ (cellBytes c.1 c.2 ++ wrapped l).length + 1 := by
      have : ∀ l : List (AUCell × Nat), l.length ≤ (wrapped l).length := by
        intro l
        induction l with
        | nil => simp [wrapped]
        | cons a l ih =>
          have := cellBytes_length a.1 a.2
          simp only [wrapped, List.flatMap_cons, List.length_append, List.length_cons] at ih ⊢
          omega
      have := this l
      rw [List.length_append]
      omega
    have := readLoop_complete _ 1 l (cellBytes c.1 c.2) c.1.data (by omega) hl hlen h5
    rw [this]
    simp [payload]

theorem readLoop_sound (fuel : Nat) (pre post : Bytes) (i : Nat) (out : Bytes) (hi : 1 ≤ i) (hf : post.length < fuel) :
    (readLoop fuel (pre ++ post) pre.length i out).NoPanic ∧
    ∀ res, readLoop fuel (pre ++ post) pre.length i out = .ok res →
      ∃ l, l ≠ [] ∧ CellsFrom i l ∧ post = wrapped l ∧ res = out ++ payload l := by
  induction fuel generalizing pre post i out with
  | zero => omega
  | succ fuel ih =>
    unfold readLoop
    obtain ⟨h1, h2⟩ := C42_cell_sound pre post (by omega)
    rcases hr : AUCell.unmarshal (pre ++ post) pre.length with ⟨c, q⟩ | e | _
    · obtain ⟨bs, post', rfl, rfl, hc, r, hr16, rfl⟩ := h2 c q hr
      rw [Res.bind_ok]
      simp only
      by_cases hs : c.sequenceNumber.toNat ≠ i
      · rw [if_pos hs]; exact ⟨by simp, by simp⟩
      rw [if_neg hs]
      have hi0 : (i == 0) = false := by simp; omega
      by_cases hf1 : c.fragmentIndication = 0b01
      · rw [if_pos hf1]
        split
        · exact ⟨by simp, by simp⟩
        · rename_i hend
          refine ⟨by simp, ?_⟩
          intro res e
          cases e
          have : post' = [] := by
            apply List.length_eq_zero_iff.1
            simp only [List.length_append] at hend
            omega
          subst this
          refine ⟨[(c, r)], by simp, ⟨by dsimp only; omega, ?_, hc, hr16, trivial⟩, by simp [wrapped], by simp [payload]⟩
          rw [hi0, hf1]; rfl
      rw [if_neg hf1]
      by_cases hf0 : c.fragmentIndication = 0b00
      · rw [if_pos hf0]
        have hlc := cellBytes_length c r
        rw [List.length_append] at hf
        obtain ⟨g1, g2⟩ := ih (pre ++ cellBytes c r) post' (i + 1) (out ++ c.data) (by omega) (by omega)
        rw [List.length_append, List.append_assoc] at g1 g2
        refine ⟨g1, ?_⟩
        intro res e
        obtain ⟨l, k1, k2, rfl, rfl⟩ := g2 res e
        refine ⟨(c, r) :: l, by simp, ⟨by dsimp only; omega, ?_, hc, hr16, k2⟩, by simp [wrapped], by simp [payload]⟩
        have : l.isEmpty = false := by simpa using k1
        rw [hi0, hf0, this]; rfl
      · rw [if_neg hf0]; exact ⟨by simp, by simp⟩
    · exact ⟨by simp, by simp⟩
    · exact absurd hr h1

/-- C43: unwrapping never panics, and whatever it accepts is a well-formed sequence of cells whose payload it returns. -/
theorem C43_read_sound (data : Bytes) : (readWrapper data).NoPanic ∧
    ∀ res, readWrapper data = .ok res → ∃ l, l ≠ [] ∧ CellsFrom 0 l ∧ data = wrapped l ∧ res = payload l := by
  unfold readWrapper
  obtain ⟨h1, h2⟩ := C42_cell_sound.run data
  rcases hr : AUCell.unmarshal data 0 with ⟨c, q⟩ | e | _
  · obtain ⟨bs, post', rfl, rfl, hc, r, hr16, rfl⟩ := h2 c q hr
    rw [Res.bind_ok]
    simp only
    by_cases hs : c.sequenceNumber.toNat ≠ 0
    · rw [if_pos hs]; exact ⟨by simp, by simp⟩
    rw [if_neg hs]
    by_cases hf1 : c.fragmentIndication = 0b11
    · rw [if_pos hf1]
      split
      · exact ⟨by simp, by simp⟩
      · rename_i hend
        refine ⟨by simp, ?_⟩
        intro res e
        cases e
        have : post' = [] := by
          apply List.length_eq_zero_iff.1
          simp only [List.length_append] at hend
          omega
        subst this
        refine ⟨[(c, r)], by simp, ⟨by dsimp only; omega, ?_, hc, hr16, trivial⟩, by simp [wrapped], by simp [payload]⟩
        rw [hf1]; rfl
    rw [if_neg hf1]
    by_cases hf0 : c.fragmentIndication = 0b10
    · rw [if_pos hf0]
      obtain ⟨g1, g2⟩ := readLoop_sound ((cellBytes c r ++ post').length + 1) (cellBytes c r) post' 1 c.data (by omega)
        (by rw [List.length_append]; omega)
      refine ⟨g1, ?_⟩
      intro res e
      obtain ⟨l, k1, k2, rfl, rfl⟩ := g2 res e
      refine ⟨(c, r) :: l, by simp, ⟨by dsimp only; omega, ?_, hc, hr16, k2⟩, by simp [wrapped], by simp [payload]⟩
      have : l.isEmpty = false := by simpa using k1
      rw [hf0, this]; rfl
    · rw [if_neg hf0]; exact ⟨by simp, by simp⟩
  · exact ⟨by simp, by simp⟩
  · exact absurd hr h1

/-- The cells of a payload, cell `i` first, with up to 65535 bytes each. -/
def cellsOf : Nat → Nat → Bytes → List (AUCell × Nat)
  | 0, _, _ => []
  | k + 1, i, data => (⟨0, UInt8.ofNat i, UInt8.ofNat ((i == 0).toNat * 2 + (k == 0).toNat), false, true, data.take 65535⟩, 15) ::
      cellsOf k (i + 1) (data.drop 65535)

theorem cellsOf_payload (k i : Nat) (data : Bytes) (h : data.length ≤ k * 65535) : payload (cellsOf k i data) = data := by
  induction k generalizing i data with
  | zero => simp at h; simp [cellsOf, payload, h]
  | succ k ih =>
    have := ih (i + 1) (data.drop 65535) (by rw [List.length_drop]; omega)
    unfold payload at this
    unfold payload cellsOf
    rw [List.flatMap_cons, this]
    simp

theorem cellsOf_length (k i : Nat) (data : Bytes) : (cellsOf k i data).length = k := by
  induction k generalizing i data with
  | zero => rfl
  | succ k ih => simp [cellsOf, ih]

theorem cellsOf_valid (k i : Nat) (data : Bytes) (h : i + k ≤ 256) : CellsFrom i (cellsOf k i data) := by
  induction k generalizing i data with
  | zero => trivial
  | succ k ih =>
    have he : (cellsOf k (i + 1) (data.drop 65535)).isEmpty = (k == 0) := by
      cases k <;> rfl
    refine ⟨by simp; omega, ?_, ⟨?_, ?_⟩, by omega, ih _ _ (by omega)⟩
    · rw [he]; cases (i == 0) <;> cases (k == 0) <;> (dsimp only; decide)
    · cases (i == 0) <;> cases (k == 0) <;> (dsimp only; decide)
    · simp only [List.length_take]; omega

theorem indication_eq (k i n : Nat) (h : n = i + k + 1) :
    indication n i = UInt8.ofNat ((i == 0).toNat * 2 + (k == 0).toNat) := by
  unfold indication
  rcases i with _ | i
  · rcases k with _ | k
    · rw [if_pos (by omega)]; rfl
    · rw [if_neg (by omega), if_pos rfl]; rfl
  · rw [if_neg (by omega), if_neg (by omega)]
    rcases k with _ | k
    · rw [if_pos (by omega)]; rfl
    · rw [if_neg (by omega)]; rfl

theorem writeLoop_puts (n k i : Nat) (data : Bytes) (h : n = i + k) :
    ByteW.Puts (writeLoop n k i data) (wrapped (cellsOf k i data)) := by
  induction k generalizing i data with
  | zero => exact ByteW.Puts.nop
  | succ k ih =>
    unfold writeLoop
    have ht : data.take (min maxDataPerCell data.length) = data.take 65535 := by
      unfold maxDataPerCell
      by_cases hl : data.length ≤ 65535
      · rw [Nat.min_eq_right hl, List.take_of_length_le (Nat.le_refl _), List.take_of_length_le hl]
      · rw [Nat.min_eq_left (by omega)]
    have hd : data.drop (min maxDataPerCell data.length) = data.drop 65535 := by
      unfold maxDataPerCell
      by_cases hl : data.length ≤ 65535
      · rw [Nat.min_eq_right hl, List.drop_of_length_le (Nat.le_refl _), List.drop_of_length_le hl]
      · rw [Nat.min_eq_left (by omega)]
    simp only
    rw [ht, hd, indication_eq k i n (by omega)]
    have : wrapped (cellsOf (k + 1) i data) = cellBytes ⟨0, UInt8.ofNat i, UInt8.ofNat ((i == 0).toNat * 2 + (k == 0).toNat),
        false, true, data.take 65535⟩ 15 ++ wrapped (cellsOf k (i + 1) (data.drop 65535)) := by
      simp [wrapped, cellsOf]
    rw [this]
    refine ByteW.Puts.seq (cell_puts _ ⟨?_, ?_⟩) (ih (i + 1) _ (by omega))
    · cases (i == 0) <;> cases (k == 0) <;> (dsimp only; decide)
    · simp only [List.length_take]; omega

theorem cellCount_spec (n : Nat) : n ≤ cellCount n * 65535 ∧ (1 ≤ n → 1 ≤ cellCount n) ∧
    (∀ m, n ≤ m * 65535 → cellCount n ≤ m) := by
  unfold cellCount maxDataPerCell
  refine ⟨?_, ?_, ?_⟩
  · split <;> omega
  · intro h; split <;> omega
  · intro m h; split <;> omega

theorem wrapped_length (k i : Nat) (data : Bytes) (h : data.length ≤ k * 65535) :
    (wrapped (cellsOf k i data)).length = 5 * k + data.length := by
  have hp := congrArg List.length (cellsOf_payload k i data h)
  have hl := cellsOf_length k i data
  generalize cellsOf k i data = l at hp hl
  rw [← hp, ← hl]
  clear hp hl h
  induction l with
  | nil => rfl
  | cons a l ih =>
    have := cellBytes_length a.1 a.2
    simp only [wrapped, payload, List.flatMap_cons, List.length_append, List.length_cons] at ih ⊢
    omega

/-- C43: the writer never panics and produces the cells of the payload. -/
theorem C43_write (data : Bytes) : writeWrapper data = .ok (wrapped (cellsOf (cellCount data.length) 0 data)) := by
  have hc := (cellCount_spec data.length).1
  have hl := wrapped_length (cellCount data.length) 0 data hc
  unfold writeWrapper
  rw [(writeLoop_puts (cellCount data.length) (cellCount data.length) 0 data (by omega)).run _ (by omega), hl]
  simp

/-- C43: every payload of 1 to `256 * 65535` bytes written with the wrapper is returned unchanged by the reader. -/
theorem C43_round_trip (data : Bytes) (h1 : 1 ≤ data.length) (h2 : data.length ≤ 256 * 65535) :
    (writeWrapper data >>= readWrapper) = .ok data := by
  obtain ⟨c1, c2, c3⟩ := cellCount_spec data.length
  rw [C43_write, Res.bind_ok, C43_read_complete, cellsOf_payload _ _ _ c1]
  · intro h
    have := congrArg List.length h
    rw [cellsOf_length] at this
    have := c2 h1
    simp at *
    omega
  · exact cellsOf_valid _ _ _ (by have := c3 256 h2; omega)

theorem cells_bound (i : Nat) (l : List (AUCell × Nat)) (h : CellsFrom i l) (hl : l ≠ []) : i + l.length ≤ 256 := by
  induction l generalizing i with
  | nil => exact absurd rfl hl
  | cons c l ih =>
    obtain ⟨h1, h2, h3, h4, h5⟩ := h
    have := c.1.sequenceNumber.toNat_lt
    by_cases hl : l = []
    · subst hl; simp; omega
    · have := ih (i + 1) h5 hl
      simp only [List.length_cons]
      omega

/-- C43: the upper bound is exact: no longer payload can be read from cells of at most 65535 bytes, as the reader does not
expect the 8-bit sequence number to wrap around. -/
theorem C43_read_bound (data res : Bytes) (h : readWrapper data = .ok res) : res.length ≤ 256 * 65535 := by
  obtain ⟨l, hne, hc, rfl, rfl⟩ := (C43_read_sound data).2 res h
  have hb := cells_bound 0 l hc hne
  have : ∀ i (l : List (AUCell × Nat)), CellsFrom i l → (payload l).length ≤ l.length * 65535 := by
    intro i l
    induction l generalizing i with
    | nil => simp [payload]
    | cons c l ih =>
      rintro ⟨h1, h2, h3, h4, h5⟩
      have := ih (i + 1) h5
      have := h3.2
      simp only [payload, List.flatMap_cons, List.length_append, List.length_cons] at *
      omega
  exact Nat.le_trans (this 0 l hc) (Nat.mul_le_mul_right _ (by omega))

/-- C43: an empty payload is written as nothing, which the reader rejects. -/
theorem C43_empty : ∃ e, (writeWrapper [] >>= readWrapper) = .err e := ⟨_, rfl⟩

example : (writeWrapper [1, 2, 3] >>= readWrapper) = .ok [1, 2, 3] := by decide +kernel
example : readWrapper [9, 0, 0x8F, 0, 1, 7, 0, 1, 0x20, 0, 0, 0, 2, 0x5F, 0, 2, 8, 9] = .ok [7, 8, 9] := by decide +kernel

end Verif.Props
