import Verif.Model.TSOpus
import Verif.Spec.TSOpus
import Verif.Lemmas.BitM
import Verif.Lemmas.ByteW
import Verif.Lemmas.AV1

/-!
# Properties C40 and C41: Opus in MPEG-TS
-/

namespace Verif.Props
open Verif.Spec Verif.TSOpus Verif.BitM

/-- The decoded form of a control header. -/
def headerOf (size : Nat) (start stop : Option Nat) (ext : Option Bytes) : ControlHeader :=
  ⟨size, start.isSome, stop.isSome, ext.isSome, start.getD 0, stop.getD 0, (ext.map List.length).getD 0⟩

/-- Field widths: 13-bit trims and an 8-bit extension length. -/
def TrimsFit (start stop : Option Nat) (ext : Option Bytes) : Prop :=
  (∀ v ∈ start, v < 2 ^ 13) ∧ (∀ v ∈ stop, v < 2 ^ 13) ∧ (∀ b ∈ ext, b.length < 256)

/-- Every list of `8 * n` bits is a byte string. -/
theorem exists_bytes (n : Nat) (l : List Bool) (h : l.length = 8 * n) : ∃ b : Bytes, b.length = n ∧ bitsOf b = l := by
  induction n generalizing l with
  | zero => exact ⟨[], rfl, (List.length_eq_zero_iff.1 (by omega : l.length = 0)).symm⟩
  | succ n ih =>
    obtain ⟨b, h1, h2⟩ := ih (l.drop 8) (by simp; omega)
    refine ⟨UInt8.ofNat (natOfBits (l.take 8)) :: b, by simp [h1], ?_⟩
    have hl : (l.take 8).length = 8 := by simp; omega
    have := bitsOfNat_natOfBits (l.take 8)
    rw [hl] at this
    rw [bitsOf_cons, Bits.byteBits_ofNat, this, h2, List.take_append_drop]

theorem exists_nat_bits (l : List Bool) : ∃ v, l = bitsOfNat l.length v := ⟨natOfBits l, (bitsOfNat_natOfBits l).symm⟩

/-! ## The payload size -/

theorem sizeLoop_parses (k m fuel res : Nat) (hm : m < 255) (hf : k < fuel) :
    Parses (payloadSizeLoop fuel res) (bitsOf (List.replicate k 255 ++ [UInt8.ofNat m])) (res + 255 * k + m) := by
  induction k generalizing fuel res with
  | zero =>
    obtain ⟨fuel, rfl⟩ : ∃ f, fuel = f + 1 := ⟨fuel - 1, by omega⟩
    unfold payloadSizeLoop
    rw [← List.append_nil (bitsOf _)]
    refine Parses.bind (a := m) ?_ ?_
    · refine (Parses.readBits (n := 8) (v := m) (by omega) (by omega) (by omega)).congr ?_
      simp [Bits.byteBits_ofNat]
    · rw [if_pos (by omega)]; exact Parses.pure _
  | succ k ih =>
    obtain ⟨fuel, rfl⟩ : ∃ f, fuel = f + 1 := ⟨fuel - 1, by omega⟩
    unfold payloadSizeLoop
    rw [List.replicate_succ, List.cons_append, bitsOf_cons]
    refine Parses.bind (a := 255) (Parses.readBits (n := 8) (v := 255) (by omega) (by omega) (by omega)) ?_
    rw [if_neg (by omega), show res + 255 * (k + 1) + m = res + 255 + 255 * k + m by omega]
    exact ih fuel (res + 255) (by omega)

theorem size_parses (n : Nat) : Parses unmarshalPayloadSize (bitsOf (opusSizeBytes n)) n := by
  intro buf pos rest hp h
  have hl := congrArg List.length h
  rw [Bits.drop_length, List.length_append, length_bitsOf] at hl
  simp only [opusSizeBytes, List.length_append, List.length_replicate, List.length_cons, List.length_nil] at hl
  have := sizeLoop_parses (n / 255) (n % 255) (buf.length + 1) 0 (by omega) (by omega) buf pos rest hp h
  refine Eq.trans this ?_
  rw [show 0 + 255 * (n / 255) + n % 255 = n by omega]
  rfl

theorem sizeLoop_tot (fuel res : Nat) (buf : Bytes) (pos : Nat) (hp : pos ≤ 8 * buf.length)
    (hf : 8 * buf.length - pos < 8 * fuel) :
    (payloadSizeLoop fuel res buf pos).NoPanic ∧ ∀ a pos', payloadSizeLoop fuel res buf pos = .ok (a, pos') →
      ∃ n, a = res + n ∧ pos' = pos + (bitsOf (opusSizeBytes n)).length ∧
        (bitsOf buf).drop pos = bitsOf (opusSizeBytes n) ++ (bitsOf buf).drop pos' ∧ pos' ≤ 8 * buf.length := by
  induction fuel generalizing res pos with
  | zero => omega
  | succ fuel ih =>
    unfold payloadSizeLoop
    rw [bind_run]
    rcases Bits.readBits_sound (buf := buf) (pos := pos) (n := 8) (by omega) (by omega) with ⟨_, e⟩ | ⟨v, e, hv, hs, hd⟩
    · unfold BitM.readBits; rw [e]; exact ⟨by simp, by simp⟩
    · unfold BitM.readBits; rw [e, Res.bind_ok]
      simp only
      by_cases h : v = 255
      · subst h
        rw [if_neg (by simp)]
        obtain ⟨g1, g2⟩ := ih (res + 255) (pos + 8) (by omega) (by omega)
        refine ⟨g1, ?_⟩
        intro a q e
        obtain ⟨n, k1, k2, k3, k4⟩ := g2 a q e
        have e1 : opusSizeBytes (n + 255) = 255 :: opusSizeBytes n := by
          unfold opusSizeBytes
          rw [show (n + 255) / 255 = n / 255 + 1 by omega, show (n + 255) % 255 = n % 255 by omega, List.replicate_succ]
          rfl
        refine ⟨n + 255, by omega, ?_, ?_, k4⟩
        · rw [e1, bitsOf_cons, List.length_append, length_byteBits]; omega
        · rw [hd, e1, bitsOf_cons, k3, List.append_assoc]; rfl
      · rw [if_pos h]
        refine ⟨by simp [pure_run], ?_⟩
        intro a q e
        cases e
        have e1 : opusSizeBytes v = [UInt8.ofNat v] := by
          unfold opusSizeBytes
          rw [show v / 255 = 0 by omega, show v % 255 = v by omega]
          rfl
        have e2 : bitsOf (opusSizeBytes v) = bitsOfNat 8 v := by rw [e1]; simp [Bits.byteBits_ofNat]
        exact ⟨v, rfl, by rw [e2, length_bitsOfNat], by rw [e2]; exact hd, by omega⟩

theorem size_tot (n : Nat) : Tot n unmarshalPayloadSize (fun v b => b = bitsOf (opusSizeBytes v)) := by
  intro buf pos hp
  obtain ⟨h1, h2⟩ := sizeLoop_tot (buf.length + 1) 0 buf pos (by omega) (by omega)
  refine ⟨h1, fun a q e => ?_⟩
  obtain ⟨n, rfl, k2, k3, k4⟩ := h2 a q e
  rw [Nat.zero_add]
  exact ⟨_, rfl, k2, k3, k4⟩

/-! ## The control header -/

theorem trim_parses (o : Option Nat) (r : Nat) (h : ∀ v ∈ o, v < 2 ^ 13) :
    Parses (cond o.isSome readTrim 0) (trimBits r o) (o.getD 0) := by
  cases o with
  | none => exact Parses.cond_false
  | some v =>
    have hv : v < 2 ^ 13 := h v rfl
    refine Parses.cond_true ?_
    refine Parses.hasSpace (by simp [trimBits]) ?_
    refine Parses.bind (a := ()) (Parses.skip (bits := bitsOfNat 3 r)) ?_
    rw [← List.append_nil (bitsOfNat 13 v)]
    refine Parses.bind (Parses.readBitsU (by omega) (by omega) hv) ?_
    rw [Nat.mod_eq_of_lt (by omega)]
    exact Parses.pure _

theorem ext_parses (o : Option Bytes) (h : ∀ b ∈ o, b.length < 256) :
    Parses (cond o.isSome readExt 0) (extBits o) ((o.map List.length).getD 0) := by
  cases o with
  | none => exact Parses.cond_false
  | some b =>
    have hb : b.length < 256 := h b rfl
    refine Parses.cond_true ?_
    refine Parses.bind (Parses.readBits (by omega) (by omega) hb) ?_
    rw [Nat.mod_eq_of_lt (by omega)]
    refine Parses.hasSpace (by simp) ?_
    rw [← List.append_nil (bitsOf b), ← length_bitsOf]
    exact Parses.bind Parses.skip (Parses.pure _)

/-- C40: every well-formed control header, whatever its reserved bits and extension bytes, is decoded to its fields. -/
theorem C40_header_complete (size : Nat) (start stop : Option Nat) (ext : Option Bytes) (r r1 r2 : Nat)
    (h : TrimsFit start stop ext) :
    Parses ControlHeader.unmarshal (controlHeaderBits size start stop ext r r1 r2) (headerOf size start stop ext) := by
  unfold ControlHeader.unmarshal controlHeaderBits
  refine Parses.hasSpace (by simp; omega) ?_
  refine Parses.bind (Parses.readBitsU (by omega) (by omega) (by omega)) ?_
  rw [if_neg (by simp)]
  refine Parses.bind Parses.readFlagU ?_
  refine Parses.bind Parses.readFlagU ?_
  refine Parses.bind Parses.readFlagU ?_
  refine Parses.bind (Parses.skip (bits := bitsOfNat 2 r)) ?_
  refine Parses.bind (size_parses size) ?_
  refine Parses.bind (trim_parses start r1 h.1) ?_
  refine Parses.bind (trim_parses stop r2 h.2.1) ?_
  rw [← List.append_nil (extBits ext)]
  exact Parses.bind (ext_parses ext h.2.2) (Parses.pure _)

theorem trim_tot (n : Nat) (f : Bool) : Tot n (cond f readTrim 0)
    (fun v b => ∃ o r, f = o.isSome ∧ (∀ v ∈ o, v < 2 ^ 13) ∧ v = o.getD 0 ∧ b = trimBits r o) := by
  refine Tot.cond ?_ ?_
  · rintro rfl
    refine Tot.hasSpace (Tot.skip (by omega) ?_)
    intro sk hsk
    refine Tot.readBitsU (by omega) (by omega) (by omega) ?_
    intro v hv
    refine Tot.pure ?_
    obtain ⟨r, hr⟩ := exists_nat_bits sk
    rw [hsk] at hr
    exact ⟨some v, r, rfl, by simpa using hv, by simp; omega, by rw [hr]; simp [trimBits]⟩
  · rintro rfl
    exact ⟨none, 0, rfl, by simp, rfl, rfl⟩

theorem ext_tot (n : Nat) (f : Bool) : Tot n (cond f readExt 0)
    (fun v b => ∃ o : Option Bytes, f = o.isSome ∧ (∀ x ∈ o, x.length < 256) ∧ v = (o.map List.length).getD 0 ∧
      b = extBits o) := by
  refine Tot.cond ?_ ?_
  · rintro rfl
    refine Tot.readBits (by omega) (by omega) ?_
    intro v hv
    rw [Nat.mod_eq_of_lt (by omega)]
    refine Tot.hasSpace (Tot.skip (by omega) ?_)
    intro sk hsk
    refine Tot.pure ?_
    obtain ⟨b, hb, rfl⟩ := exists_bytes v sk hsk
    exact ⟨some b, rfl, by simp [hb]; omega, by simp [hb], by simp [extBits, hb]⟩
  · rintro rfl
    exact ⟨none, rfl, by simp, rfl, rfl⟩

/-- C40: decoding a control header never panics, and whatever is accepted is a well-formed control header. -/
theorem C40_header_sound : Tot 0 ControlHeader.unmarshal (fun h b => ∃ size start stop ext r r1 r2,
    TrimsFit start stop ext ∧ h = headerOf size start stop ext ∧ b = controlHeaderBits size start stop ext r r1 r2) := by
  unfold ControlHeader.unmarshal
  refine Tot.hasSpace (Tot.readBitsU (by omega) (by omega) (by omega) ?_)
  intro p hp
  refine Tot.ite (fun _ => Tot.fail) ?_
  intro hp
  simp only [ne_eq, Decidable.not_not] at hp
  subst hp
  refine Tot.readFlagU (by omega) fun s => Tot.readFlagU (by omega) fun e => Tot.readFlagU (by omega) fun c => ?_
  refine Tot.skip (by omega) ?_
  intro sk hsk
  refine Tot.bind (size_tot _) ?_
  rintro size _ rfl
  refine Tot.bind (trim_tot _ s) ?_
  rintro _ _ ⟨o1, r1, rfl, h1, rfl, rfl⟩
  refine Tot.bind (trim_tot _ e) ?_
  rintro _ _ ⟨o2, r2, rfl, h2, rfl, rfl⟩
  refine Tot.bind (ext_tot _ c) ?_
  rintro _ _ ⟨o3, rfl, h3, rfl, rfl⟩
  refine Tot.pure ?_
  obtain ⟨r, hr⟩ := exists_nat_bits sk
  rw [hsk] at hr
  refine ⟨size, o1, o2, o3, r, r1, r2, ⟨h1, h2, h3⟩, rfl, ?_⟩
  rw [hr]
  simp [controlHeaderBits]

theorem ctrl_len (size : Nat) (start stop : Option Nat) (ext : Option Bytes) (r r1 r2 : Nat) :
    ∃ k, (controlHeaderBits size start stop ext r r1 r2).length = 8 * k ∧ 3 ≤ k := by
  refine ⟨2 + (size / 255 + 1) + (if start.isSome then 2 else 0) + (if stop.isSome then 2 else 0) +
    (ext.map fun b => 1 + b.length).getD 0, ?_, by omega⟩
  unfold controlHeaderBits opusSizeBytes
  cases start <;> cases stop <;> cases ext <;> simp [trimBits, extBits] <;> omega

/-! ## Access units -/

/-- C40: a well-formed access unit followed by anything is decoded to its header and packet, consuming exactly it. -/
theorem C40_decode_complete (size : Nat) (start stop : Option Nat) (ext : Option Bytes) (r r1 r2 : Nat)
    (hdr packet rest : Bytes) (h : TrimsFit start stop ext) (hs : size = packet.length)
    (hh : bitsOf hdr = controlHeaderBits size start stop ext r r1 r2) :
    AccessUnit.unmarshal (hdr ++ packet ++ rest) = .ok (⟨headerOf size start stop ext, packet⟩, hdr.length + packet.length) := by
  unfold AccessUnit.unmarshal
  have hl := congrArg List.length hh
  rw [length_bitsOf] at hl
  rw [(C40_header_complete size start stop ext r r1 r2 h).run (rest := bitsOf (packet ++ rest))
    (by rw [List.append_assoc, bitsOf_append, hh]), Res.bind_ok]
  simp only
  rw [show (controlHeaderBits size start stop ext r r1 r2).length / 8 = hdr.length by omega,
    sliceFrom_ok (by simp), Res.bind_ok, List.append_assoc, List.drop_left' rfl]
  have : (headerOf size start stop ext).payloadSize = packet.length := hs
  rw [this, if_neg (by simp), slice_ok (by omega) (by simp), Res.bind_ok]
  simp

/-- C40: decoding an access unit never panics; what is accepted begins with a well-formed access unit. -/
theorem C40_decode_sound (buf : Bytes) : (AccessUnit.unmarshal buf).NoPanic ∧
    ∀ au n, AccessUnit.unmarshal buf = .ok (au, n) → ∃ start stop ext r r1 r2 hdr rest,
      TrimsFit start stop ext ∧ au.controlHeader = headerOf au.packet.length start stop ext ∧
      bitsOf hdr = controlHeaderBits au.packet.length start stop ext r r1 r2 ∧
      buf = hdr ++ au.packet ++ rest ∧ n = hdr.length + au.packet.length ∧ 3 ≤ hdr.length := by
  unfold AccessUnit.unmarshal
  obtain ⟨h1, h2⟩ := C40_header_sound.run buf
  rcases hr : ControlHeader.unmarshal buf 0 with ⟨h, pos⟩ | e | _
  · obtain ⟨bits, ⟨size, start, stop, ext, r, r1, r2, k1, rfl, rfl⟩, k2, k3, k4⟩ := h2 h pos hr
    obtain ⟨k, hk, hk3⟩ := ctrl_len size start stop ext r r1 r2
    rw [Res.bind_ok]
    simp only
    have hps : (headerOf size start stop ext).payloadSize = size := rfl
    rw [hps, sliceFrom_ok (by omega), Res.bind_ok]
    by_cases hlt : (buf.drop (pos / 8)).length < size
    · rw [if_pos hlt]; exact ⟨by simp, by simp⟩
    rw [if_neg hlt, slice_ok (by omega) (by omega), Res.bind_ok]
    refine ⟨by simp, ?_⟩
    intro au n e
    cases e
    have hkk : pos / 8 = k := by omega
    rw [hkk] at hlt ⊢
    have hpl : (((buf.drop k).drop 0).take (size - 0)).length = size := by simp at hlt ⊢; omega
    simp only [hpl]
    refine ⟨start, stop, ext, r, r1, r2, buf.take k, (buf.drop k).drop size, k1, rfl, ?_, ?_, ?_, ?_⟩
    · have e1 : bitsOf buf = bitsOf (buf.take k) ++ bitsOf (buf.drop k) := by
        rw [← bitsOf_append, List.take_append_drop]
      rw [k3] at e1
      refine (List.append_inj_left e1 ?_).symm
      rw [length_bitsOf, hk, List.length_take]
      congr 1
      omega
    · simp only [List.drop_zero, Nat.sub_zero, List.append_assoc, List.take_append_drop]
    · rw [List.length_take]; omega
    · rw [List.length_take]; omega
  · exact ⟨by simp, by simp⟩
  · exact absurd hr h1

/-- The bytes of an encoded header. -/
def hdrBytes (size : Nat) (start stop : Option Nat) (ext : Option Bytes) : Bytes :=
  [0x7F, (headerOf size start stop ext).flags] ++ opusSizeBytes size ++
  (start.map fun v => [UInt8.ofNat (v >>> 8), UInt8.ofNat v]).getD [] ++
  (stop.map fun v => [UInt8.ofNat (v >>> 8), UInt8.ofNat v]).getD [] ++
  (ext.map fun b => UInt8.ofNat b.length :: List.replicate b.length 0).getD []

theorem bits13 (v : Nat) (h : v < 2 ^ 13) : byteBits (UInt8.ofNat (v >>> 8)) ++ byteBits (UInt8.ofNat v) =
    bitsOfNat 3 0 ++ bitsOfNat 13 v := by
  rw [← bits16, bitsOfNat_add 3 13, Nat.div_eq_of_lt h]

theorem flags_bits : ∀ s e c : Bool, byteBits 0x7F ++ byteBits (ControlHeader.flags ⟨0, s, e, c, 0, 0, 0⟩) =
    bitsOfNat 11 0x3ff ++ ([s] ++ ([e] ++ ([c] ++ bitsOfNat 2 0))) := by
  decide +kernel

/-- C40: the encoder writes a well-formed header with zero reserved bits. -/
theorem hdrBytes_bits (size : Nat) (start stop : Option Nat) (ext : Option Bytes) (h : TrimsFit start stop ext)
    (hz : ∀ b ∈ ext, b = List.replicate b.length 0) :
    bitsOf (hdrBytes size start stop ext) = controlHeaderBits size start stop ext 0 0 0 := by
  have hf : ∀ s e c : Bool, byteBits 0x7F ++ byteBits (ControlHeader.flags ⟨size, s, e, c, start.getD 0, stop.getD 0,
      (ext.map List.length).getD 0⟩) = bitsOfNat 11 0x3ff ++ ([s] ++ ([e] ++ ([c] ++ bitsOfNat 2 0))) := by
    intro s e c
    exact flags_bits s e c
  have h1 : bitsOf ((start.map fun v => [UInt8.ofNat (v >>> 8), UInt8.ofNat v]).getD []) = trimBits 0 start := by
    cases start with
    | none => rfl
    | some v => simpa [trimBits] using bits13 v (h.1 v rfl)
  have h2 : bitsOf ((stop.map fun v => [UInt8.ofNat (v >>> 8), UInt8.ofNat v]).getD []) = trimBits 0 stop := by
    cases stop with
    | none => rfl
    | some v => simpa [trimBits] using bits13 v (h.2.1 v rfl)
  have h3 : bitsOf ((ext.map fun b => UInt8.ofNat b.length :: List.replicate b.length 0).getD []) = extBits ext := by
    cases ext with
    | none => rfl
    | some b => rw [extBits, ← Bits.byteBits_ofNat]; conv => rhs; rw [hz b rfl]
                simp
  unfold hdrBytes controlHeaderBits
  rw [bitsOf_append, bitsOf_append, bitsOf_append, bitsOf_append, h1, h2, h3]
  have := hf start.isSome stop.isSome ext.isSome
  simp only [bitsOf_cons, bitsOf_nil, List.append_nil]
  unfold headerOf
  rw [this]
  simp only [List.append_assoc]

theorem hdrBytes_length (size : Nat) (start stop : Option Nat) (ext : Option Bytes) :
    (hdrBytes size start stop ext).length = (headerOf size start stop ext).marshalSize := by
  unfold hdrBytes headerOf ControlHeader.marshalSize marshalPayloadSizeSize opusSizeBytes
  cases start <;> cases stop <;> cases ext <;> simp <;> omega

theorem hdr_puts (size : Nat) (start stop : Option Nat) (ext : Option Bytes) :
    ByteW.Puts (headerOf size start stop ext).marshalTo (hdrBytes size start stop ext) := by
  unfold ControlHeader.marshalTo hdrBytes
  have h1 : ∀ o : Option Nat, ByteW.Puts
      (if o.isSome then ByteW.put [UInt8.ofNat (o.getD 0 >>> 8), UInt8.ofNat (o.getD 0)] else BitW.nop)
      ((o.map fun v => [UInt8.ofNat (v >>> 8), UInt8.ofNat v]).getD []) := by
    intro o
    cases o with
    | none => exact ByteW.Puts.nop
    | some v => exact ByteW.Puts.put _
  have h2 : ByteW.Puts (if ext.isSome then BitW.seq (ByteW.put [UInt8.ofNat ((ext.map List.length).getD 0)])
      (BitW.skip ((ext.map List.length).getD 0)) else BitW.nop)
      ((ext.map fun b => UInt8.ofNat b.length :: List.replicate b.length 0).getD []) := by
    cases ext with
    | none => exact ByteW.Puts.nop
    | some b => exact ByteW.Puts.seq (ByteW.Puts.put [UInt8.ofNat b.length]) (ByteW.Puts.skip b.length)
  refine ByteW.Puts.congr (ByteW.Puts.all_cons (ByteW.Puts.put _) (ByteW.Puts.all_cons (ByteW.Puts.put _)
    (ByteW.Puts.all_cons (ByteW.Puts.put _) (ByteW.Puts.all_cons (h1 start) (ByteW.Puts.all_cons (h1 stop)
      (ByteW.Puts.all_cons h2 ByteW.Puts.all_nil)))))) ?_
  unfold marshalPayloadSize marshalPayloadSizeSize opusSizeBytes
  simp [headerOf]

/-- C40: encoding into the zeroed rest of a buffer writes the header bytes and the packet, `MarshalSize` bytes in all. -/
theorem C40_encode (start stop : Option Nat) (ext : Option Bytes) (packet : Bytes) :
    ByteW.Puts (AccessUnit.marshalTo ⟨headerOf packet.length start stop ext, packet⟩)
      (hdrBytes packet.length start stop ext ++ packet) ∧
    (hdrBytes packet.length start stop ext ++ packet).length =
      AccessUnit.marshalSize ⟨headerOf packet.length start stop ext, packet⟩ := by
  constructor
  · unfold AccessUnit.marshalTo
    rw [if_neg (by simp [headerOf])]
    exact ByteW.Puts.seq (hdr_puts _ _ _ _) (ByteW.Puts.copy _)
  · rw [List.length_append, hdrBytes_length]; rfl

/-- C40: round trip, for every packet, all trims below `2^13`, and an extension of any length (whose content, reserved,
is zero), followed by anything. -/
theorem C40_round_trip (start stop : Option Nat) (ext : Option Bytes) (packet rest : Bytes)
    (h : TrimsFit start stop ext) (hz : ∀ b ∈ ext, b = List.replicate b.length 0) :
    ∃ enc, AccessUnit.marshalTo ⟨headerOf packet.length start stop ext, packet⟩
        (makeBytes (AccessUnit.marshalSize ⟨headerOf packet.length start stop ext, packet⟩)) 0 = .ok (enc, enc.length) ∧
      enc.length = AccessUnit.marshalSize ⟨headerOf packet.length start stop ext, packet⟩ ∧
      AccessUnit.unmarshal (enc ++ rest) = .ok (⟨headerOf packet.length start stop ext, packet⟩, enc.length) := by
  obtain ⟨h1, h2⟩ := C40_encode start stop ext packet
  refine ⟨hdrBytes packet.length start stop ext ++ packet, ?_, h2, ?_⟩
  · rw [h1.run _ (by omega), h2]; simp
  · rw [C40_decode_complete packet.length start stop ext 0 0 0 _ packet rest h rfl (hdrBytes_bits _ _ _ _ h hz)]
    simp

/-! ## The writer and the reader -/

/-- The PES payload of a list of packets. -/
def opusPayload (packets : List Bytes) : Bytes :=
  packets.flatMap fun p => hdrBytes p.length none none none ++ p

theorem C40_write (packets : List Bytes) : writeOpus packets = .ok (opusPayload packets) := by
  have hp : ByteW.Puts (BitW.all (packets.map fun p => (auOf p).marshalTo)) (opusPayload packets) := by
    induction packets with
    | nil => exact ByteW.Puts.all_nil
    | cons p l ih =>
      refine ByteW.Puts.congr (ByteW.Puts.all_cons (C40_encode none none none p).1 ih) ?_
      simp [opusPayload]
  have hs : (opusPayload packets).length = opusMarshalSize packets := by
    induction packets with
    | nil => rfl
    | cons p l ih =>
      have hl : (opusPayload l).length = opusMarshalSize l := by
        apply ih
        clear ih hp
        induction l with
        | nil => exact ByteW.Puts.all_nil
        | cons p l ih =>
          refine ByteW.Puts.congr (ByteW.Puts.all_cons (C40_encode none none none p).1 ih) ?_
          simp [opusPayload]
      have h2 := (C40_encode none none none p).2
      simp only [opusPayload, opusMarshalSize, List.flatMap_cons, List.map_cons, List.sum_cons] at hl ⊢
      rw [List.length_append, hl, h2]
      rfl
  unfold writeOpus
  rw [hp.run _ (by omega), hs]
  simp

theorem opusSplit_complete (fuel : Nat) (l : List (Bytes × Bytes)) (hne : l ≠ []) (pre : Bytes) (acc : List Bytes)
    (hf : l.length ≤ fuel)
    (hl : ∀ x ∈ l, ∃ start stop ext r r1 r2, TrimsFit start stop ext ∧
      bitsOf x.1 = controlHeaderBits x.2.length start stop ext r r1 r2) :
    splitLoop fuel (pre ++ l.flatMap fun x => x.1 ++ x.2) pre.length acc = .ok (acc ++ l.map Prod.snd) := by
  induction l generalizing fuel pre acc with
  | nil => exact absurd rfl hne
  | cons x l ih =>
    obtain ⟨fuel, rfl⟩ : ∃ f, fuel = f + 1 := ⟨fuel - 1, by simp at hf; omega⟩
    obtain ⟨start, stop, ext, r, r1, r2, h1, h2⟩ := hl x (by simp)
    unfold splitLoop
    rw [sliceFrom_ok (by simp), Res.bind_ok, List.drop_left' rfl, List.flatMap_cons,
      C40_decode_complete x.2.length start stop ext r r1 r2 x.1 x.2 _ h1 rfl h2, Res.bind_ok]
    simp only
    rw [sliceFrom_ok (by simp), Res.bind_ok]
    have hd : (pre ++ (x.1 ++ x.2 ++ l.flatMap fun x => x.1 ++ x.2)).drop (pre.length + (x.1.length + x.2.length))
        = l.flatMap fun x => x.1 ++ x.2 := by
      rw [← List.append_assoc, List.drop_left' (by simp)]
    rw [hd]
    by_cases hn : l = []
    · subst hn
      rw [if_pos (by simp)]; simp
    · rw [if_neg ?_]
      · have := ih fuel hn (pre ++ (x.1 ++ x.2)) (acc ++ [x.2]) (by simp at hf; omega) (fun y hy => hl y (by simp [hy]))
        rw [List.length_append, List.length_append] at this
        rw [← List.append_assoc, this]
        simp
      · obtain ⟨y, l', rfl⟩ := List.exists_cons_of_ne_nil hn
        obtain ⟨start', stop', ext', r', r1', r2', _, h2'⟩ := hl y (by simp)
        obtain ⟨k, hk, hk3⟩ := ctrl_len y.2.length start' stop' ext' r' r1' r2'
        have := congrArg List.length h2'
        rw [length_bitsOf] at this
        simp only [List.flatMap_cons, List.length_append]
        omega

/-- C40: concatenated well-formed access units are split back into exactly their packets. -/
theorem C40_split (l : List (Bytes × Bytes)) (hne : l ≠ [])
    (hl : ∀ x ∈ l, ∃ start stop ext r r1 r2, TrimsFit start stop ext ∧
      bitsOf x.1 = controlHeaderBits x.2.length start stop ext r r1 r2) :
    readOpus (l.flatMap fun x => x.1 ++ x.2) = .ok (l.map Prod.snd) := by
  have hlen : l.length ≤ (l.flatMap fun x => x.1 ++ x.2).length := by
    clear hne
    induction l with
    | nil => simp
    | cons x l ih =>
      obtain ⟨start', stop', ext', r', r1', r2', _, h2'⟩ := hl x (by simp)
      obtain ⟨k, hk, hk3⟩ := ctrl_len x.2.length start' stop' ext' r' r1' r2'
      have := congrArg List.length h2'
      rw [length_bitsOf] at this
      have := ih (fun y hy => hl y (by simp [hy]))
      simp only [List.flatMap_cons, List.length_append, List.length_cons]
      omega
  have := opusSplit_complete ((l.flatMap fun x => x.1 ++ x.2).length + 1) l hne [] [] (by omega) hl
  simpa [readOpus] using this

/-- C40: what the writer produces from one or more packets the reader splits back into the same packets. -/
theorem C40_write_read (packets : List Bytes) (hne : packets ≠ []) :
    (writeOpus packets >>= readOpus) = .ok packets := by
  rw [C40_write, Res.bind_ok]
  have := C40_split (packets.map fun p => (hdrBytes p.length none none none, p)) (by simpa using hne) ?_
  · rw [List.flatMap_map, List.map_map] at this
    refine Eq.trans this ?_
    congr 1
    exact List.map_id' packets
  · intro x hx
    obtain ⟨p, hp, rfl⟩ := List.mem_map.1 hx
    exact ⟨none, none, none, 0, 0, 0, ⟨by simp, by simp, by simp⟩,
      hdrBytes_bits p.length none none none ⟨by simp, by simp, by simp⟩ (by simp)⟩

theorem opusSplit_sound (fuel : Nat) (data : Bytes) (pos : Nat) (acc : List Bytes) (hp : pos ≤ data.length)
    (hf : data.length - pos < fuel) : (splitLoop fuel data pos acc).NoPanic := by
  induction fuel generalizing pos acc with
  | zero => omega
  | succ fuel ih =>
    unfold splitLoop
    rw [sliceFrom_ok hp, Res.bind_ok]
    obtain ⟨h1, h2⟩ := C40_decode_sound (data.drop pos)
    rcases hr : AccessUnit.unmarshal (data.drop pos) with ⟨au, n⟩ | e | _
    · obtain ⟨_, _, _, _, _, _, hdr, rest, _, _, _, h3, h4, h5⟩ := h2 au n hr
      have hl := congrArg List.length h3
      simp only [List.length_drop, List.length_append] at hl
      rw [Res.bind_ok]
      simp only
      rw [sliceFrom_ok (by omega), Res.bind_ok]
      split
      · simp
      · exact ih _ _ (by omega) (by omega)
    · simp
    · exact absurd hr h1

/-- C40: the reader's loop ends and does not panic, on any input. -/
theorem C40_no_panic (data : Bytes) : (readOpus data).NoPanic :=
  opusSplit_sound _ data 0 [] (by omega) (by omega)

example : TrimsFit (some 100) none (some [0, 0]) := ⟨by simp, by simp, by simp⟩
example : AccessUnit.unmarshal [0x7F, 0xF4, 3, 0x00, 100, 2, 0, 0, 0xAA, 0xBB, 0xCC, 0xDD] =
    .ok (⟨⟨3, true, false, true, 100, 0, 2⟩, [0xAA, 0xBB, 0xCC]⟩, 11) := by decide +kernel
example : (writeOpus [[1, 2], List.replicate 255 7, []] >>= readOpus) = .ok [[1, 2], List.replicate 255 7, []] := by
  decide +kernel

/-! ## C41: the audio descriptor -/

theorem bitLenLoop_spec (v r : Nat) : ∃ k, bitLenLoop v r = r + k ∧ v < 2 ^ k ∧ ∀ j, v < 2 ^ j → k ≤ j := by
  induction v using Nat.strongRecOn generalizing r with
  | _ v ih =>
    unfold bitLenLoop
    split
    · rename_i h
      rw [Nat.shiftRight_eq_div_pow]
      obtain ⟨k, h1, h2, h3⟩ := ih (v / 2 ^ 1) (by omega) (r + 1)
      refine ⟨k + 1, by omega, by rw [Nat.pow_succ]; omega, ?_⟩
      intro j hj
      cases j with
      | zero => omega
      | succ j =>
        rw [Nat.pow_succ] at hj
        have := h3 j (by omega)
        omega
    · exact ⟨0, rfl, by omega, by intros; omega⟩

/-- `ceilLog2` is the least width that can hold `n` values. -/
theorem C41_width (n : Nat) (h : 1 ≤ n) : IsWidth n (ceilLog2 n) := by
  unfold ceilLog2
  split
  · have : n = 1 := by omega
    subst this
    exact ⟨by simp, by intros; omega⟩
  · obtain ⟨k, h1, h2, h3⟩ := bitLenLoop_spec (n - 1) 0
    rw [h1, Nat.zero_add]
    refine ⟨by omega, ?_⟩
    intro j hj
    exact h3 j (by omega)

theorem width_unique {n w : Nat} (h : 1 ≤ n) (hw : IsWidth n w) : ceilLog2 n = w := by
  have h0 := C41_width n h
  have := h0.2 w hw.1
  have := hw.2 _ h0.1
  omega

theorem width_bounds {n b : Nat} (h : 1 ≤ n) (hb : n ≤ 2 ^ b) : ceilLog2 n ≤ b ∧ (2 ≤ n → 1 ≤ ceilLog2 n) := by
  have h0 := C41_width n h
  refine ⟨h0.2 b hb, fun h2 => ?_⟩
  rcases hc : ceilLog2 n with _ | k
  · rw [hc] at h0; have := h0.1; simp at this; omega
  · omega

theorem mapping_parses (channels streams coupled w1 w2 w3 : Nat) (codes : List Nat) (hc : 1 ≤ channels)
    (hc2 : channels ≤ 255) (hw : OpusWidths channels streams coupled w1 w2 w3)
    (hf : OpusFits channels streams coupled codes w1 w2 w3) :
    Parses (readMapping channels) (opusMappingBits w1 w2 w3 streams coupled codes)
      (streams, coupled, codes.map UInt8.ofNat) := by
  obtain ⟨h1, h2, h3, rfl, h5⟩ := hf
  obtain ⟨g1, g2, g3⟩ := hw
  have b1 : w1 ≤ 8 := g1.2 8 (by omega)
  have b1' : 2 ^ w1 ≤ 2 ^ 8 := Nat.pow_le_pow_right (by omega) b1
  have b2 : w2 ≤ 9 := g2.2 9 (by omega)
  have b2' : 2 ^ w2 ≤ 2 ^ 9 := Nat.pow_le_pow_right (by omega) b2
  have b3 : w3 ≤ 10 := g3.2 10 (by omega)
  have p2 : 1 ≤ w2 := by rcases w2 with _ | k; · have := g2.1; simp at this; omega
                         · omega
  have p3 : 1 ≤ w3 := by rcases w3 with _ | k; · have := g3.1; simp at this; omega
                         · omega
  have hrest : Parses (do
      let c ← readBits (ceilLog2 (streams + 1))
      let mapping ← times (readBits (ceilLog2 (streams + c + 1))) codes.length
      pure (streams, c, mapping.map UInt8.ofNat))
      (bitsOfNat w2 coupled ++ codes.flatMap (bitsOfNat w3)) (streams, coupled, codes.map UInt8.ofNat) := by
    rw [width_unique (by omega) g2]
    refine Parses.bind (Parses.readBits p2 (by omega) h3) ?_
    rw [width_unique (by omega) g3, ← List.append_nil (codes.flatMap _)]
    refine Parses.bind (Parses.times fun v hv => Parses.readBits p3 (by omega) (h5 v hv)) (Parses.pure _)
  unfold readMapping opusMappingBits
  refine Parses.bind ?_ hrest
  unfold readStreamCount
  by_cases hc1 : codes.length = 1
  · have : w1 = 0 := by have := g1.2 0 (by omega); omega
    subst this
    have : streams = 1 := by simp at h2; omega
    subst this
    rw [if_pos hc1]
    exact Parses.pure _
  · rw [if_neg hc1]
    have p1 : 1 ≤ w1 := by rcases w1 with _ | k; · have := g1.1; simp at this; omega
                           · omega
    rw [width_unique (by omega) g1, ← List.append_nil (bitsOfNat w1 _)]
    refine Parses.bind (Parses.readBits p1 (by omega) (by omega)) ?_
    rw [show streams - 1 + 1 = streams by omega]
    exact Parses.pure _

theorem mapping_tot (channels : Nat) (hc : 1 ≤ channels) (hc2 : channels ≤ 255) : Tot 0 (readMapping channels)
    (fun r b => ∃ w1 w2 w3 codes, OpusWidths channels r.1 r.2.1 w1 w2 w3 ∧ OpusFits channels r.1 r.2.1 codes w1 w2 w3 ∧
      r.2.2 = codes.map UInt8.ofNat ∧ b = opusMappingBits w1 w2 w3 r.1 r.2.1 codes) := by
  unfold readMapping
  have hw1 := C41_width channels hc
  refine Tot.bind (P := fun s b => 1 ≤ s ∧ s ≤ 2 ^ ceilLog2 channels ∧ s ≤ 256 ∧
    b = bitsOfNat (ceilLog2 channels) (s - 1)) ?_ ?_
  · unfold readStreamCount
    split
    · rename_i h; subst h
      exact Tot.pure ⟨by omega, by simp [ceilLog2], by omega, by simp [ceilLog2]; rfl⟩
    · obtain ⟨k1, k2⟩ := width_bounds (n := channels) (b := 8) hc (by omega)
      refine Tot.readBits (by omega) (by omega) ?_
      intro v hv
      have : 2 ^ ceilLog2 channels ≤ 2 ^ 8 := Nat.pow_le_pow_right (by omega) k1
      exact Tot.pure ⟨by omega, by omega, by omega, by simp⟩
  rintro s _ ⟨h1, h2, h3, rfl⟩
  obtain ⟨k1, k2⟩ := width_bounds (n := s + 1) (b := 9) (by omega) (by omega)
  refine Tot.readBits (by omega) (by omega) ?_
  intro c hc
  have : 2 ^ ceilLog2 (s + 1) ≤ 2 ^ 9 := Nat.pow_le_pow_right (by omega) k1
  obtain ⟨j1, j2⟩ := width_bounds (n := s + c + 1) (b := 10) (by omega) (by omega)
  refine Tot.bind (Tot.times (P := fun v => v < 2 ^ ceilLog2 (s + c + 1)) (enc := bitsOfNat (ceilLog2 (s + c + 1)))
    (Tot.readBits' (by omega) (by omega) fun v hv => ⟨hv, rfl⟩)) ?_
  rintro l _ ⟨l1, l2, rfl⟩
  refine Tot.pure ⟨_, _, _, l, ⟨hw1, C41_width _ (by omega), C41_width _ (by omega)⟩, ⟨h1, h2, hc, l1, l2⟩, rfl, ?_⟩
  simp [opusMappingBits]

/-- C41: an explicit configuration, followed by anything, is decoded to its fields. -/
theorem C41_decode_explicit (channels family : UInt8) (streams coupled w1 w2 w3 : Nat) (codes : List Nat) (body : Bytes)
    (rest : List Bool) (hc : channels ≠ 0) (hfam : family ≠ 0)
    (hw : OpusWidths channels.toNat streams coupled w1 w2 w3) (hf : OpusFits channels.toNat streams coupled codes w1 w2 w3)
    (hb : bitsOf body = opusMappingBits w1 w2 w3 streams coupled codes ++ rest) :
    Descriptor.unmarshal (0x81 :: channels :: family :: body) =
      .ok ⟨0x81, channels.toNat, family.toNat, streams, coupled, codes.map UInt8.ofNat⟩ := by
  have hc' : channels.toNat ≠ 0 := fun h => hc (UInt8.toNat_inj.1 h)
  have hf' : family.toNat ≠ 0 := fun h => hfam (UInt8.toNat_inj.1 h)
  have := channels.toNat_lt
  unfold Descriptor.unmarshal
  rw [if_neg (by simp), idx_zero_cons, Res.bind_ok, if_pos rfl, if_neg (by simp), idx_succ_cons, idx_zero_cons,
    Res.bind_ok, if_neg hc', idx_succ_cons, idx_succ_cons, idx_zero_cons, Res.bind_ok, sliceFrom_ok (by simp),
    Res.bind_ok, if_neg hf']
  have hm := (mapping_parses channels.toNat streams coupled w1 w2 w3 codes (by omega) (by omega) hw hf).run hb
  simp only [List.drop_succ_cons, List.drop_zero]
  rw [hm, Res.bind_ok]

/-- The channel configuration codes of table 4-3 other than the explicit one. -/
def IsTableCode (code : UInt8) : Prop := code ≤ 8 ∨ code = 0x80 ∨ (0x82 ≤ code ∧ code ≤ 0x88)

instance (code : UInt8) : Decidable (IsTableCode code) := by unfold IsTableCode; infer_instance

theorem table_codes : ∀ code : UInt8, (code ≠ 0x81 ∧ (channelConfigTable.lookup code).isNone = false ↔ IsTableCode code) :=
  forall_u8 (by decide +kernel)

/-- C41: decoding never panics; what is accepted is a table code, a family 0 configuration with one or two channels, or a
complete explicit configuration. -/
theorem C41_decode_sound (buf : Bytes) : (Descriptor.unmarshal buf).NoPanic ∧
    ∀ d, Descriptor.unmarshal buf = .ok d →
      (∃ rest, buf = d.channelConfigCode :: rest ∧ IsTableCode d.channelConfigCode ∧ d = ⟨d.channelConfigCode, 0, 0, 0, 0, []⟩) ∨
      (∃ c rest, buf = 0x81 :: c :: 0 :: rest ∧ (c = 1 ∨ c = 2) ∧ d = ⟨0x81, c.toNat, 0, 0, 0, []⟩) ∨
      (∃ c f body w1 w2 w3 codes rest, buf = 0x81 :: c :: f :: body ∧ c ≠ 0 ∧ f ≠ 0 ∧
        OpusWidths c.toNat d.streamCount d.coupledStreamCount w1 w2 w3 ∧
        OpusFits c.toNat d.streamCount d.coupledStreamCount codes w1 w2 w3 ∧
        bitsOf body = opusMappingBits w1 w2 w3 d.streamCount d.coupledStreamCount codes ++ rest ∧
        d = ⟨0x81, c.toNat, f.toNat, d.streamCount, d.coupledStreamCount, codes.map UInt8.ofNat⟩) := by
  unfold Descriptor.unmarshal
  rcases buf with _ | ⟨code, buf⟩
  · exact ⟨by simp, by simp⟩
  rw [if_neg (by simp), idx_zero_cons, Res.bind_ok]
  by_cases hcode : code = 0x81
  · subst hcode
    rw [if_pos rfl]
    rcases buf with _ | ⟨c, _ | ⟨f, body⟩⟩
    · exact ⟨by simp, by simp⟩
    · exact ⟨by simp, by simp⟩
    rw [if_neg (by simp), idx_succ_cons, idx_zero_cons, Res.bind_ok]
    by_cases hc : c.toNat = 0
    · rw [if_pos hc]; exact ⟨by simp, by simp⟩
    rw [if_neg hc, idx_succ_cons, idx_succ_cons, idx_zero_cons, Res.bind_ok, sliceFrom_ok (by simp), Res.bind_ok]
    by_cases hf : f.toNat = 0
    · rw [if_pos hf]
      have hf0 : f = 0 := UInt8.toNat_inj.1 hf
      subst hf0
      by_cases hcc : c.toNat = 1 ∨ c.toNat = 2
      · rw [if_pos hcc]
        refine ⟨by simp, ?_⟩
        intro d e
        cases e
        right; left
        refine ⟨c, body, rfl, ?_, rfl⟩
        rcases hcc with h | h
        · left; exact UInt8.toNat_inj.1 h
        · right; exact UInt8.toNat_inj.1 h
      · rw [if_neg hcc]; exact ⟨by simp, by simp⟩
    · rw [if_neg hf]
      simp only [List.drop_succ_cons, List.drop_zero]
      have := c.toNat_lt
      obtain ⟨h1, h2⟩ := (mapping_tot c.toNat (by omega) (by omega)).run body
      rcases hr : readMapping c.toNat body 0 with ⟨r, pos⟩ | e | _
      · obtain ⟨bits, ⟨w1, w2, w3, codes, k1, k2, k3, rfl⟩, k4, k5, k6⟩ := h2 r pos hr
        rw [Res.bind_ok]
        refine ⟨by simp, ?_⟩
        intro d e
        cases e
        right; right
        refine ⟨c, f, body, w1, w2, w3, codes, _, rfl, fun h => hc (by rw [h]; rfl), fun h => hf (by rw [h]; rfl),
          k1, k2, k5, ?_⟩
        simp [k3]
      · exact ⟨by simp, by simp⟩
      · exact absurd hr h1
  · rw [if_neg hcode]
    by_cases hl : (channelConfigTable.lookup code).isNone = true
    · rw [if_pos hl]; exact ⟨by simp, by simp⟩
    · rw [if_neg hl]
      refine ⟨by simp, ?_⟩
      intro d e
      cases e
      left
      exact ⟨buf, rfl, (table_codes code).1 ⟨hcode, by simpa using hl⟩, rfl⟩

/-- A descriptor whose fields can be represented. With one channel the only mapping that can be represented is that of a
single uncoupled stream: see `C41_false_mono_lost`. -/
def DescriptorFits (d : Descriptor) : Prop :=
  (IsTableCode d.channelConfigCode ∧ d = ⟨d.channelConfigCode, 0, 0, 0, 0, []⟩) ∨
  (∃ c, (c = 1 ∨ c = 2) ∧ d = ⟨0x81, c, 0, 0, 0, []⟩) ∨
  (∃ f, 1 ≤ f ∧ f ≤ 255 ∧ d = ⟨0x81, 1, f, 1, 0, [0]⟩) ∨
  (d.channelConfigCode = 0x81 ∧ 2 ≤ d.explicitChannelCount ∧ d.explicitChannelCount ≤ 255 ∧
    1 ≤ d.mappingFamily ∧ d.mappingFamily ≤ 255 ∧ ∃ w1 w2 w3,
      OpusWidths d.explicitChannelCount d.streamCount d.coupledStreamCount w1 w2 w3 ∧
      OpusFits d.explicitChannelCount d.streamCount d.coupledStreamCount (d.channelMapping.map UInt8.toNat) w1 w2 w3)

theorem mappingW_writes (w : Nat) (l : Bytes) (hw : 1 ≤ w) (h : ∀ v ∈ l.map UInt8.toNat, v < 2 ^ w) :
    BitW.Writes (mappingW w l.length l) ((l.map UInt8.toNat).flatMap (bitsOfNat w)) := by
  induction l with
  | nil => exact BitW.Writes.nop
  | cons a l ih =>
    simp only [List.map_cons, List.flatMap_cons, List.length_cons, mappingW]
    rw [if_pos (by omega)]
    refine BitW.Writes.seq (BitW.Writes.bits hw (h _ (by simp))) (ih fun v hv => h v (by simp at hv ⊢; right; exact hv))

/-- C41: encoding a representable explicit configuration writes exactly its fields, zero padded to a byte. -/
theorem C41_encode_explicit (d : Descriptor) (w1 w2 w3 : Nat) (h0 : d.channelConfigCode = 0x81)
    (h1 : 2 ≤ d.explicitChannelCount) (h2 : d.explicitChannelCount ≤ 255) (h3 : 1 ≤ d.mappingFamily)
    (hw : OpusWidths d.explicitChannelCount d.streamCount d.coupledStreamCount w1 w2 w3)
    (hf : OpusFits d.explicitChannelCount d.streamCount d.coupledStreamCount (d.channelMapping.map UInt8.toNat) w1 w2 w3) :
    ∃ body pad, d.marshal = .ok (0x81 :: UInt8.ofNat d.explicitChannelCount :: UInt8.ofNat d.mappingFamily :: body) ∧
      pad < 8 ∧ bitsOf body = opusMappingBits w1 w2 w3 d.streamCount d.coupledStreamCount
        (d.channelMapping.map UInt8.toNat) ++ List.replicate pad false := by
  obtain ⟨g1, g2, g3⟩ := hw
  obtain ⟨f1, f2, f3, f4, f5⟩ := hf
  have b1 : w1 ≤ 8 := g1.2 8 (by omega)
  have b1' : 2 ^ w1 ≤ 2 ^ 8 := Nat.pow_le_pow_right (by omega) b1
  have p1 : 1 ≤ w1 := by rcases w1 with _ | k; · have := g1.1; simp at this; omega
                         · omega
  have p2 : 1 ≤ w2 := by rcases w2 with _ | k; · have := g2.1; simp at this; omega
                         · omega
  have p3 : 1 ≤ w3 := by rcases w3 with _ | k; · have := g3.1; simp at this; omega
                         · omega
  rw [List.length_map] at f4
  unfold Descriptor.marshal
  rw [if_pos h0, if_neg (by omega), if_neg (by omega)]
  have e1 := width_unique (by omega) g1
  have e2 := width_unique (by omega) g2
  have e3 := width_unique (by omega) g3
  simp only [Descriptor.totalBits, e1, e2, e3]
  rw [if_pos (by omega), if_pos (by omega), show (d.streamCount + (2 ^ 64 - 1)) % 2 ^ 64 = d.streamCount - 1 by omega]
  have hm := mappingW_writes w3 d.channelMapping p3 f5
  rw [f4] at hm
  have hW := BitW.Writes.all_cons (BitW.Writes.bits (v := d.streamCount - 1) p1 (by omega))
    (BitW.Writes.all_cons (BitW.Writes.bits p2 f3) (BitW.Writes.all_cons hm BitW.Writes.all_nil))
  have hlen : (opusMappingBits w1 w2 w3 d.streamCount d.coupledStreamCount (d.channelMapping.map UInt8.toNat)).length =
      w1 + w2 + d.explicitChannelCount * w3 := by
    have : ∀ l : List Nat, (l.flatMap (bitsOfNat w3)).length = l.length * w3 := by
      intro l
      induction l with
      | nil => simp
      | cons a l ih => rw [List.flatMap_cons, List.length_append, length_bitsOfNat, ih, List.length_cons, Nat.succ_mul]; omega
    simp only [opusMappingBits, List.length_append, length_bitsOfNat, this, List.length_map, f4]
    omega
  rw [List.append_nil] at hW
  change BitW.Writes _ (opusMappingBits w1 w2 w3 d.streamCount d.coupledStreamCount (d.channelMapping.map UInt8.toNat)) at hW
  obtain ⟨body, k1, k2, k3⟩ := hW.run ((w1 + w2 + d.explicitChannelCount * w3 + 7) / 8) (by omega)
  refine ⟨body, _, ?_, ?_, k3⟩
  · unfold makeBytes; rw [k1, Res.bind_ok]; rfl
  · omega

/-- C41: round trip, for every representable descriptor. Partial: with one channel and a mapping family above 0 only the
single-stream mapping `[0]` survives (`C41_false_mono_lost`); the full claim also covers the other mono descriptors. -/
theorem C41_round_trip_partial (d : Descriptor) (h : DescriptorFits d) : (d.marshal >>= Descriptor.unmarshal) = .ok d := by
  rcases h with ⟨h1, h2⟩ | ⟨c, h1, rfl⟩ | ⟨f, h1, h2, rfl⟩ | ⟨h0, h1, h2, h3, h4, w1, w2, w3, hw, hf⟩
  · rw [h2]
    obtain ⟨g1, g2⟩ := (table_codes _).2 h1
    unfold Descriptor.marshal
    simp only
    rw [if_neg g1, Res.bind_ok]
    unfold Descriptor.unmarshal
    rw [if_neg (by simp), idx_zero_cons, Res.bind_ok, if_neg g1, if_neg (by simp [g2])]
  · rcases h1 with rfl | rfl <;> decide +kernel
  · have hm : Descriptor.marshal ⟨0x81, 1, f, 1, 0, [0]⟩ = .ok [0x81, 1, UInt8.ofNat f, 0] := by
      unfold Descriptor.marshal
      simp only
      rw [if_pos trivial, if_neg (by omega), if_pos trivial]
      rfl
    rw [hm, Res.bind_ok]
    have hw2 : IsWidth 2 1 := ⟨by decide, fun k hk => by
      rcases k with _ | k
      · simp at hk
      · omega⟩
    have hw1 : OpusWidths (1 : UInt8).toNat 1 0 0 1 1 := ⟨⟨by decide, by intros; omega⟩, hw2, hw2⟩
    have := C41_decode_explicit 1 (UInt8.ofNat f) 1 0 0 1 1 [0] [0] (List.replicate 6 false) (by decide)
      (fun h => by have := congrArg UInt8.toNat h; simp at this; omega) hw1 ⟨by simp, by simp, by simp, rfl, by simp⟩
      (by decide +kernel)
    rw [this]
    simp
    omega
  · obtain ⟨body, pad, g1, g2, g3⟩ := C41_encode_explicit d w1 w2 w3 h0 h1 h2 h3 hw hf
    rw [g1, Res.bind_ok]
    have e1 : (UInt8.ofNat d.explicitChannelCount).toNat = d.explicitChannelCount := by simp; omega
    have e2 : (UInt8.ofNat d.mappingFamily).toNat = d.mappingFamily := by simp; omega
    have := C41_decode_explicit (UInt8.ofNat d.explicitChannelCount) (UInt8.ofNat d.mappingFamily) d.streamCount
      d.coupledStreamCount w1 w2 w3 (d.channelMapping.map UInt8.toNat) body _
      (fun h => by rw [h] at e1; simp at e1; omega) (fun h => by rw [h] at e2; simp at e2; omega)
      (by rw [e1]; exact hw) (by rw [e1]; exact hf) g3
    rw [this, e1, e2, ← h0, List.map_map]
    have : d.channelMapping.map (UInt8.ofNat ∘ UInt8.toNat) = d.channelMapping := by
      conv => rhs; rw [← List.map_id d.channelMapping]
      exact List.map_congr_left fun a _ => by simp
    rw [this]

/-- C41: with one channel and a mapping family, the encoder writes neither the coupled stream count nor the mapping, so a
descriptor that the decoder produces from a valid buffer does not survive. -/
theorem C41_false_mono_lost : ∃ buf d, Descriptor.unmarshal buf = .ok d ∧ d.channelMapping = [1] ∧
    (d.marshal >>= Descriptor.unmarshal) ≠ .ok d :=
  ⟨[0x81, 1, 1, 0b01000000], ⟨0x81, 1, 1, 1, 0, [1]⟩, by decide +kernel, rfl, by decide +kernel⟩

/-- C41: the channel counts of table 4-3. -/
theorem C41_channel_count : ∀ code : UInt8, (Descriptor.channelCount ⟨code, 0, 0, 0, 0, []⟩) =
    if code = 0 ∨ code = 0x80 then 2 else if code ≤ 8 then code.toNat
    else if 0x82 ≤ code ∧ code ≤ 0x88 then code.toNat - 0x81 else 0 := forall_u8 (by decide +kernel)

example : DescriptorFits ⟨0x81, 6, 1, 4, 2, [0, 4, 1, 2, 3, 5]⟩ := by
  right; right; right
  refine ⟨rfl, by decide, by decide, by decide, by decide, 3, 3, 3, ⟨?_, ?_, ?_⟩, by decide, by decide, by decide, rfl, by decide⟩
  all_goals
    refine ⟨by decide, fun k hk => ?_⟩
    rcases k with _ | _ | _ | k
    · simp at hk
    · simp at hk
    · simp at hk
    · omega
example : Descriptor.unmarshal [0x81, 6, 1, 0b01101000, 0b01000010, 0b10011101] =
    .ok ⟨0x81, 6, 1, 4, 2, [0, 4, 1, 2, 3, 5]⟩ := by decide +kernel

end Verif.Props
