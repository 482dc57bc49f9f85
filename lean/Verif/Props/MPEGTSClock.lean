import Verif.Lemmas.BE
import Verif.Model.MPEGTS
import Verif.Spec.MPEGTS

/-!
# The last timestamp of an MPEG-TS stream (C80)
-/

namespace Verif.Props
open MPEGTS Spec

theorem ts_b0 : ∀ b : UInt8, ((b.toNat >>> 1) &&& 0x7) = b.toNat / 2 % 8 := forall_u8 (by decide +kernel)
theorem ts_b2 : ∀ b : UInt8, ((b.toNat >>> 1) &&& 0x7f) = b.toNat / 2 := forall_u8 (by decide +kernel)

theorem ts_parseClock (b0 b1 b2 b3 b4 : UInt8) : parseClock [b0, b1, b2, b3, b4] =
    .ok (ptsOfField (b0.toNat * 2 ^ 32 + b1.toNat * 2 ^ 24 + b2.toNat * 2 ^ 16 + b3.toNat * 2 ^ 8 + b4.toNat)) := by
  have h0 := b0.toNat_lt
  have h1 := b1.toNat_lt
  have h2 := b2.toNat_lt
  have h3 := b3.toNat_lt
  have h4 := b4.toNat_lt
  simp only [parseClock, idx_zero_cons, idx_succ_cons, Res.bind_ok, ts_b0, ts_b2, Res.ok.injEq, ptsOfField]
  have e : ∀ a b c d e : Nat, b < 2 ^ 8 → c < 2 ^ 7 → d < 2 ^ 8 → e < 2 ^ 7 →
      a <<< 30 ||| b <<< 22 ||| c <<< 15 ||| d <<< 7 ||| e = a * 2 ^ 30 + b * 2 ^ 22 + c * 2 ^ 15 + d * 2 ^ 7 + e := by
    intro a b c d e hb hc hd he
    have s : ∀ x y i j : Nat, y < 2 ^ i → (x <<< i ||| y) <<< j = x <<< (i + j) ||| y <<< j := by
      intro x y i j _
      rw [Nat.shiftLeft_or_distrib, Nat.shiftLeft_add]
    have f : a <<< 30 ||| b <<< 22 ||| c <<< 15 ||| d <<< 7 ||| e =
        (((a <<< 8 ||| b) <<< 7 ||| c) <<< 8 ||| d) <<< 7 ||| e := by
      simp only [Nat.shiftLeft_or_distrib, ← Nat.shiftLeft_add]
    rw [f, shiftLeft_or _ e 7 he, shiftLeft_or _ d 8 hd, shiftLeft_or _ c 7 hc, shiftLeft_or _ b 8 hb]
    omega
  rw [e _ _ _ _ _ h1 (by omega) h3 (by omega)]
  omega

/-- C80: `parseClock` reads every timestamp of 33 bits back, whatever the prefix and the marker bits. -/
theorem C80_clock (pre pts m1 m2 m3 : Nat) (hp : pre < 16) (h : pts < 2 ^ 33) (h1 : m1 < 2) (h2 : m2 < 2) (h3 : m3 < 2) :
    parseClock (ptsField pre pts m1 m2 m3) = .ok pts := by
  have e : ∀ n, n < 2 ^ 40 → parseClock (beBytes 5 n) = .ok (ptsOfField n) := by
    intro n hn
    simp only [beBytes]
    rw [ts_parseClock]
    simp only [UInt8.toNat_ofNat']
    congr 2
    omega
  have f : ∀ a b c, a < 8 → b < 2 ^ 15 → c < 2 ^ 15 →
      ptsOfField (pre * 2 ^ 36 + a * 2 ^ 33 + m1 * 2 ^ 32 + b * 2 ^ 17 + m2 * 2 ^ 16 + c * 2 + m3) = a * 2 ^ 30 + b * 2 ^ 15 + c := by
    intro a b c ha hb hc
    have e1 : (pre * 2 ^ 36 + a * 2 ^ 33 + m1 * 2 ^ 32 + b * 2 ^ 17 + m2 * 2 ^ 16 + c * 2 + m3) / 2 ^ 33 = pre * 8 + a := by omega
    have e2 : (pre * 2 ^ 36 + a * 2 ^ 33 + m1 * 2 ^ 32 + b * 2 ^ 17 + m2 * 2 ^ 16 + c * 2 + m3) / 2 ^ 17 =
        ((pre * 8 + a) * 2 + m1) * 2 ^ 15 + b := by omega
    have e3 : (pre * 2 ^ 36 + a * 2 ^ 33 + m1 * 2 ^ 32 + b * 2 ^ 17 + m2 * 2 ^ 16 + c * 2 + m3) / 2 =
        ((((pre * 8 + a) * 2 + m1) * 2 ^ 15 + b) * 2 + m2) * 2 ^ 15 + c := by omega
    unfold ptsOfField
    rw [e1, e2, e3]
    omega
  unfold ptsField
  rw [e _ (by omega), f _ _ _ (by omega) (by omega) (by omega)]
  congr 1
  omega

theorem ts_pesPTS (payload : Bytes) (last : Option Nat) (h : 14 ≤ payload.length) :
    pesPTS payload last = .ok ((pesTimestamp payload).or last) := by
  obtain ⟨b0, l, rfl, k0⟩ := exists_cons h
  obtain ⟨b1, l, rfl, k1⟩ := exists_cons k0
  obtain ⟨b2, l, rfl, k2⟩ := exists_cons k1
  obtain ⟨sid, l, rfl, k3⟩ := exists_cons k2
  obtain ⟨x4, l, rfl, k4⟩ := exists_cons k3
  obtain ⟨x5, l, rfl, k5⟩ := exists_cons k4
  obtain ⟨x6, l, rfl, k6⟩ := exists_cons k5
  obtain ⟨flags, l, rfl, k7⟩ := exists_cons k6
  obtain ⟨x8, l, rfl, k8⟩ := exists_cons k7
  obtain ⟨c0, l, rfl, k9⟩ := exists_cons k8
  obtain ⟨c1, l, rfl, k10⟩ := exists_cons k9
  obtain ⟨c2, l, rfl, k11⟩ := exists_cons k10
  obtain ⟨c3, l, rfl, k12⟩ := exists_cons k11
  obtain ⟨c4, l, rfl, k13⟩ := exists_cons k12
  have hp : isPESPayload (b0 :: b1 :: b2 :: sid :: x4 :: x5 :: x6 :: flags :: x8 :: c0 :: c1 :: c2 :: c3 :: c4 :: l) =
      .ok (decide ([b0, b1, b2] = [0, 0, 1])) := by
    simp only [isPESPayload, idx_zero_cons, idx_succ_cons, Res.bind_ok, or3, Res.ok.injEq]
    have := b1.toNat_lt
    have := b2.toNat_lt
    rw [Bool.eq_iff_iff]
    simp only [beq_iff_eq, decide_eq_true_eq, List.cons.injEq, and_true, ← UInt8.toNat_inj]
    simp only [UInt8.toNat_zero, UInt8.toNat_one]
    omega
  have hf : ∀ flags : UInt8, ((flags >>> 6) &&& 0x03 = 2 ∨ (flags >>> 6) &&& 0x03 = 3) ↔ 2 ≤ flags.toNat / 64 :=
    forall_u8 (by decide +kernel)
  unfold pesPTS pesTimestamp
  rw [hp, Res.bind_ok]
  by_cases h1 : [b0, b1, b2] = [0, 0, 1]
  rotate_left
  · simp [h1]
  rw [if_neg (by simp [h1])]
  simp only [idx_zero_cons, idx_succ_cons, Res.bind_ok]
  by_cases h2 : sid ≠ 0xBE ∧ sid ≠ 0xBF
  rotate_left
  · rw [if_pos (by unfold hasPESOptionalHeader; simpa using h2), if_neg fun h => h2 ⟨h.2.1, h.2.2.1⟩]; rfl
  rw [if_neg (by unfold hasPESOptionalHeader; simpa using h2)]
  by_cases h3 : 2 ≤ flags.toNat / 64
  rotate_left
  · rw [if_neg (fun h => h3 ((hf flags).1 h)), if_neg fun h => h3 h.2.2.2]; rfl
  rw [if_pos ((hf flags).2 h3), if_pos ⟨h1, h2.1, h2.2, h3⟩, slice_ok (by omega) (by simp)]
  simp only [List.drop_succ_cons, List.drop_zero, List.take_succ_cons, List.take_zero, Res.bind_ok, Nat.reduceSub]
  rw [ts_parseClock, Res.bind_ok]
  rfl

theorem ts_short (payload : Bytes) (h : payload.length < 14) : pesTimestamp payload = none := by
  unfold pesTimestamp
  split
  · simp at h; omega
  · rfl

/-- C80: a packet updates the last timestamp exactly if it carries one. Nothing panics. -/
theorem C80_packet (p : Bytes) (last : Option Nat) (h : p.length = 188) :
    intercept p last = .ok ((packetTimestamp p).or last) := by
  obtain ⟨b0, l, rfl, k0⟩ := exists_cons (show 4 + 1 ≤ p.length by omega)
  obtain ⟨b1, l, rfl, k1⟩ := exists_cons k0
  obtain ⟨b2, l, rfl, k2⟩ := exists_cons k1
  obtain ⟨b3, l, rfl, k3⟩ := exists_cons k2
  obtain ⟨b4, l, rfl, k4⟩ := exists_cons k3
  have hl : l.length = 183 := by simpa using h
  have t40 : ∀ b : UInt8, b &&& 0x40 > 0 ↔ b.toNat / 64 % 2 = 1 := forall_u8 (by decide +kernel)
  have t10 : ∀ b : UInt8, b &&& 0x10 > 0 ↔ b.toNat / 16 % 2 = 1 := forall_u8 (by decide +kernel)
  have t20 : ∀ b : UInt8, b &&& 0x20 > 0 ↔ b.toNat / 32 % 2 = 1 := forall_u8 (by decide +kernel)
  unfold intercept packetTimestamp startPayload
  simp only [idx_zero_cons, idx_succ_cons, Res.bind_ok, t40, t10, t20]
  by_cases h0 : b0 = 0x47
  rotate_left
  · simp [h0]
  by_cases h1 : b1.toNat / 64 % 2 = 1 ∧ b3.toNat / 16 % 2 = 1
  rotate_left
  · simp [h0, h1]
  rw [if_neg (by simp [h0]), if_neg (by simp [h1]),
    if_pos (show b0 = 0x47 ∧ b1.toNat / 64 % 2 = 1 ∧ b3.toNat / 16 % 2 = 1 from ⟨h0, h1⟩)]
  -- the payload, if there is enough of it
  have key : ∀ pos, pos ≤ 4 + 256 → (if pos ≤ 188 - 14 then do
        let payload ← sliceFrom (b0 :: b1 :: b2 :: b3 :: b4 :: l) pos
        pesPTS payload last
      else .ok last : Res (Option Nat)) = .ok ((pesTimestamp ((b0 :: b1 :: b2 :: b3 :: b4 :: l).drop pos)).or last) := by
    intro pos _
    split
    next hp => rw [sliceFrom_ok (by omega), Res.bind_ok, ts_pesPTS _ _ (by rw [List.length_drop]; omega)]
    next hp => rw [ts_short _ (by rw [List.length_drop]; omega)]; rfl
  by_cases h2 : b3.toNat / 32 % 2 = 1
  · rw [if_pos h2, if_pos h2, Res.bind_ok, key _ (by have := b4.toNat_lt; omega)]
    simp only [Option.bind_some]
    have : 4 + (1 + b4.toNat) = b4.toNat + 5 := by omega
    rw [this]
    rfl
  · rw [if_neg h2, if_neg h2, Res.bind_ok, key _ (by omega)]
    rfl

/-- C80: after a sequence of packets the last timestamp is the one of the last packet that carries one. -/
theorem C80_last (l : List Bytes) (last : Option Nat) (h : ∀ p ∈ l, p.length = 188) :
    interceptAll l last = .ok (lastSome (l.map packetTimestamp) last) := by
  induction l generalizing last with
  | nil => rfl
  | cons p l ih =>
    rw [interceptAll, C80_packet p last (h p (by simp)), Res.bind_ok, ih _ fun q hq => h q (List.mem_cons_of_mem _ hq)]
    rfl

/-- C80: a packet in which a PES packet with a timestamp starts, with or without adaptation field. -/
theorem C80_pes (b1 b2 b3 sid x y f1 f2 hl : UInt8) (adaptation rest : Bytes) (pre pts m1 m2 m3 : Nat) (last : Option Nat)
    (h1 : b1.toNat / 64 % 2 = 1) (h3 : b3.toNat / 16 % 2 = 1)
    (ha : if b3.toNat / 32 % 2 = 1 then ∃ n a, adaptation = n :: a ∧ a.length = n.toNat else adaptation = [])
    (hs : sid ≠ 0xBE ∧ sid ≠ 0xBF) (hf : 2 ≤ f2.toNat / 64) (hp : pre < 16) (h : pts < 2 ^ 33) (g1 : m1 < 2) (g2 : m2 < 2) (g3 : m3 < 2)
    (hlen : ([0x47, b1, b2, b3] ++ adaptation ++ [0, 0, 1, sid, x, y, f1, f2, hl] ++ ptsField pre pts m1 m2 m3 ++ rest).length = 188) :
    intercept ([0x47, b1, b2, b3] ++ adaptation ++ [0, 0, 1, sid, x, y, f1, f2, hl] ++ ptsField pre pts m1 m2 m3 ++ rest) last =
      .ok (some pts) := by
  rw [C80_packet _ _ hlen]
  have hs' : startPayload ([0x47, b1, b2, b3] ++ adaptation ++ [0, 0, 1, sid, x, y, f1, f2, hl] ++ ptsField pre pts m1 m2 m3 ++ rest) =
      some ([0, 0, 1, sid, x, y, f1, f2, hl] ++ ptsField pre pts m1 m2 m3 ++ rest) := by
    simp only [List.append_assoc, List.cons_append, List.nil_append, startPayload]
    rw [if_pos ⟨trivial, h1, h3⟩]
    split at ha
    next h2 =>
      obtain ⟨n, a, rfl, hn⟩ := ha
      rw [if_pos h2]
      simp only [List.cons_append, Option.some_inj]
      rw [← hn, List.drop_left]
    next h2 =>
      subst ha
      rw [if_neg h2]
      rfl
  have hc := C80_clock pre pts m1 m2 m3 hp h g1 g2 g3
  rw [packetTimestamp, hs', Option.bind_some]
  unfold ptsField at hc ⊢
  simp only [beBytes] at hc ⊢
  rw [ts_parseClock, Res.ok.injEq] at hc
  simp only [List.cons_append, List.nil_append, pesTimestamp]
  rw [if_pos ⟨trivial, hs.1, hs.2, hf⟩, hc]
  rfl

/-- A header that continues in the next packet is not seen: here the adaptation field leaves 13 bytes for the start of a PES packet
with timestamp 1. Nor is a timestamp of the next packet, in which no unit starts. -/
theorem C80_split_false : interceptAll
    [[0x47, 0x41, 0x00, 0x30, 170] ++ List.replicate 170 0xFF ++ [0, 0, 1, 0xE0, 0, 0, 0x80, 0x80, 5, 0x21, 0, 1, 0],
     [0x47, 0x01, 0x00, 0x11, 0x03] ++ List.replicate 183 0] none = .ok none := by decide +kernel

/-- Of the stream types without optional fields (2.4.3.7: program stream map 0xBC, ECM 0xF0, EMM 0xF1, DSM-CC 0xF2, H.222.1 type E 0xF8
and program stream directory 0xFF as well) two are excluded. The data of the other ones is taken for a timestamp. -/
theorem C80_stream_id_false : intercept ([0x47, 0x41, 0x00, 0x10] ++ [0, 0, 1, 0xF0, 0, 175, 0x12, 0xC0, 0x34, 0x56, 0x78, 0x9A, 0xBC, 0xDE] ++
    List.replicate 170 0) none = .ok (some 3727089263) := by decide +kernel

example : intercept ([0x47, 0x41, 0x00, 0x30, 1, 0x40] ++ [0, 0, 1, 0xE0, 0, 0, 0x80, 0x80, 5] ++ ptsField 2 (2 ^ 33 - 5) 1 1 1 ++
    List.replicate 168 0) (some 7) = .ok (some (2 ^ 33 - 5)) := by decide +kernel
example : intercept ([0x47, 0x01, 0x00, 0x10] ++ List.replicate 184 1) (some 7) = .ok (some 7) := by decide +kernel

end Verif.Props
