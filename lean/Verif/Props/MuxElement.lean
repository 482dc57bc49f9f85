import Verif.Spec.MuxElement
import Verif.Props.StreamMux
import Verif.Props.TSOpus

/-!
# Property C54: AudioMuxElement
-/

namespace Verif.Props
open Verif.Spec Verif.MPEG4Audio Verif.BitM

/-! ## Lengths and payloads -/

theorem slotLoop_eq (fuel res : Nat) : slotLoop fuel res = TSOpus.payloadSizeLoop fuel res := by
  induction fuel generalizing res with
  | zero => rfl
  | succ fuel ih => unfold slotLoop TSOpus.payloadSizeLoop; simp only [ih]

theorem slotLength_eq : readSlotLength = TSOpus.unmarshalPayloadSize := by
  unfold readSlotLength TSOpus.unmarshalPayloadSize
  simp only [slotLoop_eq]

theorem slot_parses {l : Layer} (h : l.frameLengthType = 0) (n : Nat) :
    Parses (readSlot l) (bitsOf (opusSizeBytes n)) ⟨n, 0⟩ := by
  unfold readSlot
  rw [h, slotLength_eq]
  refine Parses.congr (Parses.bind (Parses.cond_true (size_parses n)) (Parses.bind Parses.cond_false (Parses.pure _))) ?_
  simp

theorem slot_tot (l : Layer) : Tot 0 (readSlot l) (fun s b => l.frameLengthType = 0 → b = bitsOf (opusSizeBytes s.lengthBytes)) := by
  unfold readSlot
  rw [slotLength_eq]
  refine Tot.bind (Tot.condP (size_tot 0)) ?_
  intro n b1 h1
  refine Tot.bind (Tot.condP (Tot.readBits' (P := fun v b => True) (by omega) (by omega) fun v hv => trivial)) ?_
  intro k b2 h2
  refine Tot.pure ?_
  intro h
  rw [h] at h1 h2
  rcases h1 with ⟨_, rfl⟩ | ⟨h1, _⟩
  · rcases h2 with ⟨h2, _⟩ | ⟨_, _, rfl⟩
    · cases h2
    · simp
  · cases h1

theorem payload_bits (l : List Nat) (h : ∀ v ∈ l, v < 2 ^ 8) :
    l.flatMap (bitsOfNat 8) = bitsOf (l.map UInt8.ofNat) := by
  induction l with
  | nil => rfl
  | cons v l ih =>
    rw [List.flatMap_cons, List.map_cons, bitsOf_cons, ih fun x hx => h x (by simp [hx]), Bits.byteBits_ofNat]

theorem payload_parses {l : Layer} (h : l.frameLengthType = 0) (b : Bytes) (k : Nat) :
    Parses (readPayload (l, ⟨b.length, k⟩)) (bitsOf b) b := by
  unfold readPayload
  refine Parses.ite_neg (by simp [h]) ?_
  have hb : (b.map UInt8.toNat).map UInt8.ofNat = b := by
    rw [List.map_map]; exact (List.map_congr_left fun x _ => by simp).trans (List.map_id' b)
  have := Parses.times (p := readBits 8) (enc := bitsOfNat 8) (l := b.map UInt8.toNat) (by
    intro a ha
    obtain ⟨x, -, rfl⟩ := List.mem_map.1 ha
    exact Parses.readBits (by omega) (by omega) x.toNat_lt)
  rw [List.length_map, payload_bits _ (by
    intro a ha
    obtain ⟨x, -, rfl⟩ := List.mem_map.1 ha
    exact x.toNat_lt), hb] at this
  refine Parses.congr (Parses.bind this ?_) (List.append_nil _)
  conv => rhs; rw [← hb]
  exact Parses.pure _

theorem payload_tot (x : Layer × Slot) : Tot 0 (readPayload x) (fun d b =>
    x.1.frameLengthType = 0 ∧ d.length = x.2.lengthBytes ∧ b = bitsOf d) := by
  unfold readPayload
  refine Tot.ite (fun _ => Tot.fail) fun h => ?_
  rw [Decidable.not_not] at h
  refine Tot.bind (Tot.times (P := fun v => v < 2 ^ 8) (enc := bitsOfNat 8)
    (Tot.readBits' (by omega) (by omega) fun v hv => ⟨hv, rfl⟩)) ?_
  rintro l _ ⟨h1, h2, rfl⟩
  refine Tot.pure ⟨h, by simpa using h1, ?_⟩
  rw [List.append_nil, payload_bits l h2]

/-! ## Subframes -/

theorem layerSlots_parses {p : List Layer} {pay : List Bytes} (h0 : ∀ l ∈ p, l.frameLengthType = 0)
    (hl : pay.length = p.length) :
    Parses (each readSlot p) (pay.flatMap fun b => bitsOf (opusSizeBytes b.length)) (pay.map fun b => ⟨b.length, 0⟩) := by
  induction p generalizing pay with
  | nil => obtain rfl := List.length_eq_zero_iff.1 hl; exact Parses.pure _
  | cons l p ih =>
    cases pay with
    | nil => simp at hl
    | cons b pay =>
      unfold BitM.each
      rw [List.flatMap_cons]
      refine Parses.bind (slot_parses (h0 l (by simp)) b.length) ?_
      refine Parses.congr (Parses.bind (ih (fun x hx => h0 x (by simp [hx])) (by simpa using hl)) ?_) (List.append_nil _)
      exact Parses.pure _

theorem programSlots_parses {ps : List (List Layer)} {sub : List (List Bytes)} (h0 : AllVariable ps) (hf : SubFrameFits ps sub) :
    Parses (readLengthInfo ps) (sub.flatten.flatMap fun b => bitsOf (opusSizeBytes b.length))
      (sub.map fun pay => pay.map fun b => ⟨b.length, 0⟩) := by
  unfold readLengthInfo
  unfold SubFrameFits at hf
  induction ps generalizing sub with
  | nil => obtain rfl : sub = [] := by simpa using hf
           exact Parses.pure _
  | cons p ps ih =>
    cases sub with
    | nil => simp at hf
    | cons pay sub =>
      rw [List.map_cons, List.map_cons, List.cons.injEq] at hf
      unfold BitM.each
      rw [List.flatten_cons, List.flatMap_append]
      refine Parses.bind (layerSlots_parses (fun l hl => h0 p (by simp) l hl) hf.1) ?_
      refine Parses.congr (Parses.bind (ih (fun q hq => h0 q (by simp [hq])) hf.2) ?_) (List.append_nil _)
      exact Parses.pure _

theorem layerPayloads_parses {p : List Layer} {pay : List Bytes} (h0 : ∀ l ∈ p, l.frameLengthType = 0)
    (hl : pay.length = p.length) :
    Parses (each readPayload (p.zip (pay.map fun b => (⟨b.length, 0⟩ : Slot)))) (pay.flatMap bitsOf) pay := by
  induction p generalizing pay with
  | nil => obtain rfl := List.length_eq_zero_iff.1 hl; exact Parses.pure _
  | cons l p ih =>
    cases pay with
    | nil => simp at hl
    | cons b pay =>
      rw [List.map_cons, List.zip_cons_cons]
      unfold BitM.each
      rw [List.flatMap_cons]
      refine Parses.bind (payload_parses (h0 l (by simp)) b 0) ?_
      refine Parses.congr (Parses.bind (ih (fun x hx => h0 x (by simp [hx])) (by simpa using hl)) ?_) (List.append_nil _)
      exact Parses.pure _

theorem programPayloads_parses {ps : List (List Layer)} {sub : List (List Bytes)} (h0 : AllVariable ps)
    (hf : SubFrameFits ps sub) :
    Parses (readPayloadMux ps (sub.map fun pay => pay.map fun b => ⟨b.length, 0⟩)) (sub.flatten.flatMap bitsOf) sub := by
  unfold readPayloadMux
  unfold SubFrameFits at hf
  induction ps generalizing sub with
  | nil => obtain rfl : sub = [] := by simpa using hf
           exact Parses.pure _
  | cons p ps ih =>
    cases sub with
    | nil => simp at hf
    | cons pay sub =>
      rw [List.map_cons, List.map_cons, List.cons.injEq] at hf
      rw [List.map_cons, List.zip_cons_cons]
      unfold BitM.each
      rw [List.flatten_cons, List.flatMap_append]
      refine Parses.bind (layerPayloads_parses (fun l hl => h0 p (by simp) l hl) hf.1) ?_
      refine Parses.congr (Parses.bind (ih (fun q hq => h0 q (by simp [hq])) hf.2) ?_) (List.append_nil _)
      exact Parses.pure _

theorem subFrame_parses {ps : List (List Layer)} {sub : List (List Bytes)} (h0 : AllVariable ps) (hf : SubFrameFits ps sub) :
    Parses (readSubFrame ps) (subFrameBits sub) sub :=
  Parses.bind (programSlots_parses h0 hf) (programPayloads_parses h0 hf)

/-- What is known of the slots of a program. -/
abbrev SlotsTile (p : List Layer) (sl : List Slot) (b : List Bool) : Prop :=
  Tiles2 (fun (l : Layer) (s : Slot) b => l.frameLengthType = 0 → b = bitsOf (opusSizeBytes s.lengthBytes)) p sl b

/-- What is known of the payloads of a program. -/
abbrev PayloadsTile (x : List Layer × List Slot) (pay : List Bytes) (b : List Bool) : Prop :=
  Tiles2 (fun (x : Layer × Slot) (d : Bytes) b => x.1.frameLengthType = 0 ∧ d.length = x.2.lengthBytes ∧ b = bitsOf d)
    (x.1.zip x.2) pay b

theorem layers_combine (p : List Layer) (sl : List Slot) (pay : List Bytes) (b1 b2 : List Bool)
    (h1 : SlotsTile p sl b1) (h2 : PayloadsTile (p, sl) pay b2) :
    (∀ l ∈ p, l.frameLengthType = 0) ∧ pay.length = p.length ∧
      b1 = pay.flatMap (fun b => bitsOf (opusSizeBytes b.length)) ∧ b2 = pay.flatMap bitsOf := by
  induction p generalizing sl pay b1 b2 with
  | nil =>
    cases sl with
    | cons => exact absurd h1 (by simp [Tiles2])
    | nil =>
      cases pay with
      | cons => exact absurd h2 (by simp [Tiles2])
      | nil => exact ⟨by simp, rfl, h1, h2⟩
  | cons l p ih =>
    cases sl with
    | nil => exact absurd h1 (by simp [Tiles2])
    | cons s sl =>
      cases pay with
      | nil => exact absurd h2 (by simp [PayloadsTile, Tiles2])
      | cons d pay =>
        obtain ⟨x1, y1, rfl, g1, g2⟩ := h1
        obtain ⟨x2, y2, rfl, ⟨k1, k2, rfl⟩, k3⟩ := h2
        obtain ⟨m1, m2, rfl, rfl⟩ := ih sl pay y1 y2 g2 k3
        refine ⟨?_, by simp [m2], ?_, by simp⟩
        · intro z hz
          rcases List.mem_cons.1 hz with rfl | hz
          · exact k1
          · exact m1 z hz
        · rw [List.flatMap_cons, g1 k1]
          dsimp only at k2
          rw [k2]

theorem programs_combine (ps : List (List Layer)) (li : List (List Slot)) (sub : List (List Bytes)) (b1 b2 : List Bool)
    (h1 : Tiles2 SlotsTile ps li b1) (h2 : Tiles2 PayloadsTile (ps.zip li) sub b2) :
    AllVariable ps ∧ SubFrameFits ps sub ∧ b1 ++ b2 = subFrameBits sub := by
  suffices h : AllVariable ps ∧ SubFrameFits ps sub ∧
      b1 = sub.flatten.flatMap (fun b => bitsOf (opusSizeBytes b.length)) ∧ b2 = sub.flatten.flatMap bitsOf by
    obtain ⟨g1, g2, rfl, rfl⟩ := h
    exact ⟨g1, g2, rfl⟩
  unfold SubFrameFits
  induction ps generalizing li sub b1 b2 with
  | nil =>
    cases li with
    | cons => exact absurd h1 (by simp [Tiles2])
    | nil =>
      cases sub with
      | cons => exact absurd h2 (by simp [Tiles2])
      | nil => exact ⟨by simp [AllVariable], rfl, h1, h2⟩
  | cons p ps ih =>
    cases li with
    | nil => exact absurd h1 (by simp [Tiles2])
    | cons sl li =>
      cases sub with
      | nil => exact absurd h2 (by simp [Tiles2])
      | cons pay sub =>
        obtain ⟨x1, y1, rfl, g1, g2⟩ := h1
        obtain ⟨x2, y2, rfl, k1, k3⟩ := h2
        obtain ⟨m1, m2, rfl, rfl⟩ := ih li sub y1 y2 g2 k3
        obtain ⟨n1, n2, rfl, rfl⟩ := layers_combine p sl pay x1 x2 g1 k1
        refine ⟨?_, by simp [m2, n2], by simp, by simp⟩
        intro z hz
        rcases List.mem_cons.1 hz with rfl | hz
        · exact n1
        · exact m1 z hz

theorem subFrame_tot (ps : List (List Layer)) : Tot 0 (readSubFrame ps) (fun sub b =>
    (AllVariable ps ∧ SubFrameFits ps sub) ∧ b = subFrameBits sub) := by
  unfold readSubFrame
  refine Tot.bind (Tot.each (P := SlotsTile) fun p _ => Tot.each fun l _ => slot_tot l) ?_
  intro li b1 h1
  refine Tot.mono (Tot.each (n := 0) (P := PayloadsTile) fun x _ => Tot.each fun y _ => payload_tot y) (by omega) ?_
  intro sub b2 h2
  obtain ⟨g1, g2, g3⟩ := programs_combine ps li sub b1 b2 h1 h2
  exact ⟨⟨g1, g2⟩, g3⟩

/-! ## The element -/

theorem element_parses {present : Bool} {given : Option StreamMuxConfig} {e : MuxElement} {bits : List Bool}
    (h : IsElement present given e bits) : Parses (MuxElement.unmarshalBits present given) bits e := by
  obtain ⟨c, hb, h1, h2, h3, h4, h5, h6, rfl⟩ := h
  have hrest : Parses (do
      let payloads ← times (readSubFrame c.programs) (c.numSubFrames + 1)
      if c.otherDataPresent then fail "OtherDataPresent is not supported (yet)" else
      pure (MuxElement.mk e.useSameStreamMux (some c) payloads)) (e.payloads.flatMap subFrameBits) e := by
    rw [← h5]
    refine Parses.congr (Parses.bind (Parses.times fun sub hs => subFrame_parses h3 (h6 sub hs)) ?_) (List.append_nil _)
    refine Parses.ite_neg (by simp [h4]) ?_
    rw [← h1]
    exact Parses.pure _
  unfold MuxElement.unmarshalBits
  unfold IsElementHead at h2
  cases present
  · rw [if_neg (by simp)] at h2
    obtain ⟨hs, rfl, rfl⟩ := h2
    rw [hs] at hrest
    refine Parses.bind (b1 := []) Parses.cond_false ?_
    exact Parses.bind (b1 := []) Parses.cond_false hrest
  · rw [if_pos rfl] at h2
    rcases h2 with ⟨hs, rfl, rfl⟩ | ⟨hs, mb, hm, rfl⟩
    · rw [hs] at hrest
      refine Parses.bind (Parses.cond_true Parses.readFlag) ?_
      exact Parses.bind (b1 := []) Parses.cond_false hrest
    · rw [hs] at hrest
      rw [List.append_assoc]
      refine Parses.bind (Parses.cond_true Parses.readFlag) ?_
      refine Parses.bind (a := some c) (Parses.cond_true ?_) hrest
      unfold readElementConfig
      exact Parses.congr (Parses.bind (mux_parses hm) (Parses.pure _)) (List.append_nil _)

theorem opusSize_length (n : Nat) : 8 ≤ (bitsOf (opusSizeBytes n)).length := by
  rw [length_bitsOf]; simp [opusSizeBytes]; omega

theorem subFrame_pos {ps : List (List Layer)} {sub : List (List Bytes)} (h : SubFrameFits ps sub)
    (hp : ∃ p ∈ ps, p ≠ []) : 8 ≤ (subFrameBits sub).length := by
  obtain ⟨p, hp, hne⟩ := hp
  have : p.length ∈ sub.map List.length := by rw [h]; exact List.mem_map_of_mem hp
  obtain ⟨pay, hpay, hlen⟩ := List.mem_map.1 this
  have : pay ≠ [] := by
    rintro rfl
    exact hne (List.length_eq_zero_iff.1 hlen.symm)
  obtain ⟨b, pay', rfl⟩ := List.exists_cons_of_ne_nil this
  have hb : b ∈ sub.flatten := List.mem_flatten.2 ⟨_, hpay, by simp⟩
  obtain ⟨l1, l2, hl⟩ := List.append_of_mem hb
  unfold subFrameBits
  rw [hl]
  have := opusSize_length b.length
  simp only [List.flatMap_append, List.flatMap_cons, List.length_append]
  omega

theorem cutLayers_ne {first : Bool} {ls : List Layer} {b : List Bool} (h : IsCutLayers first ls b) : ls ≠ [] := by
  rintro rfl
  exact absurd h (by simp [IsCutLayers])

theorem cutPrograms_ne {first : Bool} {ps : List (List Layer)} {b : List Bool} (h : IsCutPrograms first ps b) :
    ∃ p ∈ ps, p ≠ [] := by
  cases ps with
  | nil => exact absurd h (by simp [IsCutPrograms])
  | cons p ps =>
    refine ⟨p, by simp, ?_⟩
    rcases h with ⟨_, n, b, _, _, _, h, _⟩ | ⟨_, _, ⟨h, _⟩, _⟩
    · exact cutLayers_ne h
    · rintro rfl; simp at h

theorem element_rest_tot (k : Nat) (same : Bool) (c : StreamMuxConfig) : TotL k (do
      let payloads ← times (readSubFrame c.programs) (c.numSubFrames + 1)
      if c.otherDataPresent then fail "OtherDataPresent is not supported (yet)" else
      pure (MuxElement.mk same (some c) payloads)) (fun e b => e.useSameStreamMux = same ∧ e.config = some c ∧
      AllVariable c.programs ∧ c.otherDataPresent = false ∧ e.payloads.length = c.numSubFrames + 1 ∧
      (∀ sub ∈ e.payloads, SubFrameFits c.programs sub) ∧ b = e.payloads.flatMap subFrameBits) := by
  refine TotL.bind (TotL.of (Tot.times (n := 0) (subFrame_tot c.programs)) (by omega)) ?_
  rintro l _ _ ⟨h1, h2, rfl⟩
  refine TotL.ite (fun _ => TotL.fail) fun h => TotL.pure ⟨rfl, rfl, ?_, by simpa using h, h1, fun s hs => (h2 s hs).2, by simp⟩
  cases l with
  | nil => simp at h1
  | cons s l => exact (h2 s (by simp)).1

theorem element_tot (k : Nat) (present : Bool) (given : Option StreamMuxConfig) :
    TotL k (MuxElement.unmarshalBits present given) (IsElement present given) := by
  unfold MuxElement.unmarshalBits
  cases present
  · refine TotL.bind (P := fun v b => v = false ∧ b = []) (TotL.pure ⟨rfl, rfl⟩) ?_
    rintro same _ _ ⟨rfl, rfl⟩
    refine TotL.bind (P := fun v b => v = given ∧ b = []) (TotL.pure ⟨rfl, rfl⟩) ?_
    rintro _ _ _ ⟨rfl, rfl⟩
    split
    · exact TotL.fail
    · rename_i c
      refine TotL.imp (element_rest_tot _ false c) ?_
      rintro e b _ ⟨h1, h2, h3, h4, h5, h6, rfl⟩
      exact ⟨c, [], h2, ⟨h1, rfl, rfl⟩, h3, h4, h5, h6, rfl⟩
  · refine TotL.bind (TotL.of (n := 0) (Tot.readFlag' (P := fun v b => b = [v]) fun v => rfl) (by omega)) ?_
    rintro same _ _ rfl
    cases same
    · refine TotL.bind (P := fun v b => ∃ c, v = some c ∧ (IsMux c b ∨ (IsCutMux c b ∧ k - 1 - b.length < 3))) ?_ ?_
      · show TotL (k - 1) readElementConfig _
        unfold readElementConfig
        refine TotL.bind (mux_tot _) ?_
        intro c b _ h
        exact TotL.pure ⟨c, rfl, by simpa using h⟩
      · rintro _ b1 _ ⟨c, rfl, h⟩
        dsimp only
        refine TotL.imp (element_rest_tot _ false c) ?_
        rintro e b hb ⟨h1, h2, h3, h4, h5, h6, rfl⟩
        rcases h with h | ⟨h, hk⟩
        · exact ⟨c, [false] ++ b1, h2, Or.inr ⟨h1, b1, h, rfl⟩, h3, h4, h5, h6, by simp⟩
        · exfalso
          obtain ⟨-, -, n, pb, -, -, -, hp, -⟩ := h
          obtain ⟨sub, l, hl⟩ : ∃ s l, e.payloads = s :: l := by
            cases hl : e.payloads with
            | nil => rw [hl] at h5; simp at h5
            | cons s l => exact ⟨s, l, rfl⟩
          have := subFrame_pos (h6 sub (by simp [hl])) (cutPrograms_ne hp)
          rw [hl, List.flatMap_cons, List.length_append] at hb
          simp only [List.length_cons, List.length_nil] at hb
          omega
    · refine TotL.bind (P := fun v b => v = given ∧ b = []) (TotL.pure ⟨rfl, rfl⟩) ?_
      rintro _ _ _ ⟨rfl, rfl⟩
      split
      · exact TotL.fail
      · rename_i c
        refine TotL.imp (element_rest_tot _ true c) ?_
        rintro e b _ ⟨h1, h2, h3, h4, h5, h6, rfl⟩
        exact ⟨c, [true], h2, Or.inl ⟨h1, rfl, rfl⟩, h3, h4, h5, h6, rfl⟩

/-- C54: the decoder accepts exactly the buffers that are an AudioMuxElement followed by less than a byte of padding, and
returns its fields. -/
theorem C54_decode (present : Bool) (given : Option StreamMuxConfig) (buf : Bytes) (e : MuxElement) :
    MuxElement.unmarshal present given buf = .ok e ↔ ∃ bits rest, bitsOf buf = bits ++ rest ∧ rest.length < 8 ∧
      IsElement present given e bits := by
  unfold MuxElement.unmarshal
  have hlen : ∀ bits rest, bitsOf buf = bits ++ rest → (ceil8 bits.length = buf.length ↔ rest.length < 8) := by
    intro bits rest h
    have hl := congrArg List.length h
    rw [length_bitsOf, List.length_append] at hl
    have := ceil8_le bits.length
    omega
  constructor
  · intro e'
    obtain ⟨⟨c', pos⟩, he, e'⟩ := Res.bind_eq_ok.1 e'
    dsimp only at e'
    split at e'
    · cases e'
    · rename_i hc
      rw [Decidable.not_not] at hc
      cases e'
      obtain ⟨bits, h1, h2, h3, h4⟩ := (element_tot (8 * buf.length) present given buf 0 (by omega) (by omega)).2 e pos he
      rw [Nat.zero_add] at h2
      subst h2
      rw [List.drop_zero] at h3
      exact ⟨bits, _, h3, (hlen _ _ h3).1 hc, h1⟩
  · rintro ⟨bits, rest, h1, h2, h3⟩
    rw [(element_parses h3).run h1, Res.bind_ok]
    dsimp only
    rw [if_neg]
    rw [Decidable.not_not]
    exact (hlen _ _ h1).2 h2

/-- C54: `Unmarshal` never panics. -/
theorem C54_no_panic (present : Bool) (given : Option StreamMuxConfig) (buf : Bytes) :
    (MuxElement.unmarshal present given buf).NoPanic := by
  unfold MuxElement.unmarshal
  refine Res.noPanic_bind (element_tot (8 * buf.length) present given buf 0 (by omega) (by omega)).1 ?_
  intro r
  split <;> simp

/-! ## Encoding -/

theorem slot_writes (n : Nat) : BitW.Writes (slotW n) (bitsOf (opusSizeBytes n)) := by
  induction n using Nat.strongRecOn with
  | ind n ih =>
    unfold slotW
    by_cases h : 255 ≤ n
    · rw [dif_pos h]
      refine BitW.Writes.congr (BitW.Writes.seq (BitW.Writes.bits (by omega) (by omega)) (ih (n - 255) (by omega))) ?_
      have : opusSizeBytes n = 255 :: opusSizeBytes (n - 255) := by
        unfold opusSizeBytes
        rw [show n / 255 = (n - 255) / 255 + 1 by omega, show n % 255 = (n - 255) % 255 by omega, List.replicate_succ]
        rfl
      rw [this, bitsOf_cons]
      rfl
    · rw [dif_neg h]
      refine BitW.Writes.congr (BitW.Writes.bits (by omega) (by omega)) ?_
      have : opusSizeBytes n = [UInt8.ofNat n] := by
        unfold opusSizeBytes
        rw [show n / 255 = 0 by omega, show n % 255 = n by omega]
        rfl
      rw [this, bitsOf_cons, Bits.byteBits_ofNat]
      simp

theorem all_writes {α : Type} {f : α → BitW} {g : α → List Bool} {l : List α} (h : ∀ a ∈ l, BitW.Writes (f a) (g a)) :
    BitW.Writes (BitW.all (l.map f)) (l.flatMap g) := by
  induction l with
  | nil => exact BitW.Writes.nop
  | cons a l ih =>
    rw [List.map_cons, List.flatMap_cons]
    exact BitW.Writes.all_cons (h a (by simp)) (ih fun x hx => h x (by simp [hx]))

theorem layerLengths_ok (sub : List (List Bytes)) (prog : Nat) (pre pay : List Bytes) (ls : List Layer)
    (hs : sub[prog]? = some (pre ++ pay)) (h0 : ∀ l ∈ ls, l.frameLengthType = 0) (hl : pay.length = ls.length) :
    layerLengths sub prog pre.length ls = .ok (pay.map List.length) := by
  induction ls generalizing pre pay with
  | nil => obtain rfl := List.length_eq_zero_iff.1 hl; rfl
  | cons l ls ih =>
    cases pay with
    | nil => simp at hl
    | cons b pay =>
      unfold layerLengths
      have h1 : sliceAt sub prog = .ok (pre ++ b :: pay) := by unfold sliceAt; rw [hs]
      have h2 : sliceAt (pre ++ b :: pay) pre.length = .ok b := by unfold sliceAt; simp
      rw [h1, Res.bind_ok, h2, Res.bind_ok, if_neg (by simpa using h0 l (by simp))]
      have := ih (pre ++ [b]) pay (by rw [hs]; simp) (fun x hx => h0 x (by simp [hx])) (by simpa using hl)
      rw [List.length_append] at this
      rw [show pre.length + [b].length = pre.length + 1 from rfl] at this
      rw [this]
      rfl

theorem programLengths_ok (pre sub : List (List Bytes)) (ps : List (List Layer)) (h0 : AllVariable ps) (hf : SubFrameFits ps sub) :
    programLengths (pre ++ sub) pre.length ps = .ok (sub.map (·.map List.length)) := by
  unfold SubFrameFits at hf
  induction ps generalizing pre sub with
  | nil => obtain rfl : sub = [] := by simpa using hf
           rfl
  | cons p ps ih =>
    cases sub with
    | nil => simp at hf
    | cons pay sub =>
      rw [List.map_cons, List.map_cons, List.cons.injEq] at hf
      unfold programLengths
      have h1 := layerLengths_ok (pre ++ pay :: sub) pre.length [] pay p (by simp) (fun l hl => h0 p (by simp) l hl) hf.1
      rw [List.length_nil] at h1
      rw [h1, Res.bind_ok]
      have := ih (pre ++ [pay]) sub (fun q hq => h0 q (by simp [hq])) hf.2
      rw [List.length_append, List.append_assoc] at this
      rw [show pre.length + [pay].length = pre.length + 1 from rfl] at this
      rw [show pre ++ pay :: sub = pre ++ ([pay] ++ sub) from rfl, this]
      rfl

theorem withRes_writes {α : Type} {x : Res α} {a : α} {f : α → BitW} {bits : List Bool} (hx : x = .ok a)
    (h : BitW.Writes (f a) bits) : BitW.Writes (withRes x f) bits := by
  subst hx
  exact h

theorem flatten_flatMap {α β : Type} (f : α → List β) (l : List (List α)) :
    l.flatten.flatMap f = l.flatMap (fun x => x.flatMap f) := by
  induction l with
  | nil => rfl
  | cons a l ih => simp [ih]

theorem subFrame_writes {c : StreamMuxConfig} {sub : List (List Bytes)} (h0 : AllVariable c.programs)
    (hf : SubFrameFits c.programs sub) : BitW.Writes (subFrameW c sub) (subFrameBits sub) := by
  unfold subFrameW
  refine withRes_writes (programLengths_ok [] sub c.programs h0 hf) ?_
  unfold subFrameBits
  refine BitW.Writes.seq ?_ ?_
  · rw [List.map_map, flatten_flatMap]
    refine all_writes (f := _) fun pay _ => ?_
    show BitW.Writes (BitW.all ((pay.map List.length).map slotW)) _
    rw [List.map_map]
    exact all_writes fun b _ => slot_writes b.length
  · rw [flatten_flatMap]
    refine all_writes fun pay _ => all_writes fun b _ => all_writes fun x _ => ?_
    rw [byteBits_eq]
    exact BitW.Writes.bits (by omega) x.toNat_lt

theorem subFrame_size (sub : List (List Bytes)) : (subFrameBits sub).length =
    ((sub.map (·.map List.length)).map fun p => (p.map fun n => (n / 255 + 1) * 8).sum).sum +
      (sub.map fun p => (p.map fun b => b.length * 8).sum).sum := by
  unfold subFrameBits
  rw [List.length_append]
  congr 1
  · induction sub with
    | nil => rfl
    | cons pay sub ih =>
      rw [List.flatten_cons, List.flatMap_append, List.length_append, ih, List.map_cons, List.map_cons, List.sum_cons]
      congr 1
      clear ih
      induction pay with
      | nil => rfl
      | cons b pay ih =>
        rw [List.flatMap_cons, List.length_append, ih, List.map_cons, List.map_cons, List.sum_cons]
        congr 1
        rw [length_bitsOf]; simp [opusSizeBytes]; omega
  · induction sub with
    | nil => rfl
    | cons pay sub ih =>
      rw [List.flatten_cons, List.flatMap_append, List.length_append, ih, List.map_cons, List.sum_cons]
      congr 1
      clear ih
      induction pay with
      | nil => rfl
      | cons b pay ih =>
        rw [List.flatMap_cons, List.length_append, ih, List.map_cons, List.sum_cons]
        congr 1
        rw [length_bitsOf]; omega

theorem subFrames_writes {c : StreamMuxConfig} (pre subs : List (List (List Bytes))) (h0 : AllVariable c.programs)
    (hf : ∀ sub ∈ subs, SubFrameFits c.programs sub) :
    BitW.Writes (subFramesW c (pre ++ subs) pre.length subs.length) (subs.flatMap subFrameBits) ∧
    subFramesSize c (pre ++ subs) pre.length subs.length = .ok (subs.flatMap subFrameBits).length := by
  induction subs generalizing pre with
  | nil => exact ⟨BitW.Writes.nop, rfl⟩
  | cons sub subs ih =>
    have hi := ih (pre ++ [sub]) fun s hs => hf s (by simp [hs])
    rw [List.length_append, List.append_assoc, show pre.length + [sub].length = pre.length + 1 from rfl] at hi
    have hs : sliceAt (pre ++ ([sub] ++ subs)) pre.length = .ok sub := by unfold sliceAt; simp
    rw [show pre ++ sub :: subs = pre ++ ([sub] ++ subs) from rfl, List.length_cons, List.flatMap_cons]
    constructor
    · unfold subFramesW
      exact BitW.Writes.seq (withRes_writes hs (subFrame_writes h0 (hf sub (by simp)))) hi.1
    · unfold subFramesSize
      have := programLengths_ok [] sub c.programs h0 (hf sub (by simp))
      rw [List.nil_append, List.length_nil] at this
      rw [hs, Res.bind_ok, this, Res.bind_ok, hi.2, Res.bind_ok, List.length_append, subFrame_size]

/-- Elements in scope. -/
structure ElementValid (present : Bool) (e : MuxElement) (c : StreamMuxConfig) : Prop where
  config : e.config = some c
  same : present = false → e.useSameStreamMux = false
  mux : present = true → e.useSameStreamMux = false → MuxValid c
  allVariable : AllVariable c.programs
  other : c.otherDataPresent = false
  payloads : e.payloads.length = c.numSubFrames + 1
  fits : ∀ sub ∈ e.payloads, SubFrameFits c.programs sub

/-- The configuration that a decoder has after the element: with consistent channel fields if it was transmitted. -/
def elementConfig (present : Bool) (e : MuxElement) (c : StreamMuxConfig) : StreamMuxConfig :=
  if present && !e.useSameStreamMux then muxNormal c else c

theorem muxNormal_programs (c : StreamMuxConfig) : AllVariable c.programs → AllVariable (muxNormal c).programs := by
  intro h p hp l hl
  obtain ⟨q, hq, rfl⟩ := List.mem_map.1 hp
  obtain ⟨m, hm, rfl⟩ := List.mem_map.1 hl
  exact h q hq m hm

theorem muxNormal_fits (c : StreamMuxConfig) (sub : List (List Bytes)) :
    SubFrameFits (muxNormal c).programs sub ↔ SubFrameFits c.programs sub := by
  unfold SubFrameFits muxNormal
  simp [List.map_map, Function.comp_def]

/-- C54: encoding an element in scope writes its layout, padded with zeros to a whole byte. `given` is whatever the decoder
has when the configuration is transmitted, else it must be the one used. -/
theorem C54_encode (present : Bool) (e : MuxElement) (c : StreamMuxConfig) (h : ElementValid present e c)
    (given : Option StreamMuxConfig) (hg : present = false ∨ e.useSameStreamMux = true → given = some c) :
    ∃ buf bits k, e.marshal present = .ok buf ∧
      IsElement present given { e with config := some (elementConfig present e c) } bits ∧
      bitsOf buf = bits ++ List.replicate k false ∧ k < 8 := by
  obtain ⟨h1, h2, h3, h4, h5, h6, h7⟩ := h
  obtain ⟨w1, w2⟩ := subFrames_writes (c := c) [] e.payloads h4 h7
  rw [List.nil_append, List.length_nil, h6] at w1 w2
  have hH : ∃ hb, IsElementHead present given e.useSameStreamMux (elementConfig present e c) hb ∧
      BitW.Writes (if present then BitW.seq (BitW.flag e.useSameStreamMux)
        (if !e.useSameStreamMux then c.marshalW else BitW.nop) else BitW.nop) hb ∧
      hb.length = (if present then 1 + (if !e.useSameStreamMux then c.marshalSizeBits else 0) else 0) := by
    unfold elementConfig IsElementHead
    cases present
    · exact ⟨[], ⟨h2 rfl, hg (Or.inl rfl), rfl⟩, BitW.Writes.nop, rfl⟩
    · cases hs : e.useSameStreamMux
      · obtain ⟨mb, m1, m2, m3⟩ := mux_writes (h3 rfl hs)
        refine ⟨[false] ++ mb, Or.inr ⟨rfl, mb, m1, rfl⟩, BitW.Writes.seq BitW.Writes.flag m2, ?_⟩
        simp [m3]; omega
      · refine ⟨[true], Or.inl ⟨rfl, hg (Or.inr hs), rfl⟩, ?_, rfl⟩
        exact BitW.Writes.congr (BitW.Writes.seq BitW.Writes.flag BitW.Writes.nop) rfl
  obtain ⟨hb, b1, b2, b3⟩ := hH
  have hw := BitW.Writes.all_cons b2 (BitW.Writes.all_cons w1 BitW.Writes.all_nil)
  rw [List.append_nil] at hw
  have hsz : e.marshalSize present c = .ok (ceil8 (hb ++ e.payloads.flatMap subFrameBits).length) := by
    unfold MuxElement.marshalSize
    rw [w2]
    dsimp only
    rw [List.length_append, b3]
  have hc := ceil8_le (hb ++ e.payloads.flatMap subFrameBits).length
  obtain ⟨buf, g1, g2, g3⟩ := hw.run _ hc.1
  refine ⟨buf, _, _, ?_, ⟨elementConfig present e c, hb, rfl, b1, ?_, ?_, ?_, ?_, rfl⟩, g3, by omega⟩
  · unfold MuxElement.marshal
    rw [h1]
    dsimp only
    rw [hsz, Res.bind_ok]
    unfold makeBytes
    rw [g1]
    rfl
  · unfold elementConfig; split
    · exact muxNormal_programs c h4
    · exact h4
  · unfold elementConfig; split <;> exact h5
  · unfold elementConfig; split <;> exact h6
  · intro sub hs
    unfold elementConfig; split
    · exact (muxNormal_fits c sub).2 (h7 sub hs)
    · exact h7 sub hs

/-- C54: AudioMuxElement round trip. -/
theorem C54_round_trip (present : Bool) (e : MuxElement) (c : StreamMuxConfig) (h : ElementValid present e c)
    (given : Option StreamMuxConfig) (hg : present = false ∨ e.useSameStreamMux = true → given = some c) :
    (e.marshal present >>= MuxElement.unmarshal present given) =
      .ok { e with config := some (elementConfig present e c) } := by
  obtain ⟨buf, bits, k, h1, h2, h3, h4⟩ := C54_encode present e c h given hg
  rw [h1, Res.bind_ok]
  exact (C54_decode _ _ _ _).2 ⟨bits, _, h3, by simpa using h4, h2⟩

/-- A configuration with two layers and two subframes. -/
def elementSampleConfig : StreamMuxConfig :=
  ⟨1, [[⟨some ⟨2, 48000, 2, 2, 0, 0, false, false, 0⟩, 0, 255, 0, 0, false⟩, ⟨none, 0, 7, 0, 0, false⟩]], false, 0, false, 0⟩

/-- A payload longer than 255 bytes. -/
def elementPayload : Bytes := List.replicate 300 9

/-- An element with this configuration. -/
def elementSample : MuxElement := ⟨false, some elementSampleConfig, [[[[1, 2, 3], []]], [[[4], elementPayload]]]⟩

example : ElementValid true elementSample elementSampleConfig := by
  constructor <;> simp [elementSample, elementSampleConfig, AllVariable, SubFrameFits]
  constructor <;> simp [ProgramsValid, LayersValid, LayerValid]
  exact ⟨⟨by constructor <;> simp, by constructor <;> simp⟩, by constructor <;> simp⟩
example : (elementSample.marshal true >>= MuxElement.unmarshal true none) = .ok elementSample := by decide +kernel
example : MuxElement.unmarshal false (some ⟨0, [[⟨none, 0, 255, 0, 0, false⟩]], false, 0, false, 0⟩) [2, 0xAA, 0xBB] =
    .ok ⟨false, some ⟨0, [[⟨none, 0, 255, 0, 0, false⟩]], false, 0, false, 0⟩, [[[[0xAA, 0xBB]]]]⟩ := by decide +kernel

/-- C54, limits of the encoder: `Marshal` panics instead of returning an error when a layer has a fixed frame length and
the configuration is transmitted (the size is computed as zero and the buffer is written anyway), and when there is no
configuration. -/
theorem C54_marshal_panics :
    (MuxElement.mk false (some ⟨0, [[⟨some ⟨2, 48000, 2, 2, 0, 0, false, false, 0⟩, 1, 0, 10, 0, false⟩]], false, 0, false, 0⟩)
      [[[[1, 2]]]]).marshal true = .panic ∧
    (MuxElement.mk false none []).marshal true = .panic := by
  constructor <;> decide +kernel

/-- C54, limits of the encoder: an element with other data is written but cannot be read back. -/
theorem C54_other_data_not_read :
    ((MuxElement.mk false (some ⟨0, [[⟨some ⟨2, 48000, 2, 2, 0, 0, false, false, 0⟩, 0, 255, 0, 0, false⟩]], true, 8, false, 0⟩)
      [[[[1, 2]]]]).marshal true >>= MuxElement.unmarshal true none) =
      .err "OtherDataPresent is not supported (yet)" := by
  decide +kernel

end Verif.Props
