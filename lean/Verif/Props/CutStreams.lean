import Verif.Props.ADTS
import Verif.Props.AV1
import Verif.Props.H264

/-!
# C113: streams of units may be joined and cut
-/

namespace Verif.Props
open Verif.Spec

/-! ## Specification -/

/-- Streams that are read one after the other, or joined, give the same units. -/
def Joins {α : Type} (decode : Bytes → Res (List α)) : Prop :=
  ∀ (a b : Bytes) (l m : List α), decode a = .ok l → decode b = .ok m → decode (a ++ b) = .ok (l ++ m)

/-- A stream that is cut anywhere is refused, or it was cut between two units: both parts are read, and nothing is lost. -/
def Cuts {α : Type} (decode : Bytes → Res (List α)) : Prop :=
  ∀ (a b : Bytes) (l : List α), b ≠ [] → decode (a ++ b) = .ok l →
    (∃ e, decode a = .err e) ∨ ∃ l1 l2, decode a = .ok l1 ∧ decode b = .ok l2 ∧ l = l1 ++ l2

/-! ## Frames that tell their length -/

/-- No frame is the beginning of another. -/
def PrefixFree {α : Type} (frame : α → Bytes → Prop) : Prop :=
  ∀ (x y : α) (u v s t : Bytes), frame x u → frame y v → u ++ s = v ++ t → x = y ∧ u = v

theorem cut_append {α : Type} {F : α → Bytes → Prop} : ∀ (l m : List α) (a b : Bytes), Tiles F l a → Tiles F m b → Tiles F (l ++ m) (a ++ b)
  | [], m, a, b, h, h' => by cases (show a = [] from h); exact h'
  | x :: l, m, a, b, h, h' => by
    obtain ⟨u, r, rfl, hx, hr⟩ := h
    exact ⟨u, r ++ b, by rw [List.append_assoc], hx, cut_append l m r b hr h'⟩

theorem cut_split {α : Type} {F : α → Bytes → Prop} (hu : PrefixFree F) (hne : ∀ x u, F x u → u ≠ []) :
    ∀ (l1 l : List α) (a b : Bytes), Tiles F l1 a → Tiles F l (a ++ b) → ∃ l2, l = l1 ++ l2 ∧ Tiles F l2 b
  | [], l, a, b, h, h' => by cases (show a = [] from h); exact ⟨l, rfl, h'⟩
  | x :: l1, [], a, b, h, h' => by
    obtain ⟨u, r, rfl, hx, hr⟩ := h
    have h' : u ++ r ++ b = [] := h'
    rw [List.append_assoc] at h'
    exact absurd (List.append_eq_nil_iff.1 h').1 (hne x u hx)
  | x :: l1, y :: l, a, b, h, h' => by
    obtain ⟨u, r, rfl, hx, hr⟩ := h
    obtain ⟨v, s, e, hy, hs⟩ := h'
    rw [List.append_assoc] at e
    obtain ⟨rfl, rfl⟩ := hu x y u v _ _ hx hy e
    have e := List.append_cancel_left e
    subst e
    obtain ⟨l2, h1, h2⟩ := cut_split hu hne l1 l r b hr hs
    exact ⟨l2, by rw [h1]; rfl, h2⟩

theorem cut_framed {α : Type} {F : α → Bytes → Prop} {decode : Bytes → Res (List α)} (hu : PrefixFree F) (hne : ∀ x u, F x u → u ≠ [])
    (hd : ∀ b l, decode b = .ok l ↔ l ≠ [] ∧ Tiles F l b) (hp : ∀ b, (decode b).NoPanic) : Joins decode ∧ Cuts decode := by
  constructor
  · intro a b l m h1 h2
    obtain ⟨g1, g2⟩ := (hd a l).1 h1
    obtain ⟨g3, g4⟩ := (hd b m).1 h2
    exact (hd _ _).2 ⟨fun e => g1 (List.append_eq_nil_iff.1 e).1, cut_append l m a b g2 g4⟩
  · intro a b l hb h
    cases ha : decode a with
    | err e => exact .inl ⟨e, rfl⟩
    | panic => exact absurd ha (hp a)
    | ok l1 =>
      obtain ⟨g1, g2⟩ := (hd a l1).1 ha
      obtain ⟨l2, rfl, g3⟩ := cut_split hu hne l1 l a b g2 ((hd _ l).1 h).2
      refine .inr ⟨l1, l2, rfl, (hd b l2).2 ⟨?_, g3⟩, rfl⟩
      rintro rfl
      exact hb g3

/-- Frames that a parser reads wherever they are. -/
theorem cut_reads {α : Type} {F : α → Bytes → Prop} (p : BitM α) (h : ∀ x u, F x u → ByteR.Reads p u x) : PrefixFree F := by
  intro x y u v s t hx hy e
  have h1 := h x u hx [] s
  have h2 := h y v hy [] t
  rw [e, h2] at h1
  simp only [List.length_nil, Nat.zero_add, Res.ok.injEq, Prod.mk.injEq] at h1
  exact ⟨h1.1.symm, (List.append_inj e h1.2.symm).1⟩

/-- **C113, ADTS.** -/
theorem C113_adts : Joins MPEG4Audio.ADTSPackets.unmarshal ∧ Cuts MPEG4Audio.ADTSPackets.unmarshal :=
  cut_framed (cut_reads _ fun _ _ h => C20_frame_complete h) adts_ne C20_decode C20_no_panic

/-- Two frames of ADTS: the first part, a part that is cut in a frame, and the whole. -/
example : let f : Bytes := [0xFF, 0xF1, 0x4C, 0x80, 0x01, 0x5F, 0xFC, 1, 2, 3]
    MPEG4Audio.ADTSPackets.unmarshal f = .ok [⟨2, 48000, 2, 2, [1, 2, 3]⟩] ∧ (∀ n < 9, ¬ (MPEG4Audio.ADTSPackets.unmarshal (f ++ f.take (n + 1))).isOk) ∧
      MPEG4Audio.ADTSPackets.unmarshal (f ++ f) = .ok [⟨2, 48000, 2, 2, [1, 2, 3]⟩, ⟨2, 48000, 2, 2, [1, 2, 3]⟩] := by decide +kernel

/-- **C113, AudioSyncStream.** -/
theorem C113_sync : Joins MPEG4Audio.AudioSyncStream.unmarshal ∧ Cuts MPEG4Audio.AudioSyncStream.unmarshal :=
  cut_framed (cut_reads _ fun _ _ h => sync_reads h) sync_ne C21_decode C21_no_panic

/-- Two frames, one of them without a payload. -/
example : MPEG4Audio.AudioSyncStream.unmarshal ([0x56, 0xE0, 2, 1, 2] ++ [0x56, 0xE0, 0]) = .ok ([[1, 2]] ++ [[]]) ∧
    MPEG4Audio.AudioSyncStream.unmarshal [0x56, 0xE0, 2, 1, 2] = .ok [[1, 2]] ∧ MPEG4Audio.AudioSyncStream.unmarshal [0x56, 0xE0, 0] = .ok [[]] := by
  decide +kernel

theorem cut_obus (b : Bytes) (l : List Bytes) : IsObuStream b l ↔ Tiles (fun o r => IsObuRecord r o) l b := by
  constructor
  · intro h
    induction h with
    | nil => rfl
    | cons h _ ih => exact ⟨_, _, rfl, h, ih⟩
  · intro h
    induction l generalizing b with
    | nil => cases (show b = [] from h); exact .nil
    | cons o l ih =>
      obtain ⟨u, r, rfl, hx, hr⟩ := h
      exact .cons hx (ih r hr)

/-- **C113, AV1.** -/
theorem C113_av1 : Joins AV1.bitstreamUnmarshal ∧ Cuts AV1.bitstreamUnmarshal := by
  refine cut_framed (F := fun o r => IsObuRecord r o) ?_ ?_ (fun b l => ?_) C18_bitstream_no_panic
  · intro x y u v s t hx hy e
    have h1 := AV1.step_record s hx
    have h2 := AV1.step_record t hy
    rw [e, h2] at h1
    simp only [Res.ok.injEq, Prod.mk.injEq] at h1
    obtain ⟨rfl, rfl⟩ := h1
    exact ⟨rfl, List.append_cancel_right e⟩
  · rintro x u ⟨h, pre, last, payload, _, _, _, _, _, rfl, _⟩
    exact List.cons_ne_nil _ _
  · rw [C18_bitstream_accepts_iff, cut_obus]

/-- Two OBUs, and where the stream may be cut. -/
example : (List.range 8).map (fun n => AV1.bitstreamUnmarshal (([0x0A, 1, 7, 0x0A, 2, 8, 9] : Bytes).take n)) =
    [.err "not enough bytes", .err "not enough bytes", .err "not enough bytes", .ok [[8, 7]], .err "not enough bytes", .err "not enough bytes",
      .err "not enough bytes", .ok [[8, 7], [8, 8, 9]]] := by decide +kernel

/-! ## AVCC -/

theorem cut_records : ∀ (l1 l : List Bytes) (b : Bytes), (∀ x ∈ l1, x.length < 2 ^ 32) → (∀ x ∈ l, x.length < 2 ^ 32) →
    avccRecords l1 ++ b = avccRecords l → ∃ l2, l = l1 ++ l2 ∧ b = avccRecords l2
  | [], l, b, _, _, h => ⟨l, rfl, h⟩
  | x :: l1, [], b, _, _, h => by
    have := congrArg List.length h
    simp [avccRecords, H264.be32_length] at this
  | x :: l1, y :: l, b, h1, h2, h => by
    have hc : ∀ (z : Bytes) (r : List Bytes), avccRecords (z :: r) = be32 z.length ++ (z ++ avccRecords r) := fun z r => by
      simp [avccRecords]
    rw [hc, hc, List.append_assoc] at h
    obtain ⟨e1, e2⟩ := List.append_inj h rfl
    have e3 := H264.be32_inj (h1 x List.mem_cons_self) (h2 y List.mem_cons_self) e1
    rw [List.append_assoc] at e2
    obtain ⟨rfl, e4⟩ := List.append_inj e2 e3
    obtain ⟨l2, g1, g2⟩ := cut_records l1 l b (fun z hz => h1 z (List.mem_cons_of_mem _ hz)) (fun z hz => h2 z (List.mem_cons_of_mem _ hz)) e4
    exact ⟨l2, by rw [g1]; rfl, g2⟩

theorem cut_auBytes (l m : List Bytes) : auBytes (l ++ m) = auBytes l + auBytes m := by simp [auBytes]

/-- **C113, AVCC, joined.** Access units may be joined exactly when the result is within the limits. -/
theorem C113_avcc_joins (a b : Bytes) (l m : List Bytes) (ha : H264.avccUnmarshal a = .ok l) (hb : H264.avccUnmarshal b = .ok m) :
    (∀ n, H264.avccUnmarshal (a ++ b) = .ok n → n = l ++ m) ∧
      (H264.avccUnmarshal (a ++ b) = .ok (l ++ m) ↔ l.length + m.length ≤ 50 ∧ auBytes l + auBytes m ≤ 8 * 1024 * 1024) := by
  obtain ⟨r1, h1, rfl, rfl, h3, _, _⟩ := (C07_avcc_accepts_iff a l).1 ha
  obtain ⟨r2, h4, rfl, rfl, _, _, _⟩ := (C07_avcc_accepts_iff b m).1 hb
  have hj : avccRecords r1 ++ avccRecords r2 = avccRecords (r1 ++ r2) := by simp [avccRecords]
  have hx : ∀ x ∈ r1 ++ r2, x.length < 2 ^ 32 := fun x hx => (List.mem_append.1 hx).elim (h1 x) (h4 x)
  constructor
  · intro n hn
    obtain ⟨r, g1, g2, g3, _, _, _⟩ := (C07_avcc_accepts_iff _ n).1 hn
    obtain ⟨l2, e1, e2⟩ := cut_records r1 r _ h1 g1 g2
    obtain ⟨l3, e3, e4⟩ := cut_records r2 l2 [] h4 (fun x hx => g1 x (by rw [e1]; exact List.mem_append_right _ hx)) (by rw [List.append_nil]; exact e2)
    have e5 : l3 = [] := by
      cases l3 with
      | nil => rfl
      | cons z l3 =>
        have h6 : (be32 z.length ++ (z ++ avccRecords l3)).length = 0 := by
          have h7 := congrArg List.length e4
          rw [show avccRecords (z :: l3) = be32 z.length ++ (z ++ avccRecords l3) by simp [avccRecords]] at h7
          exact h7.symm
        rw [List.length_append, H264.be32_length] at h6
        omega
    rw [g3, e1, e3, e5, List.append_nil, List.filter_append]
  · rw [← List.length_append, ← cut_auBytes, ← List.filter_append]
    constructor
    · intro h
      obtain ⟨h1, h2, _, h3⟩ := C07_avcc_bounds _ _ h
      exact ⟨h2, h3⟩
    · rintro ⟨g1, g2⟩
      refine (C07_avcc_accepts_iff _ _).2 ⟨r1 ++ r2, hx, hj, rfl, ?_, g1, g2⟩
      rw [List.filter_append, List.length_append]
      omega

/-- **C113, AVCC, cut.** What is left of an access unit is refused, or it has the first units; the rest has the other ones, or no units. -/
theorem C113_avcc_cuts (a b : Bytes) (l : List Bytes) (h : H264.avccUnmarshal (a ++ b) = .ok l) :
    (∃ e, H264.avccUnmarshal a = .err e) ∨ ∃ l1 l2, H264.avccUnmarshal a = .ok l1 ∧ l = l1 ++ l2 ∧
      (H264.avccUnmarshal b = .ok l2 ∨ l2 = [] ∧ ∃ n, b = avccRecords (List.replicate n [])) := by
  cases ha : H264.avccUnmarshal a with
  | err e => exact .inl ⟨e, rfl⟩
  | panic => exact absurd ha (C07_avcc_no_panic a)
  | ok l1 =>
    refine .inr ⟨l1, ?_⟩
    obtain ⟨r1, h1, rfl, rfl, h3, _, _⟩ := (C07_avcc_accepts_iff a l1).1 ha
    obtain ⟨r, g1, g2, rfl, _, g5, g6⟩ := (C07_avcc_accepts_iff _ l).1 h
    obtain ⟨r2, rfl, rfl⟩ := cut_records r1 r b h1 g1 g2
    rw [List.filter_append] at g5 g6
    rw [List.length_append] at g5
    rw [cut_auBytes] at g6
    refine ⟨r2.filter (· ≠ []), rfl, List.filter_append _ _, ?_⟩
    by_cases hz : r2.filter (· ≠ []) = []
    · refine .inr ⟨hz, r2.length, ?_⟩
      congr 1
      refine List.eq_replicate_of_mem fun x hx => ?_
      have := List.filter_eq_nil_iff.1 hz x hx
      simpa using this
    · refine .inl ((C07_avcc_accepts_iff _ _).2 ⟨r2, fun x hx => g1 x (List.mem_append_right _ hx), rfl, rfl, ?_,
        Nat.le_trans (Nat.le_add_left _ _) g5, Nat.le_trans (Nat.le_add_left _ _) g6⟩)
      exact List.length_pos_iff.2 hz

/-- The two parts of an access unit that was cut between its units. -/
example : H264.avccUnmarshal ([0, 0, 0, 1, 5] ++ [0, 0, 0, 2, 6, 7]) = .ok [[5], [6, 7]] ∧ H264.avccUnmarshal [0, 0, 0, 1, 5] = .ok [[5]] ∧
    H264.avccUnmarshal [0, 0, 0, 2, 6, 7] = .ok [[6, 7]] ∧ H264.avccUnmarshal [0, 0, 0, 1, 5, 0, 0, 0, 2, 6] = .err "invalid length" := by
  decide +kernel

/-- **C113, AVCC is not joined without conditions**: 26 and 25 units are more than the limit. -/
theorem C113_avcc_joins_false : ¬ Joins H264.avccUnmarshal := by
  intro h
  have := h _ _ _ _ (show H264.avccUnmarshal (avccRecords (List.replicate 26 [5])) = .ok (List.replicate 26 [5]) by decide +kernel)
    (show H264.avccUnmarshal (avccRecords (List.replicate 25 [5])) = .ok (List.replicate 25 [5]) by decide +kernel)
  have := (C07_avcc_bounds _ _ this).2.1
  simp at this

/-! ## Annex B -/

/-- **C113, Annex B cannot be cut**: what is left of the last unit is a unit. -/
theorem C113_annexb_cuts_false : ¬ Cuts H264.annexbUnmarshal := by
  intro h
  rcases h [0, 0, 1, 5, 6] [7] [[5, 6, 7]] (by decide) (by decide +kernel) with ⟨e, he⟩ | ⟨l1, l2, h1, h2, h3⟩
  · have : H264.annexbUnmarshal [0, 0, 1, 5, 6] = .ok [[5, 6]] := by decide +kernel
    rw [this] at he
    cases he
  · have : H264.annexbUnmarshal [7] = .err "initial delimiter not found" := by decide +kernel
    rw [this] at h2
    cases h2

/-- A stream that is cut in a start code has a unit that was not there. -/
theorem C113_annexb_start_code_false : H264.annexbUnmarshal [0, 0, 1, 5, 0, 0, 0, 1, 6] = .ok [[5], [6]] ∧
    H264.annexbUnmarshal [0, 0, 1, 5, 0, 0, 0] = .ok [[5, 0, 0, 0]] := by decide +kernel

/-- **C113, Annex B cannot be joined**: a zero at the end is taken for a part of the start code. -/
theorem C113_annexb_joins_false : ¬ Joins H264.annexbUnmarshal := by
  intro h
  have := h [0, 0, 1, 5, 0] [0, 0, 1, 6] [[5, 0]] [[6]] (by decide +kernel) (by decide +kernel)
  have e : H264.annexbUnmarshal ([0, 0, 1, 5, 0] ++ [0, 0, 1, 6]) = .ok [[5], [6]] := by decide +kernel
  rw [e] at this
  cases this

theorem cut_index {x : Bytes} {i : Nat} (y : Bytes) (h : H264.indexStartCode x = some i) : H264.indexStartCode (x ++ y) = some i ∧ i + 3 ≤ x.length := by
  obtain ⟨a, r, rfl, rfl, hn⟩ := H264.indexStartCode_some h
  refine ⟨?_, by simp⟩
  rw [List.append_assoc]
  exact H264.indexStartCode_append a (r ++ y) hn

/-- The positions of units before the last one do not depend on what follows. -/
theorem cut_positions (a b : Bytes) : ∀ (n pos sz : Nat) (p q : List (Nat × Nat)), a.length - pos ≤ n → H264.annexbLoop a pos sz = .ok p →
    H264.annexbLoop (a ++ b) pos sz = .ok q → p.dropLast <+: q := by
  intro n
  induction n with
  | zero =>
    intro pos sz p q hn hp hq
    unfold H264.annexbLoop at hp
    rw [dif_neg (by omega)] at hp
    cases hp
    exact List.nil_prefix
  | succ n ih =>
    intro pos sz p q hn hp hq
    unfold H264.annexbLoop at hp
    by_cases hlt : pos < a.length
    · rw [dif_pos hlt] at hp
      cases hi : H264.indexStartCode (a.drop pos) with
      | none =>
        rw [hi] at hp
        dsimp only at hp
        split at hp
        · cases hp
        · cases hp
          exact List.nil_prefix
      | some i =>
        obtain ⟨hi2, hlen⟩ := cut_index b hi
        rw [List.length_drop] at hlen
        have hd : (a ++ b).drop pos = a.drop pos ++ b := List.drop_append_of_le_length (by omega)
        unfold H264.annexbLoop at hq
        rw [dif_pos (by rw [List.length_append]; omega), hd, hi2] at hq
        rw [hi] at hp
        dsimp only at hp hq
        have hx : (if 0 < i then idx (a ++ b) (pos + i - 1) else .ok 1) = (if 0 < i then idx a (pos + i - 1) else .ok 1) := by
          by_cases h0 : 0 < i
          · rw [if_pos h0, if_pos h0, idx_of_lt (by rw [List.length_append]; omega), idx_of_lt (by omega), List.getElem_append_left]
          · rw [if_neg h0, if_neg h0]
        rw [hx] at hq
        cases hv : (if 0 < i then idx a (pos + i - 1) else .ok 1 : Res UInt8) with
        | panic => rw [hv] at hp; cases hp
        | err e => rw [hv] at hp; cases hp
        | ok prev =>
          rw [hv] at hp hq
          dsimp only at hp hq
          generalize (if 0 < i ∧ prev = 0 then pos + i - 1 else pos + i) = e at hp hq
          split at hp
          · rename_i hc
            rw [if_pos hc] at hq
            split at hp
            · cases hp
            · rename_i hz
              rw [if_neg hz] at hq
              obtain ⟨p', hp', hp⟩ := Res.bind_eq_ok.1 hp
              obtain ⟨q', hq', hq⟩ := Res.bind_eq_ok.1 hq
              cases hp
              cases hq
              have := ih _ _ _ _ (by omega) hp' hq'
              cases p' with
              | nil => exact List.nil_prefix
              | cons z p' =>
                rw [List.dropLast_cons_cons]
                exact (List.prefix_cons_inj _).2 this
          · rename_i hc
            rw [if_neg hc] at hq
            exact ih _ _ _ _ (by omega) hp hq
    · rw [dif_neg hlt] at hp
      cases hp
      exact List.nil_prefix

theorem cut_slices (a b : Bytes) : ∀ (p q : List (Nat × Nat)) (l m : List Bytes), H264.slices a p = .ok l → H264.slices (a ++ b) q = .ok m →
    p.dropLast <+: q → l.dropLast <+: m
  | [], q, l, m, hp, hq, h => by cases hp; exact List.nil_prefix
  | [x], q, l, m, hp, hq, h => by
    obtain ⟨u, _, hp⟩ := Res.bind_eq_ok.1 hp
    obtain ⟨v, hv, hp⟩ := Res.bind_eq_ok.1 hp
    cases hv
    cases hp
    exact List.nil_prefix
  | x :: y :: p, [], l, m, hp, hq, h => by
    rw [List.dropLast_cons_cons, List.prefix_nil] at h
    cases h
  | x :: y :: p, z :: q, l, m, hp, hq, h => by
    rw [List.dropLast_cons_cons, List.cons_prefix_cons] at h
    obtain ⟨rfl, h⟩ := h
    obtain ⟨u, hu, hp⟩ := Res.bind_eq_ok.1 hp
    obtain ⟨l', hl, hp⟩ := Res.bind_eq_ok.1 hp
    obtain ⟨v, hv, hq⟩ := Res.bind_eq_ok.1 hq
    obtain ⟨m', hm, hq⟩ := Res.bind_eq_ok.1 hq
    cases hp
    cases hq
    have ih := cut_slices a b (y :: p) q l' m' hl hm h
    have huv : u = v := by
      unfold slice at hu hv
      split at hu
      · rename_i hc
        cases hu
        rw [if_pos ⟨hc.1, by rw [List.length_append]; omega⟩] at hv
        cases hv
        rw [List.drop_append_of_le_length (by omega), List.take_append_of_le_length (by rw [List.length_drop]; omega)]
      · cases hu
    subst huv
    cases l' with
    | nil => exact List.nil_prefix
    | cons w l' =>
      rw [List.dropLast_cons_cons]
      exact (List.prefix_cons_inj _).2 ih

theorem cut_delimiter (a b : Bytes) (n m : Nat) (h1 : H264.initialDelimiter a = .ok n) (h2 : H264.initialDelimiter (a ++ b) = .ok m) : n = m := by
  unfold H264.initialDelimiter at h1 h2
  match a, h1, h2 with
  | [], h1, _ => cases h1
  | [x], h1, _ => simp at h1
  | [x, y], h1, _ => simp at h1
  | [x, y, z], h1, h2 =>
    cases b with
    | nil => rw [List.append_nil] at h2; rw [h1] at h2; cases h2; rfl
    | cons w b =>
      simp only [List.cons_append, List.nil_append, List.isPrefixOf, Bool.and_eq_true, beq_iff_eq, Bool.and_false, Bool.and_true,
        Bool.false_eq_true, if_false] at h1 h2
      split at h1
      · rename_i hc
        cases h1
        split at h2
        · rename_i hd
          exact absurd (hc.2.2.trans hd.2.2.1.symm) (by decide)
        · cases h2
          rfl
      · cases h1
  | x :: y :: z :: w :: a, h1, h2 =>
    simp only [List.cons_append, List.isPrefixOf] at h1 h2
    exact Res.ok.inj (h1.symm.trans h2)

/-- **C113, Annex B, in part.** Units before the last one of a stream that was cut are those of the whole stream, in the same order. Missing: the
last one, that may be cut or have zeros at its end that it did not have. -/
theorem C113_annexb_partial (a b : Bytes) (l m : List Bytes) (h1 : H264.annexbUnmarshal a = .ok l) (h2 : H264.annexbUnmarshal (a ++ b) = .ok m) :
    l.dropLast <+: m := by
  obtain ⟨n, hn, h1⟩ := Res.bind_eq_ok.1 h1
  obtain ⟨n', hn', h2⟩ := Res.bind_eq_ok.1 h2
  cases cut_delimiter a b n n' hn hn'
  split at h1
  · cases h1
  split at h2
  · cases h2
  obtain ⟨p, hp, h1⟩ := Res.bind_eq_ok.1 h1
  obtain ⟨q, hq, h2⟩ := Res.bind_eq_ok.1 h2
  split at h1
  · cases h1
  split at h1
  · cases h1
  split at h2
  · cases h2
  split at h2
  · cases h2
  exact cut_slices a b p q l m h1 h2 (cut_positions a b _ _ _ _ _ (Nat.le_refl _) hp hq)

/-- A stream of three units, cut in the last one. -/
example : H264.annexbUnmarshal ([0, 0, 1, 5, 0, 0, 0, 1, 6, 0, 0, 1, 7] ++ [8]) = .ok [[5], [6], [7, 8]] ∧
    H264.annexbUnmarshal [0, 0, 1, 5, 0, 0, 0, 1, 6, 0, 0, 1, 7] = .ok [[5], [6], [7]] := by decide +kernel

/-- **C113 is false**: it holds of ADTS, AudioSyncStream and AV1 (`C113_adts`, `C113_sync`, `C113_av1`), of AVCC within its limits
(`C113_avcc_joins`, `C113_avcc_cuts`), and not of Annex B. -/
theorem C113_false : ¬ (Joins H264.annexbUnmarshal ∧ Cuts H264.annexbUnmarshal ∧ Joins H264.avccUnmarshal ∧ Cuts H264.avccUnmarshal) :=
  fun h => C113_annexb_joins_false h.1

end Verif.Props
