import Verif.Props.FMP4RoundTrip

/-!
# C114: a stream of fMP4 parts that is cut gives no damaged parts
-/

namespace Verif.Props
open Verif.FMP4

/-! ## Boxes that are read from a part of the file -/

theorem trunc_takeBE {k : Nat} {x r : Bytes} {v : Nat} (y : Bytes) (h : takeBE k x = .ok (v, r)) : takeBE k (x ++ y) = .ok (v, r ++ y) := by
  unfold takeBE at h ⊢
  split at h
  · cases h
  · rename_i hl
    simp only [Res.ok.injEq, Prod.mk.injEq] at h
    obtain ⟨rfl, rfl⟩ := h
    rw [if_neg (by rw [List.length_append]; omega), List.take_append_of_le_length (by omega), List.drop_append_of_le_length (by omega)]

theorem trunc_takeOpt {c : Bool} {x r : Bytes} {v : Nat} (y : Bytes) (h : takeOpt c x = .ok (v, r)) : takeOpt c (x ++ y) = .ok (v, r ++ y) := by
  unfold takeOpt at h ⊢
  cases c with
  | true => exact trunc_takeBE y h
  | false => cases h; rfl

theorem trunc_takeFull {x r : Bytes} {v f : Nat} (y : Bytes) (h : takeFull x = .ok (v, f, r)) : takeFull (x ++ y) = .ok (v, f, r ++ y) := by
  unfold takeFull at h ⊢
  obtain ⟨⟨v1, x1⟩, h1, h⟩ := Res.bind_eq_ok.1 h
  obtain ⟨⟨v2, x2⟩, h2, h⟩ := Res.bind_eq_ok.1 h
  cases h
  rw [trunc_takeBE y h1, Res.bind_ok]
  dsimp only
  rw [trunc_takeBE y h2, Res.bind_ok]

theorem trunc_mfhd {x : Bytes} {v : Nat} (y : Bytes) (h : decodeMfhd x = .ok v) : decodeMfhd (x ++ y) = .ok v := by
  unfold decodeMfhd at h ⊢
  obtain ⟨⟨v1, f1, x1⟩, h1, h⟩ := Res.bind_eq_ok.1 h
  obtain ⟨⟨v2, x2⟩, h2, h⟩ := Res.bind_eq_ok.1 h
  cases h
  rw [trunc_takeFull y h1, Res.bind_ok]
  dsimp only
  rw [trunc_takeBE y h2, Res.bind_ok]

theorem trunc_tfdt {x : Bytes} {v : Nat} (y : Bytes) (h : decodeTfdt x = .ok v) : decodeTfdt (x ++ y) = .ok v := by
  unfold decodeTfdt at h ⊢
  obtain ⟨⟨v1, f1, x1⟩, h1, h⟩ := Res.bind_eq_ok.1 h
  obtain ⟨⟨v2, x2⟩, h2, h⟩ := Res.bind_eq_ok.1 h
  cases h
  rw [trunc_takeFull y h1, Res.bind_ok]
  dsimp only at h2 ⊢
  rw [trunc_takeBE y h2, Res.bind_ok]

theorem trunc_tfhd {x : Bytes} {v : Tfhd} (y : Bytes) (h : decodeTfhd x = .ok v) : decodeTfhd (x ++ y) = .ok v := by
  unfold decodeTfhd at h ⊢
  obtain ⟨⟨v1, f1, x1⟩, h1, h⟩ := Res.bind_eq_ok.1 h
  obtain ⟨⟨v2, x2⟩, h2, h⟩ := Res.bind_eq_ok.1 h
  obtain ⟨⟨v3, x3⟩, h3, h⟩ := Res.bind_eq_ok.1 h
  obtain ⟨⟨v4, x4⟩, h4, h⟩ := Res.bind_eq_ok.1 h
  obtain ⟨⟨v5, x5⟩, h5, h⟩ := Res.bind_eq_ok.1 h
  obtain ⟨⟨v6, x6⟩, h6, h⟩ := Res.bind_eq_ok.1 h
  obtain ⟨⟨v7, x7⟩, h7, h⟩ := Res.bind_eq_ok.1 h
  cases h
  rw [trunc_takeFull y h1, Res.bind_ok]
  dsimp only at h2 h3 h4 h5 h6 h7 ⊢
  rw [trunc_takeBE y h2, Res.bind_ok]
  dsimp only
  rw [trunc_takeBE y h3, Res.bind_ok]
  dsimp only
  rw [trunc_takeOpt y h4, Res.bind_ok]
  dsimp only
  rw [trunc_takeOpt y h5, Res.bind_ok]
  dsimp only
  rw [trunc_takeOpt y h6, Res.bind_ok]
  dsimp only
  rw [trunc_takeOpt y h7, Res.bind_ok]

theorem trunc_entries (flags : Nat) (y : Bytes) : ∀ (n : Nat) (x : Bytes) (l : List TrunEntry), decodeEntries flags n x = .ok l →
    decodeEntries flags n (x ++ y) = .ok l
  | 0, x, l, h => h
  | n + 1, x, l, h => by
    unfold decodeEntries at h ⊢
    obtain ⟨⟨v1, x1⟩, h1, h⟩ := Res.bind_eq_ok.1 h
    obtain ⟨⟨v2, x2⟩, h2, h⟩ := Res.bind_eq_ok.1 h
    obtain ⟨⟨v3, x3⟩, h3, h⟩ := Res.bind_eq_ok.1 h
    obtain ⟨⟨v4, x4⟩, h4, h⟩ := Res.bind_eq_ok.1 h
    obtain ⟨l', h5, h⟩ := Res.bind_eq_ok.1 h
    cases h
    rw [trunc_takeOpt y h1, Res.bind_ok]
    dsimp only
    rw [trunc_takeOpt y h2, Res.bind_ok]
    dsimp only
    rw [trunc_takeOpt y h3, Res.bind_ok]
    dsimp only
    rw [trunc_takeOpt y h4, Res.bind_ok]
    dsimp only
    rw [trunc_entries flags y n x4 l' h5, Res.bind_ok]

theorem trunc_trun {x : Bytes} {v : Trun} (y : Bytes) (h : decodeTrun x = .ok v) : decodeTrun (x ++ y) = .ok v := by
  unfold decodeTrun at h ⊢
  obtain ⟨⟨v1, f1, x1⟩, h1, h⟩ := Res.bind_eq_ok.1 h
  obtain ⟨⟨v2, x2⟩, h2, h⟩ := Res.bind_eq_ok.1 h
  obtain ⟨⟨v3, x3⟩, h3, h⟩ := Res.bind_eq_ok.1 h
  obtain ⟨⟨v4, x4⟩, h4, h⟩ := Res.bind_eq_ok.1 h
  obtain ⟨l, h5, h⟩ := Res.bind_eq_ok.1 h
  cases h
  rw [trunc_takeFull y h1, Res.bind_ok]
  dsimp only
  rw [trunc_takeBE y h2, Res.bind_ok]
  dsimp only
  rw [trunc_takeOpt y h3, Res.bind_ok]
  dsimp only
  rw [trunc_takeOpt y h4, Res.bind_ok]
  dsimp only
  rw [trunc_entries _ y _ _ _ h5, Res.bind_ok]

/-- Samples whose payloads are there are the same when more data follows. -/
theorem trunc_samples (t : Trun) (tf : Tfhd) (y : Bytes) : ∀ (l : List TrunEntry) (x : Bytes) (s : List Sample), readEntries t tf l x = .ok s →
    readEntries t tf l (x ++ y) = .ok s
  | [], x, s, h => h
  | e :: l, x, s, h => by
    unfold readEntries at h ⊢
    dsimp only at h ⊢
    generalize (if hasFlag t.flags 0x200 then e.size else tf.defaultSize) = size at h ⊢
    split at h
    · cases h
    · rename_i hl
      rw [slice_ok (Nat.zero_le _) (by omega), Res.bind_ok, sliceFrom_ok (by omega), Res.bind_ok] at h
      obtain ⟨s', h1, h⟩ := Res.bind_eq_ok.1 h
      cases h
      rw [if_neg (by rw [List.length_append]; omega), slice_ok (Nat.zero_le _) (by rw [List.length_append]; omega), Res.bind_ok,
        sliceFrom_ok (by rw [List.length_append]; omega), Res.bind_ok, List.drop_append_of_le_length (by omega), trunc_samples t tf y l _ s' h1, Res.bind_ok,
        List.drop_zero, List.drop_zero, Nat.sub_zero, List.take_append_of_le_length (by omega)]

/-- Headers of boxes: they are the same, except for the size of a box that goes to the end of the file. -/
theorem trunc_info {a : Bytes} {pos : Nat} {bi : BoxInfo} (b : Bytes) (h : readBoxInfo a pos = .ok (some bi)) :
    bi.offset = pos ∧ pos ≤ a.length ∧ ∃ size, readBoxInfo (a ++ b) pos = .ok (some { bi with size := size }) ∧
      (size = bi.size ∨ pos + bi.size = a.length ∧ size = bi.size + b.length) := by
  unfold readBoxInfo at h ⊢
  split at h
  · cases h
  rename_i hl
  have hl' := hl
  rw [List.length_drop] at hl'
  have hp : pos ≤ a.length := by omega
  have hd : (a ++ b).drop pos = a.drop pos ++ b := List.drop_append_of_le_length hp
  rw [hd, if_neg (by rw [List.length_append]; omega)]
  obtain ⟨⟨v, rest⟩, h1, h⟩ := Res.bind_eq_ok.1 h
  rw [trunc_takeBE b h1, Res.bind_ok]
  have hr : 4 ≤ rest.length := by
    unfold takeBE at h1
    rw [if_neg (by omega)] at h1
    cases h1
    rw [List.length_drop]
    omega
  dsimp only at h ⊢
  rw [List.take_append_of_le_length hr]
  by_cases h0 : v = 0
  · rw [if_pos h0] at h ⊢
    cases h
    exact ⟨rfl, hp, _, rfl, .inr ⟨by dsimp only; omega, by dsimp only; rw [List.length_append]; omega⟩⟩
  · rw [if_neg h0] at h ⊢
    by_cases h1 : v = 1
    · rw [if_pos h1] at h ⊢
      split at h
      · cases h
      rename_i h16
      obtain ⟨⟨g, q⟩, h2, h⟩ := Res.bind_eq_ok.1 h
      dsimp only at h
      rw [if_neg (by rw [List.length_append]; omega), List.drop_append_of_le_length hr, trunc_takeBE b h2, Res.bind_ok]
      dsimp only
      split at h
      · cases h
      · rename_i hg
        cases h
        rw [if_neg hg]
        exact ⟨rfl, hp, _, rfl, .inl rfl⟩
    · rw [if_neg h1] at h ⊢
      split at h
      · cases h
      · rename_i hg
        cases h
        rw [if_neg hg]
        exact ⟨rfl, hp, _, rfl, .inl rfl⟩

theorem trunc_payload (a b : Bytes) (bi : BoxInfo) (size : Nat) (h : bi.size ≤ size) :
    ∃ q, ({ bi with size := size } : BoxInfo).payload (a ++ b) = bi.payload a ++ q := by
  unfold BoxInfo.payload
  dsimp only
  rw [List.drop_append]
  have : (a.drop (bi.offset + bi.headerSize)).take (bi.size - bi.headerSize) <+:
      (a.drop (bi.offset + bi.headerSize) ++ b.drop (bi.offset + bi.headerSize - a.length)).take (size - bi.headerSize) := by
    rw [List.prefix_take_iff]
    exact ⟨(List.take_prefix _ _).trans (List.prefix_append _ _), by rw [List.length_take]; omega⟩
  obtain ⟨q, hq⟩ := this
  exact ⟨q, hq.symm⟩

theorem trunc_readTrun (a b : Bytes) (bi : BoxInfo) (size : Nat) (hs : bi.size ≤ size) (r r1 r2 : Reader) (h1 : readTrun a bi r = .ok r1)
    (h2 : readTrun (a ++ b) { bi with size := size } r = .ok r2) : r1 = r2 := by
  unfold readTrun at h1 h2
  cases ht : r.tfhd with
  | none => rw [ht] at h1; cases h1
  | some tf =>
    rw [ht] at h1 h2
    dsimp only at h1 h2
    split at h1
    · cases h1
    rename_i hst
    rw [if_neg hst] at h2
    obtain ⟨raw, _, h1⟩ := Res.bind_eq_ok.1 h1
    obtain ⟨count, _, h1⟩ := Res.bind_eq_ok.1 h1
    obtain ⟨raw', _, h2⟩ := Res.bind_eq_ok.1 h2
    obtain ⟨count', _, h2⟩ := Res.bind_eq_ok.1 h2
    split at h1
    · cases h1
    split at h2
    · cases h2
    obtain ⟨t, e1, h1⟩ := Res.bind_eq_ok.1 h1
    obtain ⟨q, hq⟩ := trunc_payload a b bi size hs
    rw [hq, trunc_trun q e1, Res.bind_ok] at h2
    by_cases hz : t.entries.length ≠ 0
    · rw [if_pos hz] at h1 h2
      split at h1
      · cases h1
      rename_i hf
      rw [if_neg hf] at h2
      generalize ((t.dataOffset % 2 ^ 64).toNat + r.moofOffset) % 2 ^ 64 = pos at h1 h2
      split at h1
      · cases h1
      rename_i hp
      rw [if_neg (by rw [List.length_append]; omega), sliceFrom_ok (by rw [List.length_append]; omega), Res.bind_ok,
        List.drop_append_of_le_length (by omega)] at h2
      rw [sliceFrom_ok (by omega), Res.bind_ok] at h1
      obtain ⟨s, e2, h1⟩ := Res.bind_eq_ok.1 h1
      rw [trunc_samples t tf b _ _ s e2, Res.bind_ok, h1] at h2
      exact Res.ok.inj h2
    · rw [if_neg hz] at h1 h2
      cases h1
      cases h2
      rfl

/-- A box that is read from a part of the file and from the whole file. -/
theorem trunc_handle (a b : Bytes) (bi : BoxInfo) (size : Nat) (hs : bi.size ≤ size) (ex ex' : Reader → Res Reader) (Q : Reader → Reader → Prop)
    (hq : ∀ r, Q r r) (hex : ∀ r r1 r2, ex r = .ok r1 → ex' r = .ok r2 → Q r1 r2) (r r1 r2 : Reader) (h1 : handle a bi ex r = .ok r1)
    (h2 : handle (a ++ b) { bi with size := size } ex' r = .ok r2) : Q r1 r2 := by
  obtain ⟨q, hp⟩ := trunc_payload a b bi size hs
  unfold handle at h1 h2
  rw [hp] at h2
  dsimp only at h2
  by_cases c1 : bi.typ = typMoof
  · rw [if_pos c1] at h1 h2
    split at h1
    · cases h1
    rename_i hst
    rw [if_neg hst] at h2
    exact hex _ _ _ h1 h2
  rw [if_neg c1] at h1 h2
  by_cases c2 : bi.typ = typMfhd
  · rw [if_pos c2] at h1 h2
    split at h1
    · cases h1
    rename_i hst
    rw [if_neg hst] at h2
    obtain ⟨v, e, h1⟩ := Res.bind_eq_ok.1 h1
    rw [trunc_mfhd q e, Res.bind_ok, h1] at h2
    cases h2
    exact hq _
  rw [if_neg c2] at h1 h2
  by_cases c3 : bi.typ = typTraf
  · rw [if_pos c3] at h1 h2
    split at h1
    · cases h1
    rename_i hst
    rw [if_neg hst] at h2
    split at h1
    · cases h1
    rename_i hin
    rw [if_neg hin] at h2
    obtain ⟨r', e, h1⟩ := Res.bind_eq_ok.1 h1
    rw [e, Res.bind_ok] at h2
    exact hex _ _ _ h1 h2
  rw [if_neg c3] at h1 h2
  by_cases c4 : bi.typ = typTfhd
  · rw [if_pos c4] at h1 h2
    split at h1
    · cases h1
    rename_i hst
    rw [if_neg hst] at h2
    obtain ⟨v, e, h1⟩ := Res.bind_eq_ok.1 h1
    rw [trunc_tfhd q e, Res.bind_ok, h1] at h2
    cases h2
    exact hq _
  rw [if_neg c4] at h1 h2
  by_cases c5 : bi.typ = typTfdt
  · rw [if_pos c5] at h1 h2
    split at h1
    · cases h1
    rename_i hst
    rw [if_neg hst] at h2
    obtain ⟨v, e, h1⟩ := Res.bind_eq_ok.1 h1
    rw [trunc_tfdt q e, Res.bind_ok, h1] at h2
    cases h2
    exact hq _
  rw [if_neg c5] at h1 h2
  by_cases c6 : bi.typ = typTrun
  · rw [if_pos c6] at h1 h2
    rw [trunc_readTrun a b bi size hs r r1 r2 h1 h2]
    exact hq _
  rw [if_neg c6] at h1 h2
  rw [h1] at h2
  cases h2
  exact hq _

/-! ## Parts that are complete do not change -/

/-- The first parts are those of `l`, and the part that is being read is not one of them. -/
def Frozen (l : List Part) (r : Reader) : Prop := l <+: r.parts ∧ (r.state ≠ .waitingMoof → l.length < r.parts.length)

theorem trunc_init {l m : List Part} {p q : Part} (h : l <+: m ++ [p]) (hl : l.length < (m ++ [p]).length) : l <+: m ++ [q] := by
  rw [List.length_append, List.length_singleton] at hl
  exact (List.prefix_of_prefix_length_le h (List.prefix_append m [p]) (by omega)).trans (List.prefix_append _ _)

theorem trunc_onPart {r r' : Reader} {g : Part → Part} {l : List Part} (h : r.onPart g = .ok r') (hf : l <+: r.parts) (hl : l.length < r.parts.length) :
    l <+: r'.parts ∧ l.length < r'.parts.length := by
  have hne : r.parts ≠ [] := by rintro e; rw [e] at hl; cases hl
  obtain ⟨m, p, e, e'⟩ := fmp4_onPart r g hne
  rw [e'] at h
  cases h
  dsimp only
  rw [e] at hf hl
  exact ⟨trunc_init hf hl, by simpa using hl⟩

theorem trunc_onTrack {r r' : Reader} {g : PartTrack → PartTrack} {l : List Part} (h : r.onTrack g = .ok r') (hf : l <+: r.parts)
    (hl : l.length < r.parts.length) : l <+: r'.parts ∧ l.length < r'.parts.length ∧ r'.state = r.state := by
  have hne : r.parts ≠ [] := by rintro e; rw [e] at hl; cases hl
  obtain ⟨m, p, e⟩ : ∃ m p, r.parts = m ++ [p] := ⟨_, _, (List.dropLast_concat_getLast hne).symm⟩
  by_cases ht : p.tracks = []
  · unfold Reader.onTrack at h
    rw [e, List.reverse_append] at h
    simp [ht] at h
  · obtain ⟨ts, t, _, e'⟩ := fmp4_onTrack r g m p e ht
    rw [e'] at h
    cases h
    dsimp only
    rw [e] at hf hl
    exact ⟨trunc_init hf hl, by simpa using hl, rfl⟩

theorem trunc_frozen_handle (l : List Part) (b : Bytes) (bi : BoxInfo) (ex : Reader → Res Reader) (hex : ∀ r r', Frozen l r → ex r = .ok r' → Frozen l r')
    (r r' : Reader) (hf : Frozen l r) (h : handle b bi ex r = .ok r') : Frozen l r' := by
  unfold handle at h
  split at h
  · split at h
    · cases h
    refine hex _ _ ⟨hf.1.trans (List.prefix_append _ _), fun _ => ?_⟩ h
    have := hf.1.length_le
    dsimp only
    rw [List.length_append, List.length_singleton]
    omega
  split at h
  · split at h
    · cases h
    rename_i hst
    have hst : r.state = .waitingMfhd := Decidable.not_not.1 hst
    obtain ⟨v, _, h⟩ := Res.bind_eq_ok.1 h
    obtain ⟨r1, e, h⟩ := Res.bind_eq_ok.1 h
    cases h
    obtain ⟨g1, g2⟩ := trunc_onPart e hf.1 (hf.2 (by rw [hst]; decide))
    exact ⟨g1, fun _ => g2⟩
  split at h
  · split at h
    · cases h
    rename_i hst
    split at h
    · cases h
    obtain ⟨r1, e, h⟩ := Res.bind_eq_ok.1 h
    have hw : r.state ≠ .waitingMoof := by
      intro e
      rw [e] at hst
      exact hst ⟨by decide, by decide⟩
    obtain ⟨g1, g2⟩ := trunc_onPart e hf.1 (hf.2 hw)
    refine hex _ _ ?_ h
    exact ⟨g1, fun _ => g2⟩
  split at h
  · split at h
    · cases h
    rename_i hst
    have hw : r.state ≠ .waitingMoof := by
      intro e
      rw [e] at hst
      exact hst (.inl (by decide))
    obtain ⟨v, _, h⟩ := Res.bind_eq_ok.1 h
    obtain ⟨r1, e, h⟩ := Res.bind_eq_ok.1 h
    cases h
    obtain ⟨g1, g2, _⟩ := trunc_onTrack e hf.1 (hf.2 hw)
    exact ⟨g1, fun _ => g2⟩
  split at h
  · split at h
    · cases h
    rename_i hst
    have hw : r.state ≠ .waitingMoof := by
      intro e
      rw [e] at hst
      exact hst (.inl (by decide))
    obtain ⟨v, _, h⟩ := Res.bind_eq_ok.1 h
    obtain ⟨r1, e, h⟩ := Res.bind_eq_ok.1 h
    cases h
    obtain ⟨g1, g2, _⟩ := trunc_onTrack e hf.1 (hf.2 hw)
    exact ⟨g1, fun _ => g2⟩
  split at h
  · unfold readTrun at h
    split at h
    · cases h
    split at h
    · cases h
    rename_i hst
    have hst : r.state = .waitingBoxes := Decidable.not_not.1 hst
    obtain ⟨raw, _, h⟩ := Res.bind_eq_ok.1 h
    obtain ⟨count, _, h⟩ := Res.bind_eq_ok.1 h
    split at h
    · cases h
    obtain ⟨t, _, h⟩ := Res.bind_eq_ok.1 h
    split at h
    · split at h
      · cases h
      dsimp only at h
      split at h
      · cases h
      obtain ⟨ptr, _, h⟩ := Res.bind_eq_ok.1 h
      obtain ⟨s, _, h⟩ := Res.bind_eq_ok.1 h
      obtain ⟨g1, g2, _⟩ := trunc_onTrack h hf.1 (hf.2 (by rw [hst]; decide))
      exact ⟨g1, fun _ => g2⟩
    · cases h
      exact hf
  split at h
  · split at h
    · cases h
    split at h
    · cases h
    cases h
    exact ⟨hf.1, fun h => absurd rfl h⟩
  · cases h
    exact hf

theorem trunc_frozen (l : List Part) (b : Bytes) : ∀ (n pos : Nat) (left : Option Nat) (r r' : Reader), Frozen l r → readLevel n b pos left r = .ok r' →
    Frozen l r' := by
  intro n
  induction n with
  | zero => intro pos left r r' _ h; cases h
  | succ n ih =>
    intro pos left r r' hf h
    unfold readLevel at h
    split at h
    · split at h
      · cases h; exact hf
      · cases h
    obtain ⟨o, _, h⟩ := Res.bind_eq_ok.1 h
    cases o with
    | none =>
      dsimp only at h
      split at h
      · cases h; exact hf
      · cases h
    | some bi =>
      dsimp only at h
      split at h
      · cases h
      obtain ⟨r1, e, h⟩ := Res.bind_eq_ok.1 h
      exact ih _ _ _ _ (trunc_frozen_handle l b bi _ (fun r r' hf h => ih _ _ _ _ hf h) r r1 hf e) h

/-! ## Reading a part of the file, and the whole file -/

/-- Nothing is read at the end of the file. -/
theorem trunc_at_end (a : Bytes) (n pos : Nat) (left : Option Nat) (r r' : Reader) (hp : a.length ≤ pos) (h : readLevel n a pos left r = .ok r') :
    r' = r ∧ (left = none ∨ left = some 0) := by
  cases n with
  | zero => cases h
  | succ n =>
    unfold readLevel at h
    split at h
    · split at h
      · rename_i h0
        cases h
        exact ⟨rfl, .inr h0⟩
      · cases h
    unfold readBoxInfo at h
    rw [if_pos (by rw [List.length_drop]; omega), Res.bind_ok] at h
    dsimp only at h
    split at h
    · rename_i h0
      cases h
      exact ⟨rfl, .inl (Option.isNone_iff_eq_none.1 h0)⟩
    · cases h

/-- A box with a size gives the same, when its content can be read from a part of the file. -/
theorem trunc_closed (a b : Bytes) (hb : b ≠ []) : ∀ (n n' pos k : Nat) (r ra rw : Reader), readLevel n a pos (some k) r = .ok ra →
    readLevel n' (a ++ b) pos (some k) r = .ok rw → ra = rw := by
  intro n
  induction n with
  | zero => intro n' pos k r ra rw h1 _; cases h1
  | succ n ih =>
    intro n' pos k r ra rw h1 h2
    cases n' with
    | zero => cases h2
    | succ n' =>
      unfold readLevel at h1 h2
      split at h1
      · rename_i hc
        rw [if_pos hc] at h2
        split at h1
        · rename_i h0
          rw [if_pos h0] at h2
          cases h1
          cases h2
          rfl
        · cases h1
      rename_i hc
      rw [if_neg hc] at h2
      obtain ⟨o, e1, h1⟩ := Res.bind_eq_ok.1 h1
      cases o with
      | none => cases h1
      | some bi =>
        obtain ⟨ho, hpa, size, e2, hs⟩ := trunc_info b e1
        rw [e2, Res.bind_ok] at h2
        dsimp only at h1 h2
        split at h1
        · cases h1
        rename_i hk
        split at h2
        · cases h2
        rename_i hk'
        obtain ⟨r1, g1, h1⟩ := Res.bind_eq_ok.1 h1
        obtain ⟨r2, g2, h2⟩ := Res.bind_eq_ok.1 h2
        have hb' : 0 < b.length := List.length_pos_iff.2 hb
        have hsz : size = bi.size := by
          rcases hs with h | ⟨h3, h4⟩
          · exact h
          · exfalso
            obtain ⟨_, h5 | h5⟩ := trunc_at_end a n _ _ _ _ (by rw [ho]; omega) h1
            · cases h5
            · simp only [Option.map_some, Option.some.injEq] at h5
              simp only [Option.any_some, decide_eq_true_eq] at hk hk'
              omega
        subst hsz
        have e := trunc_handle a b bi bi.size (Nat.le_refl _) _ _ (· = ·) (fun _ => rfl) (fun r r1 r2 => ih _ _ _ _ _ _) r r1 r2 g1 g2
        subst e
        exact ih _ _ _ _ _ _ h1 h2

/-- Levels that go to the end of the file. -/
def Open (a b : Bytes) (pos : Nat) (left left' : Option Nat) : Prop :=
  (left = none ∧ left' = none) ∨ ∃ k, left = some k ∧ pos + k = a.length ∧ left' = some (k + b.length)

theorem trunc_open (a b : Bytes) (hb : b ≠ []) : ∀ (n n' pos : Nat) (left left' : Option Nat) (r ra rw : Reader), Open a b pos left left' →
    readLevel n a pos left r = .ok ra → readLevel n' (a ++ b) pos left' r = .ok rw → ra.state = .waitingMoof → Frozen ra.parts rw := by
  intro n
  induction n with
  | zero => intro n' pos left left' r ra rw _ h1; cases h1
  | succ n ih =>
    intro n' pos left left' r ra rw hop h1 h2 hst
    have stop : r = ra → Frozen ra.parts rw := by
      rintro rfl
      exact trunc_frozen _ _ _ _ _ _ _ ⟨List.prefix_refl _, fun h => absurd hst h⟩ h2
    cases n' with
    | zero => cases h2
    | succ n' =>
      unfold readLevel at h1
      split at h1
      · split at h1
        · cases h1
          exact stop rfl
        · cases h1
      rename_i hc
      obtain ⟨o, e1, h1⟩ := Res.bind_eq_ok.1 h1
      cases o with
      | none =>
        dsimp only at h1
        split at h1
        · cases h1
          exact stop rfl
        · cases h1
      | some bi =>
        obtain ⟨ho, hpa, size, e2, hs⟩ := trunc_info b e1
        unfold readLevel at h2
        rw [if_neg (by
          rcases hop with ⟨rfl, rfl⟩ | ⟨k, rfl, h3, rfl⟩
          · exact hc
          · simp only [Option.any_some, decide_eq_true_eq] at hc ⊢
            omega), e2, Res.bind_ok] at h2
        dsimp only at h1 h2
        split at h1
        · cases h1
        rename_i hk
        split at h2
        · cases h2
        obtain ⟨r1, g1, h1⟩ := Res.bind_eq_ok.1 h1
        obtain ⟨r2, g2, h2⟩ := Res.bind_eq_ok.1 h2
        by_cases hsz : size = bi.size
        · subst hsz
          have e := trunc_handle a b bi bi.size (Nat.le_refl _) _ _ (· = ·) (fun _ => rfl) (fun r r1 r2 => trunc_closed a b hb _ _ _ _ _ _ _) r r1 r2 g1 g2
          subst e
          refine ih _ _ _ _ _ _ _ ?_ h1 h2 hst
          rcases hop with ⟨rfl, rfl⟩ | ⟨k, rfl, h3, rfl⟩
          · exact .inl ⟨rfl, rfl⟩
          · simp only [Option.any_some, decide_eq_true_eq] at hk
            refine .inr ⟨k - bi.size, rfl, by rw [ho]; omega, ?_⟩
            rw [Option.map_some]
            congr 1
            omega
        · obtain ⟨h3, h4⟩ := hs.resolve_left hsz
          obtain ⟨h5, _⟩ := trunc_at_end a n _ _ _ _ (by rw [ho]; omega) h1
          subst h5
          have hh : bi.headerSize ≤ bi.size := by
            unfold readBoxInfo at e1
            split at e1
            · cases e1
            rename_i hl
            rw [List.length_drop] at hl
            obtain ⟨⟨v, rest⟩, _, e1⟩ := Res.bind_eq_ok.1 e1
            dsimp only at e1
            split at e1
            · cases e1; dsimp only; omega
            split at e1
            · split at e1
              · cases e1
              obtain ⟨⟨g, q⟩, _, e1⟩ := Res.bind_eq_ok.1 e1
              dsimp only at e1
              split at e1
              · cases e1
              · cases e1; dsimp only; omega
            split at e1
            · cases e1
            · cases e1; dsimp only; omega
          have e := trunc_handle a b bi size (by omega) _ _ (fun r1 r2 => r1.state = .waitingMoof → Frozen r1.parts r2)
            (fun r h => ⟨List.prefix_refl _, fun h' => absurd h h'⟩)
            (fun r r1 r2 k1 k2 => ih _ _ _ _ _ _ _ (.inr ⟨_, rfl, by rw [ho]; omega, by congr 1; omega⟩) k1 k2) r ra r2 g1 g2
          exact trunc_frozen _ _ _ _ _ _ _ (e hst) h2

/-- **C114.** What is read from the beginning of a stream of parts, if it is not refused, are the first parts of the stream: none of them has lost a
track or a sample, or has a payload that is shorter. -/
theorem C114_cut (a b : Bytes) (l m : List Part) (ha : unmarshal a = .ok l) (hw : unmarshal (a ++ b) = .ok m) : l <+: m := by
  by_cases hb : b = []
  · subst hb
    rw [List.append_nil, ha] at hw
    cases hw
    exact List.prefix_refl _
  unfold unmarshal at ha hw
  obtain ⟨ra, h1, ha⟩ := Res.bind_eq_ok.1 ha
  obtain ⟨rw', h2, hw⟩ := Res.bind_eq_ok.1 hw
  split at ha
  · cases ha
  rename_i hst
  split at hw
  · cases hw
  cases ha
  cases hw
  exact (trunc_open a b hb _ _ _ _ _ _ _ _ (.inl ⟨rfl, rfl⟩) h1 h2 (Decidable.not_not.1 hst)).1

/-- **C114, of what is written.** The beginning of what `Parts.Marshal` writes is refused, or gives the first parts that were given. -/
theorem C114_written (l : List Part) (h : ∀ p ∈ l, FitsPart p) (w : Bytes) (hw : marshalParts l (full []) = .ok (full w)) (hl : w.length < 2 ^ 64) (n : Nat) :
    (∃ e, unmarshal (w.take n) = .err e) ∨ ∃ k, unmarshal (w.take n) = .ok (l.take k) := by
  obtain ⟨w', e, hr⟩ := C68_round_trip l h
  rw [hw] at e
  have e : w = w' := congrArg (·.buf) (Res.ok.inj e)
  subst e
  have hr := hr hl
  cases ha : unmarshal (w.take n) with
  | err e => exact .inl ⟨e, rfl⟩
  | panic => exact absurd ha (C69_unmarshal_never_panics _).1
  | ok l1 =>
    have hp := C114_cut (w.take n) (w.drop n) l1 l ha (by rw [List.take_append_drop]; exact hr)
    exact .inr ⟨l1.length, by rw [← List.prefix_iff_eq_take.1 hp]⟩

/-- Two parts: what is read from the first bytes of what is written. -/
example : let w := [examplePart, emptyPart].flatMap partBytes
    let n := (partBytes examplePart).length
    marshalParts [examplePart, emptyPart] (full []) = .ok (full w) ∧ unmarshal w = .ok [examplePart, emptyPart] ∧
      unmarshal (w.take n) = .ok [examplePart] ∧ unmarshal (w.take (n + 7)) = .ok [examplePart] ∧ unmarshal (w.take (n - 1)) = .err "invalid sample size" ∧
      unmarshal (w.take (n + 8)) = .err "EOF" ∧ unmarshal (w.take (w.length - 1)) = .err "decode error" := by
  decide +kernel

/-- **C114, streams cannot be joined**: up to 7 bytes at the end of a stream are ignored, and they hide the parts that follow. -/
theorem C114_joins_false : unmarshal [0] = .ok [] ∧ unmarshal (partBytes emptyPart) = .ok [emptyPart] ∧ unmarshal ([0] ++ partBytes emptyPart) = .ok [] := by
  decide +kernel

end Verif.Props
