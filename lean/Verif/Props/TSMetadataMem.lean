import Verif.Model.TSMetadataMem
import Verif.Props.TSMetadata

/-!
# C95: unwrapping metadata cells inside of the buffer that is being read
-/

namespace Verif.Props

open Verif.Spec Verif.TSMetadata Verif.ByteR

/-- `p` reads only bytes from its position on, and does not go back. -/
def MemLocal {α} (p : BitM α) : Prop := ∀ d d' n, d.length = d'.length → d.drop n = d'.drop n →
  p d n = p d' n ∧ ∀ a m, p d n = .ok (a, m) → n ≤ m

theorem memlocal_bind {α β} {p : BitM α} {f : α → BitM β} (hp : MemLocal p) (hf : ∀ a, MemLocal (f a)) : MemLocal (p >>= f) := by
  intro d d' n hl h
  obtain ⟨h1, h2⟩ := hp d d' n hl h
  show Res.bind (p d n) _ = Res.bind (p d' n) _ ∧ ∀ a m, Res.bind (p d n) _ = _ → _
  rw [← h1]
  rcases hr : p d n with ⟨a, m⟩ | e | _
  · have hm := h2 a m hr
    have hd : d.drop m = d'.drop m := by
      rw [show m = n + (m - n) by omega, ← List.drop_drop, ← List.drop_drop, h]
    obtain ⟨g1, g2⟩ := hf a d d' m hl hd
    refine ⟨g1, fun b k hk => ?_⟩
    have := g2 b k hk
    omega
  · exact ⟨rfl, fun _ _ h => nomatch h⟩
  · exact ⟨rfl, fun _ _ h => nomatch h⟩

theorem memlocal_pure {α} (a : α) : MemLocal (pure a : BitM α) := by
  intro d d' n _ _
  refine ⟨rfl, fun b m h => ?_⟩
  cases h
  omega

theorem memlocal_need (k : Nat) : MemLocal (need k) := by
  intro d d' n hl h
  unfold need sliceFrom
  rw [h, hl]
  refine ⟨rfl, fun b m h => ?_⟩
  split at h
  · simp only [Res.bind] at h
    split at h
    · cases h
    · cases h; omega
  · cases h

theorem memlocal_byte : MemLocal byte := by
  intro d d' n hl h
  have hi : idx d n = idx d' n := by
    have := congrArg (fun l => l[0]?) h
    simp only [List.getElem?_drop, Nat.add_zero] at this
    simp [idx, this]
  unfold byte
  rw [hi]
  refine ⟨rfl, fun b m h => ?_⟩
  rcases hr : idx d' n with x | e | _
  · rw [hr] at h; cases h; omega
  · rw [hr] at h; cases h
  · rw [hr] at h; cases h

theorem memlocal_take (le : Nat) : MemLocal (take le) := by
  intro d d' n hl h
  unfold take slice
  rw [h, hl]
  refine ⟨rfl, fun b m h => ?_⟩
  split at h
  · cases h; omega
  · cases h

/-- A cell is read from the bytes at its position on. -/
theorem memlocal_cell : MemLocal AUCell.unmarshal := by
  unfold AUCell.unmarshal be16
  exact memlocal_bind (memlocal_need _) fun _ => memlocal_bind memlocal_byte fun _ => memlocal_bind memlocal_byte fun _ =>
    memlocal_bind memlocal_byte fun _ => memlocal_bind (memlocal_bind memlocal_byte fun _ => memlocal_bind memlocal_byte fun _ =>
      memlocal_pure _) fun _ => memlocal_bind (memlocal_need _) fun _ => memlocal_bind (memlocal_take _) fun _ => memlocal_pure _

/-- What a call did to the array: `m` before, `m'` after, `le` the length of `in`. -/
structure MemKept (le : Nat) (m m' : Bytes) : Prop where
  length : m'.length = m.length
  front : m'.take 5 = m.take 5
  back : m'.drop le = m.drop le

theorem overwrite_length (mem src : Bytes) (at' : Nat) (h : at' + src.length ≤ mem.length) :
    (overwrite mem at' src).length = mem.length := by
  simp [overwrite]; omega

theorem overwrite_take (mem src : Bytes) (at' k : Nat) (h : at' + src.length ≤ mem.length) (hk : k ≤ at') :
    (overwrite mem at' src).take k = mem.take k := by
  unfold overwrite
  rw [List.append_assoc, List.take_append_of_le_length (by simp; omega), List.take_take, Nat.min_eq_left hk]

theorem overwrite_drop (mem src : Bytes) (at' k : Nat) (h : at' + src.length ≤ mem.length) (hk : at' + src.length ≤ k) :
    (overwrite mem at' src).drop k = mem.drop k := by
  unfold overwrite
  rw [List.drop_append, List.drop_eq_nil_of_le (by simp; omega), List.nil_append, List.drop_drop]
  congr 1
  simp
  omega

theorem overwrite_out (mem src : Bytes) (s l : Nat) (h : s + l + src.length ≤ mem.length) :
    ((overwrite mem (s + l) src).drop s).take (l + src.length) = (mem.drop s).take l ++ src := by
  unfold overwrite
  rw [List.append_assoc, List.drop_append_of_le_length (by simp; omega), List.drop_take, ← List.append_assoc, Nat.add_sub_cancel_left]
  rw [List.take_append_of_le_length (by simp; omega), List.take_of_length_le (by simp; omega)]

theorem MemKept.refl (le : Nat) (m : Bytes) : MemKept le m m := ⟨rfl, rfl, rfl⟩

theorem MemKept.trans {le : Nat} {a b c : Bytes} (h : MemKept le a b) (g : MemKept le b c) : MemKept le a c :=
  ⟨g.length.trans h.length, g.front.trans h.front, g.back.trans h.back⟩

theorem memcell_end (d : Bytes) (n m : Nat) (c : AUCell) (hn : n ≤ d.length) (h : AUCell.unmarshal d n = .ok (c, m)) :
    m = n + 5 + c.data.length ∧ m ≤ d.length ∧ (d.drop (n + 5)).take c.data.length = c.data := by
  have hp : (d.take n).length = n := by simp; omega
  obtain ⟨-, h2⟩ := C42_cell_sound (d.take n) (d.drop n) (by omega)
  rw [List.take_append_drop, hp] at h2
  obtain ⟨bs, post, hb, hm, hc, r, hr, rfl⟩ := h2 c m h
  rw [cellBytes_length] at hm
  have := congrArg List.length hb
  simp only [List.length_drop, List.length_append, cellBytes_length] at this
  refine ⟨by omega, by omega, ?_⟩
  rw [← List.drop_drop, hb]
  simp [cellBytes, beBytes_length]

theorem readLoopMem_spec (le fuel : Nat) (mem data : Bytes) (n expected l : Nat) (hle : le ≤ mem.length) (hd : data.length = le)
    (hn : n ≤ le) (hl : 5 + l ≤ n) (h : (mem.take le).drop n = data.drop n) :
    MemKept le mem (readLoopMem le fuel mem n expected (.part 5 l)).1 ∧
    Res.bind (readLoopMem le fuel mem n expected (.part 5 l)).2 (fun o => .ok (o.bytes (readLoopMem le fuel mem n expected (.part 5 l)).1)) =
      readLoop fuel data n expected ((mem.drop 5).take l) ∧
    ∀ o, (readLoopMem le fuel mem n expected (.part 5 l)).2 = .ok o → ∃ k, o = .part 5 k ∧ 5 + k ≤ le := by
  induction fuel generalizing mem n expected l with
  | zero => exact ⟨.refl _ _, rfl, fun _ h => nomatch h⟩
  | succ fuel ih =>
    have hlen : (mem.take le).length = data.length := by simp; omega
    have hc := (memlocal_cell _ _ n hlen h).1
    rw [readLoopMem, readLoop, ← hc]
    rcases hr : AUCell.unmarshal (mem.take le) n with ⟨c, m⟩ | e | _
    · obtain ⟨e1, e2, e3⟩ := memcell_end _ n m c (by omega) hr
      rw [Res.bind_ok]
      dsimp only
      by_cases hs : c.sequenceNumber.toNat ≠ expected
      · rw [if_pos hs, if_pos hs]; exact ⟨.refl _ _, rfl, fun _ h => nomatch h⟩
      rw [if_neg hs, if_neg hs]
      have hcap : 5 + l + c.data.length ≤ mem.length := by omega
      have ha : appendTo mem (.part 5 l) c.data = (overwrite mem (5 + l) c.data, .part 5 (l + c.data.length)) := by
        unfold appendTo; exact if_pos hcap
      have hk : MemKept le mem (overwrite mem (5 + l) c.data) := by
        refine ⟨overwrite_length _ _ _ hcap, overwrite_take _ _ _ _ hcap (by omega), overwrite_drop _ _ _ _ hcap (by omega)⟩
      have ho := overwrite_out mem c.data 5 l hcap
      rw [ha]
      dsimp only
      by_cases hf1 : c.fragmentIndication = 0b01
      · rw [if_pos hf1, if_pos hf1, hd]
        by_cases hend : m ≠ le
        · rw [if_pos hend, if_pos hend]; exact ⟨hk, rfl, fun _ h => nomatch h⟩
        · rw [if_neg hend, if_neg hend]
          refine ⟨hk, ?_, ?_⟩
          · dsimp only [Res.bind, Out.bytes]; rw [ho]
          · intro o h; cases h; exact ⟨_, rfl, by omega⟩
      rw [if_neg hf1, if_neg hf1]
      by_cases hf0 : c.fragmentIndication = 0b00
      · rw [if_pos hf0, if_pos hf0, ← ho]
        have hlen' := overwrite_length mem c.data (5 + l) hcap
        have hdr : ((overwrite mem (5 + l) c.data).take le).drop m = data.drop m := by
          rw [List.drop_take, overwrite_drop _ _ _ _ hcap (by omega), ← List.drop_take]
          rw [show m = n + (m - n) by omega, ← List.drop_drop, ← List.drop_drop, h]
        obtain ⟨g1, g2, g3⟩ := ih (overwrite mem (5 + l) c.data) m (expected + 1) (l + c.data.length) (by omega) (by omega) (by omega) hdr
        exact ⟨hk.trans g1, g2, g3⟩
      · rw [if_neg hf0, if_neg hf0]; exact ⟨hk, rfl, fun _ h => nomatch h⟩
    · exact ⟨.refl _ _, rfl, fun _ h => nomatch h⟩
    · exact ⟨.refl _ _, rfl, fun _ h => nomatch h⟩

theorem readWrapperMem_spec (mem : Bytes) (le : Nat) (hle : le ≤ mem.length) :
    MemKept le mem (readWrapperMem le mem).1 ∧
    Res.bind (readWrapperMem le mem).2 (fun o => .ok (o.bytes (readWrapperMem le mem).1)) = readWrapper (mem.take le) ∧
    ∀ o, (readWrapperMem le mem).2 = .ok o → ∃ k, o = .part 5 k ∧ 5 + k ≤ le := by
  have hlen : (mem.take le).length = le := by simp; omega
  rw [readWrapperMem, readWrapper]
  rcases hr : AUCell.unmarshal (mem.take le) 0 with ⟨c, m⟩ | e | _
  · obtain ⟨e1, e2, e3⟩ := memcell_end _ 0 m c (by omega) hr
    have hb : (mem.drop 5).take c.data.length = c.data := by
      rw [Nat.zero_add, List.drop_take, List.take_take, Nat.min_eq_left (by omega)] at e3
      exact e3
    rw [Res.bind_ok]
    dsimp only
    rw [show m - c.data.length = 5 by omega, hlen]
    by_cases hs : c.sequenceNumber.toNat ≠ 0
    · rw [if_pos hs, if_pos hs]; exact ⟨.refl _ _, rfl, fun _ h => nomatch h⟩
    rw [if_neg hs, if_neg hs]
    by_cases hf1 : c.fragmentIndication = 0b11
    · rw [if_pos hf1, if_pos hf1]
      by_cases hend : m ≠ le
      · rw [if_pos hend, if_pos hend]; exact ⟨.refl _ _, rfl, fun _ h => nomatch h⟩
      · rw [if_neg hend, if_neg hend]
        refine ⟨.refl _ _, ?_, ?_⟩
        · dsimp only [Res.bind, Out.bytes]; rw [hb]
        · intro o h; cases h; exact ⟨_, rfl, by omega⟩
    rw [if_neg hf1, if_neg hf1]
    by_cases hf0 : c.fragmentIndication = 0b10
    · rw [if_pos hf0, if_pos hf0]
      have := readLoopMem_spec le (le + 1) mem (mem.take le) m 1 c.data.length hle hlen (by omega) (by omega) rfl
      rw [hb] at this
      exact this
    · rw [if_neg hf0, if_neg hf0]; exact ⟨.refl _ _, rfl, fun _ h => nomatch h⟩
  · exact ⟨.refl _ _, rfl, fun _ h => nomatch h⟩
  · exact ⟨.refl _ _, rfl, fun _ h => nomatch h⟩

/-- C95: for every sequence of cells, in an array of any capacity: the reader returns a part of the array it was given, and, although it
has written over cells that it had not read yet when the part was taken, the part holds the payload of the cells as they were. The array
is changed only between the header of the first cell and the end of the buffer. -/
theorem C95_cells (l : List (AUCell × Nat)) (extra : Bytes) (hne : l ≠ []) (h : CellsFrom 0 l) :
    ∃ k m', readWrapperMem (wrapped l).length (wrapped l ++ extra) = (m', .ok (.part 5 k)) ∧ (m'.drop 5).take k = payload l ∧
      m'.length = (wrapped l ++ extra).length ∧ m'.take 5 = (wrapped l).take 5 ∧ m'.drop (wrapped l).length = extra := by
  obtain ⟨h1, h2, h3⟩ := readWrapperMem_spec (wrapped l ++ extra) (wrapped l).length (by simp)
  rw [List.take_left, C43_read_complete l hne h] at h2
  rcases hr : readWrapperMem (wrapped l).length (wrapped l ++ extra) with ⟨m', o⟩
  rw [hr] at h1 h2 h3
  dsimp only at h1 h2 h3
  obtain ⟨o, rfl, h2⟩ := Res.bind_eq_ok.1 h2
  obtain ⟨k, rfl, hk⟩ := h3 o rfl
  refine ⟨k, m', rfl, by injection h2, h1.length, ?_, ?_⟩
  · rw [h1.front, List.take_append_of_le_length (by omega)]
  · rw [h1.back, List.drop_left]

/-- C95: for every buffer, in an array of any capacity: the outcome is the one that is reached when cells are collected in other memory
(C43), no panic occurs, no new array is made, and bytes in front of the first payload and behind the buffer are kept, also when there
is an error. -/
theorem C95_same (mem : Bytes) (le : Nat) (hle : le ≤ mem.length) :
    (∀ res, readWrapper (mem.take le) = .ok res ↔
      ∃ k, (readWrapperMem le mem).2 = .ok (.part 5 k) ∧ ((readWrapperMem le mem).1.drop 5).take k = res) ∧
    (∀ e, readWrapper (mem.take le) = .err e ↔ (readWrapperMem le mem).2 = .err e) ∧
    (readWrapperMem le mem).2.NoPanic ∧
    (readWrapperMem le mem).1.length = mem.length ∧
    (readWrapperMem le mem).1.take 5 = mem.take 5 ∧ (readWrapperMem le mem).1.drop le = mem.drop le := by
  obtain ⟨h1, h2, h3⟩ := readWrapperMem_spec mem le hle
  have hnp := (C43_read_sound (mem.take le)).1
  refine ⟨?_, ?_, ?_, h1.length, h1.front, h1.back⟩
  · intro res
    rw [← h2]
    rcases hr : (readWrapperMem le mem).2 with o | e | _
    · obtain ⟨k, rfl, hk⟩ := h3 o hr
      constructor
      · intro e; cases e; exact ⟨k, rfl, rfl⟩
      · rintro ⟨k', e, rfl⟩; cases e; rfl
    · exact ⟨fun h => (nomatch h), fun ⟨_, h, _⟩ => (nomatch h)⟩
    · exact ⟨fun h => (nomatch h), fun ⟨_, h, _⟩ => (nomatch h)⟩
  · intro e
    rw [← h2]
    rcases hr : (readWrapperMem le mem).2 with o | e' | _
    · exact ⟨fun h => (nomatch h), fun h => (nomatch h)⟩
    · exact ⟨fun h => by cases h; rfl, fun h => by cases h; rfl⟩
    · exact ⟨fun h => (nomatch h), fun h => (nomatch h)⟩
  · intro hp
    rw [hp] at h2
    exact hnp h2.symm

/-- C95: the buffer that is passed to the reader does not keep its contents. -/
theorem C95_input_kept_false : ¬ ∀ (mem : Bytes) (le : Nat), le ≤ mem.length → (readWrapperMem le mem).1 = mem := by
  intro h
  have := h [9, 0, 0x8F, 0, 1, 7, 0, 1, 0x5F, 0, 2, 8, 9] 13 (by decide)
  revert this
  decide +kernel

/-- Three cells, one of them empty, in an array with one byte behind the buffer: `8, 9` is written over the header of the second cell. -/
example : readWrapperMem 18 [9, 0, 0x8F, 0, 1, 7, 0, 1, 0x20, 0, 0, 0, 2, 0x5F, 0, 2, 8, 9, 0xAA] =
    ([9, 0, 0x8F, 0, 1, 7, 8, 9, 0x20, 0, 0, 0, 2, 0x5F, 0, 2, 8, 9, 0xAA], .ok (.part 5 3)) := by decide +kernel

/-- `C95_cells` on two cells. -/
example : ∃ k m', readWrapperMem 13 [9, 0, 0x8F, 0, 1, 7, 0, 1, 0x5F, 0, 2, 8, 9, 0xAA] = (m', .ok (.part 5 k)) ∧
    (m'.drop 5).take k = [7, 8, 9] ∧ m'.drop 13 = [0xAA] := by
  obtain ⟨k, m', h1, h2, -, -, h5⟩ := C95_cells [(⟨9, 0, 2, false, false, [7]⟩, 15), (⟨0, 1, 1, false, true, [8, 9]⟩, 15)] [0xAA]
    (by decide) ⟨by decide, by decide, ⟨by decide, by decide⟩, by decide, by decide, by decide, ⟨by decide, by decide⟩, by decide, trivial⟩
  exact ⟨k, m', h1, h2, h5⟩

end Verif.Props
