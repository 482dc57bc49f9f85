import Verif.Spec.ISOFile
import Verif.Spec.FMP4
import Verif.Lemmas.CodecRecords
import Verif.Model.PMP4File

/-!
# Lemmas: boxes and fields, as the specification reads them
-/

namespace Verif.ISOLemmas
open Spec (bitsOf bitsOfNat beBytes natOfBits)
open Spec.ISO
open Spec.FMP4 (box)
open Spec.Records (field fourcc Fields)
open MP4Box (pack widths)
open Records
open ByteR (beBytes_length)

/-- The field that begins at bit `pos`. -/
def fieldAt : Fields → Nat → Option (Nat × Nat)
  | [], _ => none
  | f :: _, 0 => some f
  | f :: l, pos + 1 => if f.1 ≤ pos + 1 then fieldAt l (pos + 1 - f.1) else none

theorem fieldAt_split (fs : Fields) : ∀ (pos : Nat) (f : Nat × Nat), fieldAt fs pos = some f →
    ∃ pre post, fs = pre ++ f :: post ∧ (widths pre).sum = pos := by
  induction fs with
  | nil => intro pos f h; cases h
  | cons g l ih =>
    intro pos f h
    cases pos with
    | zero => cases h; exact ⟨[], l, rfl, rfl⟩
    | succ pos =>
      unfold fieldAt at h
      split at h
      · obtain ⟨pre, post, e, hs⟩ := ih _ _ h
        refine ⟨g :: pre, post, by rw [e]; rfl, ?_⟩
        simp only [widths, List.map_cons, List.sum_cons] at hs ⊢
        omega
      · cases h

theorem flat_length (fs : Fields) : (flat fs).length = (widths fs).sum := by
  induction fs with
  | nil => rfl
  | cons f l ih => rw [flat_cons, List.length_append, ih]; simp [widths]

/-- A field of packed fields. -/
theorem field_pack (fs : Fields) (rest : Bytes) (pos w v : Nat) (h8 : (widths fs).sum % 8 = 0) (h : fieldAt fs pos = some (w, v)) (hv : v < 2 ^ w) :
    field (pack fs ++ rest) pos w = v := by
  obtain ⟨pre, post, e, hp⟩ := fieldAt_split fs pos _ h
  refine field_eq (pre := flat pre) (post := flat post ++ bitsOf rest) ?_ hv (by rw [flat_length, hp])
  rw [Spec.bitsOf_append, bits_pack fs h8, e, flat_append, flat_cons]
  simp only [List.append_assoc]

theorem field_pack' (fs : Fields) (pos w v : Nat) (h8 : (widths fs).sum % 8 = 0) (h : fieldAt fs pos = some (w, v)) (hv : v < 2 ^ w) :
    field (pack fs) pos w = v := by
  have := field_pack fs [] pos w v h8 h hv
  rwa [List.append_nil] at this

theorem ensure_bind {p : Prop} [Decidable p] {α : Type} (f : Unit → Option α) (h : p) : (ensure p >>= f) = f () := by
  unfold ensure; rw [if_pos h]; rfl

theorem some_bind {α β : Type} (a : α) (f : α → Option β) : (some a >>= f) = f a := rfl

/-! ## Boxes -/

/-- A box that can be written. -/
def Fits (x : Bytes × Bytes) : Prop := x.1.length = 4 ∧ 8 + x.2.length < 2 ^ 32

theorem box_len (t p : Bytes) (h : t.length = 4) : (box t p).length = 8 + p.length := by
  unfold box; rw [List.length_append, List.length_append, beBytes_length, h]

theorem box_size (t p rest : Bytes) (h : 8 + p.length < 2 ^ 32) : field (box t p ++ rest) 0 32 = 8 + p.length := by
  refine field_eq (pre := []) (post := bitsOf (t ++ (p ++ rest))) ?_ h rfl
  unfold box
  rw [List.append_assoc, List.append_assoc, Spec.bitsOf_append, bitsOf_beBytes]
  rfl

theorem readBoxes_flat (l : List (Bytes × Bytes)) : ∀ n, l.length ≤ n → (∀ x ∈ l, Fits x) →
    readBoxes n (l.flatMap fun x => box x.1 x.2) = some l := by
  induction l with
  | nil => intro n _ _; cases n <;> rfl
  | cons x l ih =>
    intro n hn hf
    obtain ⟨h4, hs⟩ := hf x List.mem_cons_self
    cases n with
    | zero => cases hn
    | succ n =>
      obtain ⟨y, ys, he⟩ : ∃ y ys, (x :: l).flatMap (fun x => box x.1 x.2) = y :: ys := by
        refine List.exists_cons_of_ne_nil fun h => ?_
        have := congrArg List.length h
        rw [List.flatMap_cons, List.length_append, box_len _ _ h4] at this
        simp only [List.length_nil] at this
        omega
      have hun : ∀ b : Bytes, b ≠ [] → readBoxes (n + 1) b = if 8 ≤ field b 0 32 ∧ field b 0 32 ≤ b.length then (do
          let l ← readBoxes n (b.drop (field b 0 32))
          some (((b.drop 4).take 4, (b.take (field b 0 32)).drop 8) :: l))
          else if field b 0 32 = 1 ∧ 16 ≤ field b 64 64 ∧ field b 64 64 ≤ b.length then (do
          let l ← readBoxes n (b.drop (field b 64 64))
          some (((b.drop 4).take 4, (b.take (field b 64 64)).drop 16) :: l)) else none := by
        intro b hb
        cases b with
        | nil => exact absurd rfl hb
        | cons => rfl
      rw [hun _ (by rw [he]; exact List.cons_ne_nil _ _)]
      clear hun he
      rw [List.flatMap_cons, box_size _ _ _ hs]
      have hl := box_len x.1 x.2 h4
      rw [if_pos ⟨by omega, by rw [List.length_append]; omega⟩, List.drop_left' hl, List.take_left' hl, ih n (by simpa using hn)
        fun y hy => hf y (List.mem_cons_of_mem _ hy)]
      show some (_ :: l) = _
      have e1 : (box x.1 x.2).drop 8 = x.2 := by
        unfold box
        rw [List.drop_left' (by rw [List.length_append, beBytes_length, h4])]
      have e2 : ((box x.1 x.2 ++ l.flatMap fun x => box x.1 x.2).drop 4).take 4 = x.1 := by
        unfold box
        rw [List.append_assoc, List.append_assoc, List.drop_left' (beBytes_length _ _), List.take_left' h4]
      rw [e1, e2]

/-- Boxes that are written one after the other are read. -/
theorem boxes_flat (l : List (Bytes × Bytes)) (b : Bytes) (hb : b = l.flatMap fun x => box x.1 x.2) (h : ∀ x ∈ l, Fits x) : boxes b = some l := by
  unfold boxes
  subst hb
  refine readBoxes_flat l _ ?_ h
  rw [List.length_flatMap]
  induction l with
  | nil => exact Nat.le_refl _
  | cons x l ih =>
    have := ih fun y hy => h y (List.mem_cons_of_mem _ hy)
    rw [List.map_cons, List.sum_cons, box_len _ _ (h x List.mem_cons_self).1, List.length_cons]
    omega

/-- Parts of a box are not longer. -/
theorem fits_of (t p : Bytes) (h : (box t p).length < 2 ^ 32) (h4 : t.length = 4) : Fits (t, p) := ⟨h4, by rwa [box_len _ _ h4] at h⟩

/-! ## Tables -/

theorem pieces_entries (size : Nat) (l : List Fields) (rest : Bytes) (h : ∀ e ∈ l, (pack e).length = size) :
    pieces size l.length (PMP4File.encodeEntries l ++ rest) = l.map pack := by
  induction l with
  | nil => rfl
  | cons e l ih =>
    have he := h e List.mem_cons_self
    show (PMP4File.encodeEntries (e :: l) ++ rest).take size :: pieces size l.length ((PMP4File.encodeEntries (e :: l) ++ rest).drop size) = _
    have : PMP4File.encodeEntries (e :: l) ++ rest = pack e ++ (PMP4File.encodeEntries l ++ rest) := by
      unfold PMP4File.encodeEntries; rw [List.flatMap_cons, List.append_assoc]
    rw [this, List.take_left' he, List.drop_left' he, ih fun x hx => h x (List.mem_cons_of_mem _ hx)]
    rfl

theorem entries_length (size : Nat) (l : List Fields) (h : ∀ e ∈ l, (pack e).length = size) :
    (PMP4File.encodeEntries l).length = size * l.length := by
  induction l with
  | nil => rfl
  | cons e l ih =>
    have : PMP4File.encodeEntries (e :: l) = pack e ++ PMP4File.encodeEntries l := by
      unfold PMP4File.encodeEntries; rw [List.flatMap_cons]
    rw [this, List.length_append, ih fun x hx => h x (List.mem_cons_of_mem _ hx), h e List.mem_cons_self, List.length_cons, Nat.mul_add]
    omega

/-- The entries of a table that is written. -/
theorem rows_table (size v : Nat) (l : List Fields) (h : ∀ e ∈ l, (pack e).length = size) (hl : l.length < 2 ^ 32) :
    rows size (PMP4File.encodeTable v l) = some (l.map pack) := by
  unfold rows PMP4File.encodeTable
  rw [field_pack _ _ 32 32 l.length (by simp [widths]) (by rfl) hl]
  have h8 : (pack [(8, v), (24, 0), (32, l.length)]).length = 8 := by rw [MP4Box.pack_length]; simp [widths]
  unfold ensure
  rw [if_pos (by rw [List.length_append, h8, entries_length size l h]), List.drop_left' h8]
  have := pieces_entries size l [] h
  rw [List.append_nil] at this
  rw [this]
  rfl

theorem version_table (v : Nat) (l : List Fields) (hv : v < 2 ^ 8) : field (PMP4File.encodeTable v l) 0 8 = v :=
  field_pack _ _ 0 8 v (by simp [widths]) (by rfl) hv

end Verif.ISOLemmas
