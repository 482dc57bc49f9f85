import Verif.Model.ByteW
import Verif.Lemmas.Buf

namespace Verif.ByteW

/-- Into every zeroed rest of a buffer with enough room, `w` writes exactly `bs`. -/
def Puts (w : BitW) (bs : Bytes) : Prop :=
  ∀ (a : Bytes) (m : Nat), bs.length ≤ m →
    w (a ++ List.replicate m 0) a.length = .ok ((a ++ bs) ++ List.replicate (m - bs.length) 0, a.length + bs.length)

theorem Puts.nop : Puts BitW.nop [] := by
  intro a m h; simp [BitW.nop]

theorem Puts.seq {v w : BitW} {x y : Bytes} (hv : Puts v x) (hw : Puts w y) : Puts (BitW.seq v w) (x ++ y) := by
  intro a m h
  rw [List.length_append] at h
  rw [BitW.seq, hv a m (by omega)]
  simp only [Res.bind]
  have := hw (a ++ x) (m - x.length) (by omega)
  rw [List.length_append] at this
  rw [this]
  simp [Nat.add_assoc, Nat.sub_sub]

theorem Puts.put (bs : Bytes) : Puts (put bs) bs := by
  intro a m h
  rw [ByteW.put, setSeq_append a m bs a.length rfl h]
  rfl

theorem Puts.copy (bs : Bytes) : Puts (copy bs) bs := by
  intro a m h
  rw [ByteW.copy, copyAt_append a m bs a.length rfl h]
  rfl

theorem Puts.skip (n : Nat) : Puts (BitW.skip n) (List.replicate n 0) := by
  intro a m h
  rw [List.length_replicate] at h ⊢
  rw [BitW.skip, List.append_assoc, List.replicate_append_replicate]
  congr 4
  omega

theorem Puts.all_nil : Puts (BitW.all []) [] := Puts.nop
theorem Puts.all_cons {w : BitW} {ws : List BitW} {x y : Bytes} (h1 : Puts w x) (h2 : Puts (BitW.all ws) y) :
    Puts (BitW.all (w :: ws)) (x ++ y) := Puts.seq h1 h2

theorem Puts.ite {c : Prop} [Decidable c] {v w : BitW} {x y : Bytes} (h1 : c → Puts v x) (h2 : ¬ c → Puts w y) :
    Puts (if c then v else w) (if c then x else y) := by
  split
  · exact h1 ‹_›
  · exact h2 ‹_›

theorem Puts.congr {w : BitW} {x y : Bytes} (h : Puts w x) (e : x = y) : Puts w y := e ▸ h

/-- Writing into a new buffer. -/
theorem Puts.run {w : BitW} {bs : Bytes} (h : Puts w bs) (n : Nat) (hn : bs.length ≤ n) :
    w (makeBytes n) 0 = .ok (bs ++ List.replicate (n - bs.length) 0, bs.length) := by
  have := h [] n hn
  simpa [makeBytes] using this

end Verif.ByteW
