import Verif.Model.Buf

namespace Verif

theorem setAt_append (a : Bytes) (m : Nat) (b : UInt8) (i : Nat) (hi : i = a.length) (hm : 1 ≤ m) :
    setAt (a ++ List.replicate m 0) i b = .ok ((a ++ [b]) ++ List.replicate (m - 1) 0) := by
  subst hi
  obtain ⟨m, rfl⟩ : ∃ k, m = k + 1 := ⟨m - 1, by omega⟩
  rw [setAt, if_pos (by simp), List.set_append_right _ _ (Nat.le_refl _), Nat.sub_self, List.replicate_succ]
  simp

theorem copyAt_append (a : Bytes) (m : Nat) (src : Bytes) (i : Nat) (hi : i = a.length) (hm : src.length ≤ m) :
    copyAt (a ++ List.replicate m 0) i src
      = .ok ((a ++ src) ++ List.replicate (m - src.length) 0, src.length) := by
  subst hi
  rw [copyAt, if_pos (by simp)]
  have h : min ((a ++ List.replicate m (0 : UInt8)).length - a.length) src.length = src.length := by
    simp; omega
  simp only [h, List.take_length]
  congr 2
  rw [List.take_left', List.drop_append, List.drop_eq_nil_of_le (by omega)]
  · simp
  · rfl

theorem setSeq_append (a : Bytes) (m : Nat) (bs : Bytes) (i : Nat) (hi : i = a.length) (hm : bs.length ≤ m) :
    setSeq (a ++ List.replicate m 0) i bs = .ok ((a ++ bs) ++ List.replicate (m - bs.length) 0) := by
  induction bs generalizing a m i with
  | nil => simp [setSeq]
  | cons b bs ih =>
    simp only [List.length_cons] at hm
    rw [setSeq, setAt_append a m b i hi (by omega), Res.bind_ok,
      ih (a ++ [b]) (m - 1) (i + 1) (by simp; omega) (by omega)]
    simp only [List.append_assoc, List.cons_append, List.nil_append, List.length_cons]
    rw [show m - 1 - bs.length = m - (bs.length + 1) by omega]

end Verif
