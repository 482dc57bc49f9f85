import Verif.Spec.FMP4
import Verif.Lemmas.ByteR
import Verif.Lemmas.Buf

/-!
# Lemmas: writing boxes
-/

namespace Verif.FMP4
open Readers (SBuf)
open MP4Writer
open Spec (beBytes)
open Spec.FMP4 (box)
open ByteR (beBytes_length)

/-- A file whose position is at the end. -/
def full (b : Bytes) : SBuf := ⟨b, b.length⟩

theorem fileWrite_full (b p : Bytes) : fileWrite (full b) p = .ok (full (b ++ p)) := by
  unfold fileWrite SBuf.write full
  rw [if_neg (by simp)]
  simp [Res.bind_ok]

theorem fileWrite_over (a p old c : Bytes) (h : p.length = old.length) :
    fileWrite ⟨a ++ (old ++ c), a.length⟩ p = .ok ⟨a ++ (p ++ c), (a ++ p).length⟩ := by
  unfold fileWrite SBuf.write
  by_cases hc : old ++ c = []
  · have h1 : old = [] := List.append_eq_nil_iff.mp hc |>.1
    have h2 : c = [] := List.append_eq_nil_iff.mp hc |>.2
    subst h1 h2
    have : p = [] := List.eq_nil_of_length_eq_zero h
    subst this
    rw [if_neg (by simp)]
    simp [Res.bind_ok]
  · have hpos : 0 < (old ++ c).length := List.length_pos_iff.mpr hc
    rw [if_pos (by simp only [List.length_append] at hpos ⊢; omega), if_neg (by simp)]
    simp only [Int.toNat_natCast, Res.bind_ok]
    have hn : min p.length ((a ++ (old ++ c)).length - a.length) = p.length := by
      simp only [List.length_append]; omega
    rw [hn, List.take_length, List.drop_length]
    simp only [List.take_left, List.append_nil, List.length_nil, Nat.add_zero]
    congr 2
    · rw [List.append_assoc]
      congr 2
      rw [show a.length + p.length = a.length + old.length by omega, ← List.drop_drop, List.drop_left, List.drop_left]
    · simp

theorem fileSeek_ok (b : Bytes) (p : Int) (k : Nat) (h : k ≤ b.length) : fileSeek ⟨b, p⟩ k = .ok ⟨b, k⟩ := by
  unfold fileSeek SBuf.seek SBuf.target
  simp only [if_true]
  rw [if_neg (by omega), if_neg (by omega)]

theorem writeBoxStart_full (b typ payload : Bytes) :
    writeBoxStart (full b) typ payload = .ok (b.length, full (b ++ (beBytes 4 0 ++ typ ++ payload))) := by
  unfold writeBoxStart
  rw [fileWrite_full, Res.bind_ok, fileWrite_full, Res.bind_ok]
  simp [full]

theorem writeBoxEnd_full (b typ body : Bytes) (ht : typ.length = 4) (h : 8 + body.length < 2 ^ 32) :
    writeBoxEnd (full (b ++ (beBytes 4 0 ++ typ ++ body))) b.length typ = .ok (full (b ++ box typ body)) := by
  unfold writeBoxEnd full
  simp only
  have hlen : ∀ v, (beBytes 4 v ++ typ).length = 8 := by intro v; simp [beBytes_length, ht]
  rw [fileSeek_ok _ _ _ (by simp), Res.bind_ok]
  have hsize : (((b ++ (beBytes 4 0 ++ typ ++ body)).length : Nat) : Int) - (b.length : Int) = ((8 + body.length : Nat) : Int) := by
    rw [List.length_append, List.length_append, hlen]; omega
  rw [hsize, if_pos (by omega), Int.toNat_natCast,
    fileWrite_over b _ (beBytes 4 0 ++ typ) body (by rw [hlen, hlen]), Res.bind_ok]
  have hl2 : (b ++ (beBytes 4 0 ++ typ ++ body)).length = (b ++ box typ body).length := by
    unfold box; simp only [List.length_append, beBytes_length]
  rw [hl2]
  have : b ++ (beBytes 4 (8 + body.length) ++ typ ++ body) = b ++ box typ body := rfl
  rw [this, fileSeek_ok _ _ _ (Nat.le_refl _)]

theorem writeBox_full (b typ payload : Bytes) (ht : typ.length = 4) (h : 8 + payload.length < 2 ^ 32) :
    writeBox (full b) typ payload = .ok (b.length, full (b ++ box typ payload)) := by
  unfold writeBox
  rw [writeBoxStart_full, Res.bind_ok]
  simp only
  rw [writeBoxEnd_full _ _ _ ht h, Res.bind_ok]

theorem rewriteBox_full (a typ old payload c : Bytes) (ht : typ.length = 4) (hl : payload.length = old.length)
    (h : 8 + payload.length < 2 ^ 32) :
    rewriteBox (full (a ++ (box typ old ++ c))) a.length typ payload = .ok (full (a ++ (box typ payload ++ c))) := by
  unfold rewriteBox full
  simp only
  have hlen : ∀ v, (beBytes 4 v ++ typ).length = 8 := by intro v; simp [beBytes_length, ht]
  rw [fileSeek_ok _ _ _ (by simp), Res.bind_ok]
  unfold writeBoxStart
  simp only
  have e1 : a ++ (box typ old ++ c) = a ++ ((beBytes 4 (8 + old.length) ++ typ) ++ (old ++ c)) := by unfold box; simp
  rw [e1, fileWrite_over a (beBytes 4 0 ++ typ) _ _ (by rw [hlen, hlen]), Res.bind_ok]
  have e2 : a ++ (beBytes 4 0 ++ typ ++ (old ++ c)) = (a ++ (beBytes 4 0 ++ typ)) ++ (old ++ c) := by simp
  rw [e2, fileWrite_over _ payload old c hl, Res.bind_ok, Res.bind_ok]
  simp only
  unfold writeBoxEnd
  simp only
  rw [fileSeek_ok _ _ _ (by simp only [List.length_append]; omega), Res.bind_ok]
  have hsize : (((a ++ (beBytes 4 0 ++ typ) ++ payload).length : Nat) : Int) - (a.length : Int) = ((8 + payload.length : Nat) : Int) := by
    rw [List.length_append, List.length_append, hlen]; omega
  rw [hsize, if_pos (by omega), Int.toNat_natCast]
  have e3 : a ++ (beBytes 4 0 ++ typ) ++ (payload ++ c) = a ++ ((beBytes 4 0 ++ typ) ++ (payload ++ c)) := by simp
  rw [e3, fileWrite_over a _ (beBytes 4 0 ++ typ) _ (by rw [hlen, hlen]), Res.bind_ok]
  rw [fileSeek_ok _ _ _ (by simp only [List.length_append, hlen]; omega), Res.bind_ok]
  have e4 : a ++ (beBytes 4 (8 + payload.length) ++ typ ++ (payload ++ c)) = a ++ (box typ payload ++ c) := by unfold box; simp
  have e5 : (a ++ (beBytes 4 (8 + old.length) ++ typ ++ (old ++ c))).length = (a ++ (box typ payload ++ c)).length := by
    unfold box; simp only [List.length_append, beBytes_length, hl]; omega
  rw [e4, e5, fileSeek_ok _ _ _ (Nat.le_refl _)]

theorem box_length (typ payload : Bytes) (ht : typ.length = 4) : (box typ payload).length = 8 + payload.length := by
  unfold box; simp [beBytes_length, ht]; omega

end Verif.FMP4
