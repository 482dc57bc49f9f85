import Verif.Model.FMP4Init
import Verif.Props.MP4BoxesRead
import Verif.Props.H265SPS

/-!
# Reading the tree of boxes, and writing it
-/

namespace Verif.Props
open FMP4Init MP4Codec MP4Box MP4Writer
open FMP4 (readBoxInfo BoxInfo full writeBoxStart_full writeBoxEnd_full writeBox_full box_length)
open Spec (beBytes)
open Spec.FMP4 (box)
open ByteR (beBytes_length)
open Readers (SBuf)

/-! ## Reading -/

/-- The boxes in `bytes` take the reader from `r` to `r'`. There are `k` of them at this level; the fuel of the levels below is what is left. -/
def Reads {σ : Type} (fields : Fields) (h : Handler σ) (bytes : Bytes) (depth : Nat) (r r' : σ) : Prop :=
  ∃ k, 8 * k ≤ bytes.length ∧ ∀ (n : Nat) (a c : Bytes) (left left' : Option Nat), Remains bytes.length left left' → bytes.length ≤ n + k →
    readTree fields h (n + k) (a ++ (bytes ++ c)) a.length left depth r =
      readTree fields h n (a ++ (bytes ++ c)) (a ++ bytes).length left' depth r'

theorem tree_nil {σ : Type} (fields : Fields) (h : Handler σ) (depth : Nat) (r : σ) : Reads fields h [] depth r r := by
  refine ⟨0, by simp, fun n a c left left' hr _ => ?_⟩
  rw [List.append_nil]
  congr 1
  rcases hr with ⟨h1, h2⟩ | ⟨k, h1, h2⟩ <;> simp [h1, h2]

theorem tree_append {σ : Type} {fields : Fields} {h : Handler σ} {x y : Bytes} {depth : Nat} {r r' r'' : σ} (h1 : Reads fields h x depth r r')
    (h2 : Reads fields h y depth r' r'') : Reads fields h (x ++ y) depth r r'' := by
  obtain ⟨k1, l1, h1⟩ := h1
  obtain ⟨k2, l2, h2⟩ := h2
  refine ⟨k2 + k1, by rw [List.length_append]; omega, fun n a c left left' hr hn => ?_⟩
  rw [List.length_append] at hr hn
  have key : ∃ mid, Remains x.length left mid ∧ Remains y.length mid left' := by
    rcases hr with ⟨g1, g2⟩ | ⟨k, g1, g2⟩
    · exact ⟨none, .inl ⟨g1, rfl⟩, .inl ⟨rfl, g2⟩⟩
    · exact ⟨some (y.length + k), .inr ⟨y.length + k, by rw [g1, Nat.add_assoc], rfl⟩, .inr ⟨k, rfl, g2⟩⟩
  obtain ⟨mid, m1, m2⟩ := key
  have e1 := h1 (n + k2) a (y ++ c) left mid m1 (by omega)
  have e2 := h2 n (a ++ x) c mid left' m2 (by omega)
  simp only [List.append_assoc] at e1 e2 ⊢
  rw [← Nat.add_assoc, e1, e2]

theorem tree_step {σ : Type} (fields : Fields) (h : Handler σ) (n : Nat) (a c typ body : Bytes) (left left' : Option Nat) (depth : Nat) (r : σ)
    (ht : typ.length = 4) (hl : 8 + body.length < 2 ^ 32) (hr : Remains (8 + body.length) left left') :
    readTree fields h (n + 1) (a ++ (box typ body ++ c)) a.length left depth r =
      (h ⟨a.length, 8 + body.length, 8, typ⟩ depth body
        (expandBox fields (readTree fields h n (a ++ (box typ body ++ c))) (a ++ (box typ body ++ c)) ⟨a.length, 8 + body.length, 8, typ⟩ depth) r >>=
        fun r => readTree fields h n (a ++ (box typ body ++ c)) (a ++ box typ body).length left' depth r) := by
  conv => lhs; unfold readTree
  have h1 : left.any (· < 8) = false := by
    rcases hr with ⟨h, _⟩ | ⟨k, h, _⟩ <;> subst h <;> simp; omega
  have h2 : left.any (· < 8 + body.length) = false := by
    rcases hr with ⟨h, _⟩ | ⟨k, h, _⟩ <;> subst h <;> simp
  have h3 : left.map (· - (8 + body.length)) = left' := by
    rcases hr with ⟨h, h'⟩ | ⟨k, h, h'⟩ <;> subst h h' <;> simp
  rw [h1, if_neg (by simp), fmp4_readBoxInfo a c typ body ht hl, Res.bind_ok]
  simp only
  rw [h2, if_neg (by simp), fmp4_payload a c typ body ht, h3]
  rw [List.length_append, box_length _ _ ht]

/-- A box that is not expanded. -/
theorem tree_leaf {σ : Type} {fields : Fields} {h : Handler σ} {typ body : Bytes} {depth : Nat} {r r' : σ} (ht : typ.length = 4)
    (hl : 8 + body.length < 2 ^ 32) (hh : ∀ bi expand, bi.typ = typ → h bi depth body expand r = .ok r') :
    Reads fields h (box typ body) depth r r' := by
  refine ⟨1, by rw [box_length _ _ ht]; omega, fun n a c left left' hr hn => ?_⟩
  rw [box_length _ _ ht] at hr
  rw [tree_step fields h n a c typ body left left' depth r ht hl hr, hh _ _ rfl, Res.bind_ok]

/-- A box that is expanded: fields, then boxes. -/
theorem tree_node {σ : Type} {fields : Fields} {h : Handler σ} {typ fs body : Bytes} {depth : Nat} {r r1 r' : σ} (ht : typ.length = 4)
    (hl : 8 + (fs ++ body).length < 2 ^ 32) (hf : fields typ (fs ++ body) = some fs.length)
    (hh : ∀ bi expand, bi.typ = typ → h bi depth (fs ++ body) expand r = expand r1) (hb : Reads fields h body (depth + 1) r1 r') :
    Reads fields h (box typ (fs ++ body)) depth r r' := by
  obtain ⟨k, l, hb⟩ := hb
  refine ⟨1, by rw [box_length _ _ ht]; omega, fun n a c left left' hr hn => ?_⟩
  rw [box_length _ _ ht] at hr hn
  rw [tree_step fields h n a c typ (fs ++ body) left left' depth r ht hl hr, hh _ _ rfl]
  have hx : expandBox fields (readTree fields h n (a ++ (box typ (fs ++ body) ++ c))) (a ++ (box typ (fs ++ body) ++ c))
      ⟨a.length, 8 + (fs ++ body).length, 8, typ⟩ depth r1 = .ok r' := by
    unfold expandBox
    rw [fmp4_payload a c typ (fs ++ body) ht, hf]
    simp only
    rw [if_neg (by simp)]
    rw [List.length_append] at hn ⊢
    rw [show 8 + (fs.length + body.length) - 8 - fs.length = body.length by omega]
    obtain ⟨m, rfl⟩ : ∃ m, n = m + 1 + k := ⟨n - 1 - k, by omega⟩
    have e := hb (m + 1) (a ++ (beBytes 4 (8 + (fs ++ body).length) ++ typ ++ fs)) c (some body.length) (some 0) (.inr ⟨0, rfl, rfl⟩) (by omega)
    have eb : a ++ (beBytes 4 (8 + (fs ++ body).length) ++ typ ++ fs) ++ (body ++ c) = a ++ (box typ (fs ++ body) ++ c) := by
      unfold box; simp only [List.append_assoc]
    have el : (a ++ (beBytes 4 (8 + (fs ++ body).length) ++ typ ++ fs)).length = a.length + 8 + fs.length := by
      simp only [List.length_append, beBytes_length, ht]; omega
    rw [eb, el] at e
    rw [e]
    unfold readTree
    simp
  rw [hx, Res.bind_ok]

/-- A box that contains only boxes. -/
theorem tree_node0 {σ : Type} {fields : Fields} {h : Handler σ} {typ body : Bytes} {depth : Nat} {r r1 r' : σ} (ht : typ.length = 4)
    (hl : 8 + body.length < 2 ^ 32) (hf : ∀ b, fields typ b = some 0)
    (hh : ∀ bi b expand, bi.typ = typ → h bi depth b expand r = expand r1) (hb : Reads fields h body (depth + 1) r1 r') :
    Reads fields h (box typ body) depth r r' :=
  tree_node (fs := []) ht hl (hf _) (fun bi expand e => hh bi _ expand e) hb

/-- A whole file. -/
theorem tree_file {σ : Type} {fields : Fields} {h : Handler σ} {b : Bytes} {r r' : σ} (hb : Reads fields h b 1 r r') :
    readTree fields h (b.length + 1) b 0 none 1 r = .ok r' := by
  obtain ⟨k, l, hb⟩ := hb
  obtain ⟨m, hm⟩ : ∃ m, b.length + 1 = m + 1 + k := ⟨b.length - k, by omega⟩
  have e := hb (m + 1) [] [] none none (.inl ⟨rfl, rfl⟩) (by omega)
  simp only [List.append_nil, List.nil_append, List.length_nil] at e
  rw [hm, e]
  unfold readTree readBoxInfo
  simp [Res.bind_ok]

/-! ## Writing -/

theorem put_end (a typ body : Bytes) (f : SBuf) (ht : typ.length = 4)
    (h : writeBoxEnd (full (a ++ (beBytes 4 0 ++ typ ++ body))) a.length typ = .ok f) :
    f = full (a ++ box typ body) ∧ 8 + body.length < 2 ^ 32 := by
  by_cases c : 8 + body.length < 2 ^ 32
  · rw [writeBoxEnd_full a typ body ht c] at h
    cases h
    exact ⟨rfl, c⟩
  · unfold writeBoxEnd full at h
    simp only at h
    rw [FMP4.fileSeek_ok _ _ _ (by simp), Res.bind_ok, if_neg (by
      simp only [List.length_append, beBytes_length, ht]; omega)] at h
    cases h

theorem put_box (a typ body : Bytes) (r : Int × SBuf) (ht : typ.length = 4) (h : writeBox (full a) typ body = .ok r) :
    r.2 = full (a ++ box typ body) ∧ 8 + body.length < 2 ^ 32 := by
  unfold writeBox at h
  rw [writeBoxStart_full, Res.bind_ok] at h
  obtain ⟨f, hf, h⟩ := Res.bind_eq_ok.1 h
  cases h
  exact put_end a typ body f ht hf

theorem put_end_at (a typ body b : Bytes) (f : SBuf) (ht : typ.length = 4) (hb : b = a ++ (beBytes 4 0 ++ typ ++ body))
    (h : writeBoxEnd (full b) a.length typ = .ok f) : f = full (a ++ box typ body) ∧ (box typ body).length < 2 ^ 32 := by
  subst hb
  obtain ⟨h1, h2⟩ := put_end a typ body f ht h
  exact ⟨h1, by rwa [box_length _ _ ht]⟩

/-- What the functions that write boxes do when they succeed. They are variables here, so that they are not unfolded. -/
structure Writers (start : SBuf → Bytes → Bytes → Res (Int × SBuf)) (one : SBuf → Bytes → Bytes → Res (Int × SBuf))
    (stop : SBuf → Int → Bytes → Res SBuf) : Prop where
  start : ∀ a typ payload r, start (full a) typ payload = .ok r → r = ((a.length : Int), full (a ++ (beBytes 4 0 ++ typ ++ payload)))
  one : ∀ a typ body o f, typ.length = 4 → one (full a) typ body = .ok (o, f) → f = full (a ++ box typ body)
  stop : ∀ a typ body b f, typ.length = 4 → b = a ++ (beBytes 4 0 ++ typ ++ body) → stop (full b) a.length typ = .ok f →
    f = full (a ++ box typ body) ∧ (box typ body).length < 2 ^ 32

theorem put_writers : Writers writeBoxStart writeBox writeBoxEnd where
  start a typ payload r h := by
    rw [writeBoxStart_full] at h
    cases h
    rfl
  one a typ body o f ht h := (put_box a typ body _ ht h).1
  stop := put_end_at

end Verif.Props
