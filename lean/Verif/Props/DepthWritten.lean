import Verif.Model.Depth
import Verif.Props.Depth
import Verif.Props.FMP4FileISO
import Verif.Props.PMP4FileRoundTrip

/-!
# C107: files that are written are not nested deeply

A limit of 8 levels (3 in parts) changes nothing in how files are read that were written by `Init.Marshal`, `Presentation.Marshal` and `Parts.Marshal`.
-/

namespace Verif.Props
open FMP4Init MP4Codec MP4Box MP4Writer
open FMP4 (readBoxInfo BoxInfo full box_length)
open Spec (beBytes)
open Spec.FMP4 (box)
open ByteR (beBytes_length)
open Readers (SBuf)
open Depth (limited)
open PMP4File (typElst typStss typCtts)
open Spec.FMP4 (moof)

/-! ## A calculus of files -/

/-- From each `r` with `P`, reading the boxes in `bytes` has a result `o` that does not depend on whether there is a limit, and `Q` holds then. -/
def Shallow {σ : Type} (fields : Fields) (h : Handler σ) (limit : Nat) (P Q : σ → Prop) (bytes : Bytes) (depth : Nat) : Prop :=
  ∃ k, 8 * k ≤ bytes.length ∧ ∀ (n : Nat) (a c : Bytes) (left left' : Option Nat) (r : σ), P r → Remains bytes.length left left' →
    bytes.length ≤ n + k → ∃ o : Res σ, (∀ r', o = .ok r' → Q r') ∧ ∀ H, H = h ∨ H = limited limit h →
      readTree fields H (n + k) (a ++ (bytes ++ c)) a.length left depth r =
        (o >>= fun r' => readTree fields H n (a ++ (bytes ++ c)) (a ++ bytes).length left' depth r')

/-- Nothing is known of the state. -/
def Whatever {σ : Type} (_ : σ) : Prop := True

section
variable {σ : Type} {fields : Fields} {h : Handler σ} {limit : Nat}

theorem shallow_nil (P : σ → Prop) (depth : Nat) : Shallow fields h limit P P [] depth := by
  refine ⟨0, by simp, fun n a c left left' r hp hr _ => ⟨.ok r, fun r' e => by cases e; exact hp, fun H _ => ?_⟩⟩
  rw [List.append_nil, Res.bind_ok]
  congr 1
  rcases hr with ⟨h1, h2⟩ | ⟨k, h1, h2⟩ <;> simp [h1, h2]

theorem shallow_append {P Q R : σ → Prop} {x y : Bytes} {depth : Nat} (h1 : Shallow fields h limit P Q x depth)
    (h2 : Shallow fields h limit Q R y depth) : Shallow fields h limit P R (x ++ y) depth := by
  obtain ⟨k1, l1, h1⟩ := h1
  obtain ⟨k2, l2, h2⟩ := h2
  refine ⟨k2 + k1, by rw [List.length_append]; omega, fun n a c left left' r hp hr hn => ?_⟩
  rw [List.length_append] at hr hn
  have key : ∃ mid, Remains x.length left mid ∧ Remains y.length mid left' := by
    rcases hr with ⟨g1, g2⟩ | ⟨k, g1, g2⟩
    · exact ⟨none, .inl ⟨g1, rfl⟩, .inl ⟨rfl, g2⟩⟩
    · exact ⟨some (y.length + k), .inr ⟨y.length + k, by rw [g1, Nat.add_assoc], rfl⟩, .inr ⟨k, rfl, g2⟩⟩
  obtain ⟨mid, m1, m2⟩ := key
  obtain ⟨o1, q1, e1⟩ := h1 (n + k2) a (y ++ c) left mid r hp m1 (by omega)
  have all : ∃ o : Res σ, (∀ r', o = .ok r' → R r') ∧ ∀ H, H = h ∨ H = limited limit h →
      (o1 >>= fun r' => readTree fields H (n + k2) (a ++ (x ++ (y ++ c))) (a ++ x).length mid depth r') =
        (o >>= fun r' => readTree fields H n (a ++ (x ++ (y ++ c))) (a ++ (x ++ y)).length left' depth r') := by
    cases o1 with
    | ok r1 =>
      obtain ⟨o2, q2, e2⟩ := h2 n (a ++ x) c mid left' r1 (q1 r1 rfl) m2 (by omega)
      refine ⟨o2, q2, fun H hH => ?_⟩
      have := e2 H hH
      simp only [List.append_assoc] at this ⊢
      rw [Res.bind_ok, this]
    | err s => exact ⟨.err s, fun r' e => by (cases e), fun H _ => rfl⟩
    | panic => exact ⟨.panic, fun r' e => by (cases e), fun H _ => rfl⟩
  obtain ⟨o, q, e⟩ := all
  refine ⟨o, q, fun H hH => ?_⟩
  have := e1 H hH
  rw [← Nat.add_assoc, List.append_assoc x y c, this, e H hH]

theorem shallow_limited {depth : Nat} (hd : depth ≤ limit) (H : Handler σ) (hH : H = h ∨ H = limited limit h) (bi : BoxInfo) (payload : Bytes)
    (expand : σ → Res σ) (r : σ) : H bi depth payload expand r = h bi depth payload expand r := by
  rcases hH with rfl | rfl
  · rfl
  · unfold limited
    rw [if_neg (by omega)]

/-- A box that is not expanded, whatever the state is. -/
theorem shallow_leaf {P Q : σ → Prop} {typ body : Bytes} {depth : Nat} (hd : depth ≤ limit) (ht : typ.length = 4) (hl : 8 + body.length < 2 ^ 32)
    (hh : ∀ bi r, bi.typ = typ → P r → ∃ o : Res σ, (∀ r', o = .ok r' → Q r') ∧ ∀ expand, h bi depth body expand r = o) :
    Shallow fields h limit P Q (box typ body) depth := by
  refine ⟨1, by rw [box_length _ _ ht]; omega, fun n a c left left' r hp hr hn => ?_⟩
  rw [box_length _ _ ht] at hr
  obtain ⟨o, q, e⟩ := hh ⟨a.length, 8 + body.length, 8, typ⟩ r rfl hp
  refine ⟨o, q, fun H hH => ?_⟩
  rw [tree_step fields H n a c typ body left left' depth r ht hl hr, shallow_limited hd H hH, e]

/-- A box that may be expanded: fields, then boxes. -/
theorem shallow_node {P P1 Q : σ → Prop} {typ fs body : Bytes} {depth : Nat} (hd : depth ≤ limit) (ht : typ.length = 4)
    (hl : 8 + (fs ++ body).length < 2 ^ 32) (hf : fields typ (fs ++ body) = some fs.length)
    (hh : ∀ bi r, bi.typ = typ → P r → (∃ r1, P1 r1 ∧ ∀ expand, h bi depth (fs ++ body) expand r = expand r1) ∨
      ∃ o : Res σ, (∀ r', o = .ok r' → Q r') ∧ ∀ expand, h bi depth (fs ++ body) expand r = o)
    (hb : Shallow fields h limit P1 Q body (depth + 1)) : Shallow fields h limit P Q (box typ (fs ++ body)) depth := by
  obtain ⟨k, l, hb⟩ := hb
  refine ⟨1, by rw [box_length _ _ ht]; omega, fun n a c left left' r hp hr hn => ?_⟩
  rw [box_length _ _ ht] at hr hn
  rcases hh ⟨a.length, 8 + (fs ++ body).length, 8, typ⟩ r rfl hp with ⟨r1, hp1, e⟩ | ⟨o, q, e⟩
  · rw [List.length_append] at hn
    obtain ⟨m, rfl⟩ : ∃ m, n = m + 1 + k := ⟨n - 1 - k, by omega⟩
    obtain ⟨o, q, e1⟩ := hb (m + 1) (a ++ (beBytes 4 (8 + (fs ++ body).length) ++ typ ++ fs)) c (some body.length) (some 0) r1 hp1
      (.inr ⟨0, rfl, rfl⟩) (by omega)
    refine ⟨o, q, fun H hH => ?_⟩
    rw [tree_step fields H (m + 1 + k) a c typ (fs ++ body) left left' depth r ht hl hr, shallow_limited hd H hH, e]
    have hx : expandBox fields (readTree fields H (m + 1 + k) (a ++ (box typ (fs ++ body) ++ c))) (a ++ (box typ (fs ++ body) ++ c))
        ⟨a.length, 8 + (fs ++ body).length, 8, typ⟩ depth r1 = o := by
      unfold expandBox
      rw [fmp4_payload a c typ (fs ++ body) ht, hf]
      simp only
      rw [if_neg (by simp)]
      rw [List.length_append]
      rw [show 8 + (fs.length + body.length) - 8 - fs.length = body.length by omega]
      have e2 := e1 H hH
      have eb : a ++ (beBytes 4 (8 + (fs ++ body).length) ++ typ ++ fs) ++ (body ++ c) = a ++ (box typ (fs ++ body) ++ c) := by
        unfold box; simp only [List.append_assoc]
      have el : (a ++ (beBytes 4 (8 + (fs ++ body).length) ++ typ ++ fs)).length = a.length + 8 + fs.length := by
        simp only [List.length_append, beBytes_length, ht]; omega
      rw [eb, el] at e2
      rw [e2]
      cases o with
      | ok r' => rw [Res.bind_ok]; unfold readTree; simp
      | err s => rfl
      | panic => rfl
    rw [hx]
  · refine ⟨o, q, fun H hH => ?_⟩
    rw [tree_step fields H n a c typ (fs ++ body) left left' depth r ht hl hr, shallow_limited hd H hH, e]

theorem shallow_file {P Q : σ → Prop} {b : Bytes} {r : σ} (hp : P r) (hb : Shallow fields h limit P Q b 1) :
    readTree fields (limited limit h) (b.length + 1) b 0 none 1 r = readTree fields h (b.length + 1) b 0 none 1 r := by
  obtain ⟨k, l, hb⟩ := hb
  obtain ⟨m, hm⟩ : ∃ m, b.length + 1 = m + 1 + k := ⟨b.length - k, by omega⟩
  obtain ⟨o, _, e⟩ := hb (m + 1) [] [] none none r hp (.inl ⟨rfl, rfl⟩) (by omega)
  have e1 := e _ (.inr rfl)
  have e2 := e _ (.inl rfl)
  simp only [List.append_nil, List.nil_append, List.length_nil] at e1 e2
  rw [hm, e1, e2]
  congr 1
  funext r'
  unfold readTree readBoxInfo
  simp [Res.bind_ok]

/-- A handler that expands a box at the end, or not at all. -/
def Last (h : Handler σ) : Prop := ∀ bi depth payload r, (∃ r1, ∀ expand, h bi depth payload expand r = expand r1) ∨ ∃ o : Res σ, ∀ expand, h bi depth payload expand r = o

/-- Boxes of this type are never expanded. -/
def Plain (h : Handler σ) (typ : Bytes) : Prop := ∀ bi depth payload r, bi.typ = typ → ∃ o : Res σ, ∀ expand, h bi depth payload expand r = o

theorem shallow_plain {typ body : Bytes} {depth : Nat} (hd : depth ≤ limit) (ht : typ.length = 4) (hl : (box typ body).length < 2 ^ 32)
    (hp : Plain h typ) : Shallow fields h limit Whatever Whatever (box typ body) depth :=
  shallow_leaf hd ht (by rwa [box_length _ _ ht] at hl) fun bi r e _ => let ⟨o, ho⟩ := hp bi depth body r e; ⟨o, fun _ _ => trivial, ho⟩

theorem shallow_fields {typ fs body : Bytes} {depth : Nat} (hd : depth ≤ limit) (ht : typ.length = 4) (hl : (box typ (fs ++ body)).length < 2 ^ 32)
    (hf : fields typ (fs ++ body) = some fs.length) (hp : Last h) (hb : Shallow fields h limit Whatever Whatever body (depth + 1)) :
    Shallow fields h limit Whatever Whatever (box typ (fs ++ body)) depth :=
  shallow_node hd ht (by rwa [box_length _ _ ht] at hl) hf (fun bi r _ _ => by
    rcases hp bi depth (fs ++ body) r with ⟨r1, h1⟩ | ⟨o, h1⟩
    · exact .inl ⟨r1, trivial, h1⟩
    · exact .inr ⟨o, fun _ _ => trivial, h1⟩) hb

theorem shallow_inner {typ body : Bytes} {depth : Nat} (hd : depth ≤ limit) (ht : typ.length = 4) (hl : (box typ body).length < 2 ^ 32)
    (hf : ∀ b, fields typ b = some 0) (hp : Last h) (hb : Shallow fields h limit Whatever Whatever body (depth + 1)) :
    Shallow fields h limit Whatever Whatever (box typ body) depth :=
  shallow_fields (fs := []) hd ht hl (hf _) hp hb

theorem shallow_flat {α : Type} (f : α → Bytes) (l : List α) (depth : Nat) (hb : ∀ x ∈ l, Shallow fields h limit Whatever Whatever (f x) depth) :
    Shallow fields h limit Whatever Whatever (l.flatMap f) depth := by
  induction l with
  | nil => exact shallow_nil _ _
  | cons x l ih =>
    rw [List.flatMap_cons]
    exact shallow_append (hb x (List.mem_cons_self ..)) (ih fun y hy => hb y (List.mem_cons_of_mem _ hy))
end

/-! ## The handlers -/

/-- The types of sample entries that `CodecBoxesReader` expands. -/
def entryTypes : List Bytes :=
  [typAvc1, typVp09, typHvc1, typHev1, typMp4a, typAv01, typOpus, typFlac, typMp4v, typAc3, typEc3, typIpcm]

/-- The reader of the codec boxes does not ask for the box to be expanded. -/
def Unopened (x : Res Action) : Prop := ∀ c, x ≠ .ok (.expand c)

theorem shallow_un_err (s : String) : Unopened (.err s) := fun _ e => by cases e
theorem shallow_un_done (c : CodecReader) : Unopened (.ok (.done c)) := fun _ e => by cases e
theorem shallow_un_found (r : CodecReader) (c : Codec) : Unopened (r.found c) := fun _ e => by cases e

theorem shallow_un_ite (p : Prop) [Decidable p] (x y : Res Action) (hx : Unopened x) (hy : Unopened y) : Unopened (if p then x else y) := by
  by_cases h : p
  · rw [if_pos h]; exact hx
  · rw [if_neg h]; exact hy

theorem shallow_un_bind {α : Type} (x : Res α) (f : α → Res Action) (h : ∀ a, Unopened (f a)) : Unopened (x >>= f) := by
  cases x with
  | ok a => exact h a
  | err s => exact shallow_un_err s
  | panic => exact fun _ e => by cases e

local macro "unopened" : tactic =>
  `(tactic| repeat' (first | exact shallow_un_err _ | exact shallow_un_found _ _ | exact shallow_un_done _ | apply shallow_un_ite | refine shallow_un_bind _ _ fun _ => ?_))

theorem shallow_un_avcC (c : CodecReader) (p : Bytes) : Unopened (c.readAvcC p) := by unfold CodecReader.readAvcC; unopened
theorem shallow_un_vpcC (c : CodecReader) (p : Bytes) : Unopened (c.readVpcC p) := by unfold CodecReader.readVpcC; unopened
theorem shallow_un_hvcC (c : CodecReader) (p : Bytes) : Unopened (c.readHvcC p) := by unfold CodecReader.readHvcC; unopened
theorem shallow_un_av1C (c : CodecReader) (p : Bytes) : Unopened (c.readAv1C p) := by unfold CodecReader.readAv1C; unopened
theorem shallow_un_dOps (c : CodecReader) (p : Bytes) : Unopened (c.readDOps p) := by unfold CodecReader.readDOps; unopened
theorem shallow_un_dfLa (c : CodecReader) (p : Bytes) : Unopened (c.readDfLa p) := by unfold CodecReader.readDfLa; unopened
theorem shallow_un_dac3 (c : CodecReader) (p : Bytes) : Unopened (c.readDac3 p) := by unfold CodecReader.readDac3; unopened
theorem shallow_un_dec3 (c : CodecReader) (p : Bytes) : Unopened (c.readDec3 p) := by unfold CodecReader.readDec3; unopened
theorem shallow_un_pcmC (c : CodecReader) (p : Bytes) : Unopened (c.readPcmC p) := by unfold CodecReader.readPcmC; unopened

theorem shallow_un_esds (c : CodecReader) (p : Bytes) : Unopened (c.readEsds p) := by
  unfold CodecReader.readEsds
  refine shallow_un_bind _ _ fun l => ?_
  cases esdsFindDecoderConf l with
  | none => exact shallow_un_err _
  | some t =>
    dsimp only
    split
    · unfold CodecReader.videoEsds; unopened
    · unfold CodecReader.audioEsds; unopened
    · exact shallow_un_err _

theorem shallow_codec (c : CodecReader) (typ payload : Bytes) (ht : typ ∉ entryTypes) : Unopened (c.readBox typ payload) := by
  simp only [entryTypes, List.mem_cons, List.not_mem_nil, or_false, not_or] at ht
  obtain ⟨h1, h2, h3, h4, h5, h6, h7, h8, h9, h10, h11, h12⟩ := ht
  unfold CodecReader.readBox
  simp only [h1, h2, h3, h4, h5, h6, h7, h8, h9, h10, h11, h12, or_self, if_false]
  repeat' (first
    | exact shallow_un_err _
    | exact shallow_un_done _
    | exact shallow_un_avcC _ _
    | exact shallow_un_vpcC _ _
    | exact shallow_un_hvcC _ _
    | exact shallow_un_av1C _ _
    | exact shallow_un_dOps _ _
    | exact shallow_un_dfLa _ _
    | exact shallow_un_dac3 _ _
    | exact shallow_un_dec3 _ _
    | exact shallow_un_pcmC _ _
    | exact shallow_un_esds _ _
    | apply shallow_un_ite)

/-- The result depends on `expand` only in that it may be what `expand` returns. -/
def Final {σ : Type} (f : (σ → Res σ) → Res σ) : Prop := (∃ r1, ∀ expand, f expand = expand r1) ∨ ∃ o : Res σ, ∀ expand, f expand = o

theorem shallow_ite {σ : Type} (p : Prop) [Decidable p] (f g : (σ → Res σ) → Res σ) (hf : Final f) (hg : Final g) :
    Final fun expand => if p then f expand else g expand := by
  by_cases h : p
  · simpa only [h, if_true] using hf
  · simpa only [h, if_false] using hg

theorem shallow_const {σ : Type} (o : Res σ) : Final fun _ => o := .inr ⟨o, fun _ => rfl⟩
theorem shallow_expand {σ : Type} (r : σ) : Final fun expand => expand r := .inl ⟨r, fun _ => rfl⟩

theorem shallow_bind {σ α : Type} (x : Res α) (f : α → (σ → Res σ) → Res σ) (hf : ∀ a, x = .ok a → Final (f a)) :
    Final fun expand => (x >>= fun a => f a expand) := by
  cases x with
  | ok a => exact hf a rfl
  | err s => exact .inr ⟨.err s, fun _ => rfl⟩
  | panic => exact .inr ⟨.panic, fun _ => rfl⟩

/-- The types of the boxes that `Init.Unmarshal` expands. -/
def initTypes : List Bytes := [typMoov, typUdta, typMvhd, typTrak, typMdia, typMinf, typStbl, typStsd]

theorem shallow_init_box (typ payload : Bytes) (r : Reader) : Final (r.readBox typ payload) := by
  show Final fun expand => _
  unfold Reader.readBox Reader.enter Reader.enterTrak Reader.enterStsd
  repeat' (first | exact shallow_const _ | exact shallow_expand _ | apply shallow_ite)

/-- What is done does not depend on `expand`. -/
def Fixed {σ : Type} (f : (σ → Res σ) → Res σ) : Prop := ∃ o : Res σ, ∀ expand, f expand = o

theorem shallow_fixed_bind {σ α : Type} (x : Res α) (f : α → (σ → Res σ) → Res σ) (hf : ∀ a, x = .ok a → Fixed (f a)) :
    Fixed fun expand => (x >>= fun a => f a expand) := by
  cases x with
  | ok a => exact hf a rfl
  | err s => exact ⟨.err s, fun _ => rfl⟩
  | panic => exact ⟨.panic, fun _ => rfl⟩

theorem shallow_init_plain (typ payload : Bytes) (r : Reader) (ht : typ ∉ initTypes) : Fixed (r.readBox typ payload) := by
  simp only [initTypes, List.mem_cons, List.not_mem_nil, or_false, not_or] at ht
  obtain ⟨h1, h2, h3, h4, h5, h6, h7, h8⟩ := ht
  refine ⟨r.readBox typ payload fun _ => .panic, fun expand => ?_⟩
  unfold Reader.readBox
  simp only [h1, h2, h3, h4, h5, h6, h7, h8, or_self, if_false]

theorem shallow_init_last : Last (handle isoFields) := by
  intro bi depth payload r
  show Final (handle isoFields bi depth payload · r)
  obtain ⟨state, ts, ud, cr⟩ := r
  cases state
  case readingUserData => exact shallow_ite _ _ _ (shallow_init_box ..) (shallow_const _)
  case readingCodec =>
    refine shallow_bind (deref cr) _ fun c _ => shallow_bind (c.read depth bi.typ payload) _ fun a _ => ?_
    cases a with
    | done c => exact shallow_const _
    | expand c => exact shallow_expand _
    | ended => exact shallow_bind (Reader.codecEnded _ c) _ fun r _ => shallow_init_box ..
  all_goals exact shallow_init_box bi.typ payload _

theorem shallow_init_handle (typ : Bytes) (h1 : typ ∉ initTypes) (h2 : typ ∉ entryTypes) : Plain (handle isoFields) typ := by
  intro bi depth payload r ht
  show Fixed (handle isoFields bi depth payload · r)
  subst ht
  obtain ⟨state, ts, ud, cr⟩ := r
  cases state
  case readingUserData =>
    by_cases hd : depth < 3
    · obtain ⟨o, ho⟩ := shallow_init_plain bi.typ payload ⟨.waitingTrak, ts, ud, cr⟩ h1
      exact ⟨o, fun expand => (if_pos hd).trans (ho expand)⟩
    · exact ⟨_, fun expand => if_neg hd⟩
  case readingCodec =>
    refine shallow_fixed_bind (deref cr) _ fun c _ => shallow_fixed_bind (c.read depth bi.typ payload) _ fun a e => ?_
    cases a with
    | done c => exact ⟨_, fun _ => rfl⟩
    | expand c' =>
      unfold CodecReader.read at e
      split at e
      · split at e <;> cases e
      · exact absurd e (shallow_codec _ _ _ h2 _)
    | ended => exact shallow_fixed_bind (Reader.codecEnded _ c) _ fun r _ => shallow_init_plain _ _ _ h1
  all_goals exact shallow_init_plain bi.typ payload _ h1

/-- The types of the boxes that `Presentation.Unmarshal` expands. -/
def fileTypes : List Bytes := [typMoov, typMvhd, typTrak, typEdts, typMdia, typMinf, typStbl, typStsd]

theorem shallow_file_box (typ payload : Bytes) (r : PMP4File.Reader) : Final (r.readBox typ payload) :=
  shallow_bind (PMP4File.decodeEvent typ payload) _ fun ev _ => shallow_bind (r.step ev) _ fun r _ =>
    shallow_ite (PMP4File.expands ev = true) _ _ (shallow_expand r) (shallow_const _)

theorem shallow_file_plain (typ payload : Bytes) (r : PMP4File.Reader) (ht : typ ∉ fileTypes) : Fixed (r.readBox typ payload) := by
  have key : ∀ ev, PMP4File.decodeEvent typ payload = .ok ev → PMP4File.expands ev = false := by
    intro ev e
    simp only [fileTypes, List.mem_cons, List.not_mem_nil, or_false, not_or] at ht
    obtain ⟨h1, h2, h3, h4, h5, h6, h7, h8⟩ := ht
    unfold PMP4File.decodeEvent at e
    simp only [h1, h2, h3, h4, h5, h6, h7, h8, if_false] at e
    repeat' (first | (cases e; rfl) | obtain ⟨_, _, e⟩ := Res.bind_eq_ok.1 e | split at e)
  refine shallow_fixed_bind (PMP4File.decodeEvent typ payload) _ fun ev e => shallow_fixed_bind (r.step ev) _ fun r _ => ⟨.ok r, fun expand => ?_⟩
  rw [key ev e]
  rfl

theorem shallow_file_last : Last PMP4File.handle := by
  intro bi depth payload r
  refine shallow_ite (r.base.state = .readingCodec) _ _ (shallow_bind (deref r.codecReader) _ fun c _ => shallow_bind (c.read depth bi.typ payload) _ fun a _ => ?_)
    (shallow_file_box ..)
  cases a with
  | done c => exact shallow_const _
  | expand c => exact shallow_expand _
  | ended => exact shallow_bind (PMP4File.Reader.codecEnded _ c) _ fun r _ => shallow_file_box ..

theorem shallow_file_handle (typ : Bytes) (h1 : typ ∉ fileTypes) (h2 : typ ∉ entryTypes) : Plain PMP4File.handle typ := by
  intro bi depth payload r ht
  subst ht
  show Fixed (PMP4File.handle bi depth payload · r)
  by_cases hs : r.base.state = .readingCodec
  · have : (PMP4File.handle bi depth payload · r) = fun expand => (deref r.codecReader >>= fun c => c.read depth bi.typ payload >>= fun a =>
        r.afterCodec c bi.typ payload expand a) := funext fun expand => if_pos hs
    rw [this]
    refine shallow_fixed_bind (deref r.codecReader) _ fun c _ => shallow_fixed_bind (c.read depth bi.typ payload) _ fun a e => ?_
    cases a with
    | done c => exact ⟨_, fun _ => rfl⟩
    | expand c' =>
      unfold CodecReader.read at e
      split at e
      · split at e <;> cases e
      · exact absurd e (shallow_codec _ _ _ h2 _)
    | ended => exact shallow_fixed_bind (PMP4File.Reader.codecEnded _ c) _ fun r _ => shallow_file_plain _ _ _ h1
  · have : (PMP4File.handle bi depth payload · r) = r.readBox bi.typ payload := funext fun expand => if_neg hs
    rw [this]
    exact shallow_file_plain _ _ _ h1

theorem shallow_parts_last (b : Bytes) : Last (Depth.partsHandle b) := by
  intro bi depth payload r
  show Final fun expand => _
  unfold Depth.partsHandle FMP4.handle
  repeat' (first | exact shallow_const _ | exact shallow_expand _ | apply shallow_ite | refine shallow_bind _ _ fun _ _ => ?_)

theorem shallow_parts_handle (b typ : Bytes) (h1 : typ ≠ FMP4.typMoof) (h2 : typ ≠ FMP4.typTraf) : Plain (Depth.partsHandle b) typ := by
  intro bi depth payload r ht
  refine ⟨Depth.partsHandle b bi depth payload (fun _ => .panic) r, fun expand => ?_⟩
  unfold Depth.partsHandle FMP4.handle
  rw [ht]
  simp only [h1, h2, if_false]

/-! ## Sample entries -/

theorem shallow_entry (info : CodecInfo) (c : Codec) (typ entry : Bytes) (h : sampleEntry info c = .ok (typ, entry)) (rest : Bytes) :
    isoFields typ (entry ++ rest) = some entry.length := by
  cases c
  case flac si => 
    obtain ⟨_, _, h⟩ := Res.bind_eq_ok.1 h
    cases h; rw [init_audio_length]; rfl
  case mpeg4Audio c => 
    obtain ⟨_, _, h⟩ := Res.bind_eq_ok.1 h
    cases h; rw [init_audio_length]; rfl
  all_goals cases h; first | (rw [init_audio_length]; rfl) | (rw [init_visual_length]; rfl)

theorem shallow_config (id : Int) (info : CodecInfo) (avg max : Nat) (c : Codec) (typ config : Bytes) (h : configBox id info avg max c = .ok (typ, config)) :
    typ.length = 4 ∧ typ ∉ initTypes ∧ typ ∉ fileTypes ∧ typ ∉ entryTypes := by
  cases c <;> unfold configBox at h
  all_goals
    repeat' (first | (cases h; decide) | obtain ⟨_, _, h⟩ := Res.bind_eq_ok.1 h)

/-! ## What is written -/

theorem shallow_weaken {σ : Type} {fields : Fields} {h : Handler σ} {limit : Nat} {P Q Q' : σ → Prop} {bytes : Bytes} {depth : Nat}
    (hq : ∀ r, Q r → Q' r) (hb : Shallow fields h limit P Q bytes depth) : Shallow fields h limit P Q' bytes depth := by
  obtain ⟨k, l, hb⟩ := hb
  refine ⟨k, l, fun n a c left left' r hp hr hn => ?_⟩
  obtain ⟨o, q, e⟩ := hb n a c left left' r hp hr hn
  exact ⟨o, fun r' he => hq r' (q r' he), e⟩

theorem shallow_part_length {α : Type} (f : α → Bytes) (l : List α) (x : α) (hx : x ∈ l) : (f x).length ≤ (l.flatMap f).length := by
  induction l with
  | nil => cases hx
  | cons y l ih =>
    rw [List.flatMap_cons, List.length_append]
    rcases List.mem_cons.1 hx with rfl | hx
    · omega
    · have := ih hx; omega

/-- Handlers for which the boxes around the sample entries are never expanded. -/
structure Ordinary {σ : Type} (h : Handler σ) : Prop where
  last : Last h
  plain : ∀ typ, typ ∉ [typMoov, typUdta, typMvhd, typTrak, typEdts, typMdia, typMinf, typStbl, typStsd] → typ ∉ entryTypes → Plain h typ

theorem shallow_ordinary_init : Ordinary (handle isoFields) :=
  ⟨shallow_init_last, fun typ h1 h2 => shallow_init_handle typ (fun h => h1 (by
    simp only [initTypes, List.mem_cons, List.not_mem_nil, or_false] at h ⊢
    rcases h with h | h | h | h | h | h | h | h <;> simp [h])) h2⟩

theorem shallow_ordinary_file : Ordinary PMP4File.handle :=
  ⟨shallow_file_last, fun typ h1 h2 => shallow_file_handle typ (fun h => h1 (by
    simp only [fileTypes, List.mem_cons, List.not_mem_nil, or_false] at h ⊢
    rcases h with h | h | h | h | h | h | h | h <;> simp [h])) h2⟩

section
variable {σ : Type} {h : Handler σ}

theorem shallow_media (ho : Ordinary h) (c : Codec) (depth : Nat) (hd : depth ≤ 8) (hl : (initMediaHeader c).length < 2 ^ 32) :
    Shallow isoFields h 8 Whatever Whatever (initMediaHeader c) depth := by
  unfold initMediaHeader at hl ⊢
  split at hl
  · rw [if_pos ‹_›]; exact shallow_plain hd (by rfl) hl (ho.plain _ (by decide) (by decide))
  · rw [if_neg ‹_›]; exact shallow_plain hd (by rfl) hl (ho.plain _ (by decide) (by decide))

theorem shallow_mvhd (ho : Ordinary h) (fs : Bytes) (hf : isoFields typMvhd fs = some 100) (hl : fs.length = 100) :
    Shallow isoFields h 8 Whatever Whatever (box typMvhd fs) 2 := by
  have := shallow_fields (fields := isoFields) (h := h) (limit := 8) (typ := typMvhd) (fs := fs) (body := []) (depth := 2) (by decide) (by rfl)
    (by rw [box_length _ _ (by rfl), List.append_nil, hl]; decide) (by rw [List.append_nil, hf, hl]) ho.last (shallow_nil _ _)
  rwa [List.append_nil] at this

theorem shallow_sample_entry (ho : Ordinary h) (id : Int) (info : CodecInfo) (avg max : Nat) (c : Codec) (typ entry ctyp config rest : Bytes)
    (he : sampleEntry info c = .ok (typ, entry)) (hc : configBox id info avg max c = .ok (ctyp, config))
    (hl : (box typStsd (encodeCount 1 ++ box typ (entry ++ (box ctyp config ++ rest)))).length < 2 ^ 32)
    (hr : rest.length < 2 ^ 32 → Shallow isoFields h 8 Whatever Whatever rest 8) :
    Shallow isoFields h 8 Whatever Whatever (box typStsd (encodeCount 1 ++ box typ (entry ++ (box ctyp config ++ rest)))) 6 := by
  have ht := record_typ4 info c typ entry he
  obtain ⟨hc4, k1, k2, k3⟩ := shallow_config id info avg max c ctyp config hc
  have hl1 := hl
  rw [box_length _ _ (by rfl), List.length_append] at hl1
  have hl2 : (box typ (entry ++ (box ctyp config ++ rest))).length < 2 ^ 32 := by omega
  have hl3 := hl2
  rw [box_length _ _ ht, List.length_append, List.length_append] at hl3
  refine shallow_fields (by decide) (by rfl) hl (by rw [init_count_length]; rfl) ho.last ?_
  refine shallow_fields (by decide) ht hl2 (shallow_entry info c typ entry he _) ho.last ?_
  refine shallow_append (shallow_plain (by decide) hc4 (by omega) (ho.plain _ ?_ k3)) (hr (by omega))
  intro hm
  simp only [initTypes, fileTypes, List.mem_cons, List.not_mem_nil, or_false, not_or] at k1 k2 hm
  obtain ⟨a1, a2, a3, a4, a5, a6, a7, a8⟩ := k1
  rcases hm with h | h | h | h | h | h | h | h | h
  · exact a1 h
  · exact a2 h
  · exact a3 h
  · exact a4 h
  · exact k2.2.2.2.1 h
  · exact a5 h
  · exact a6 h
  · exact a7 h
  · exact a8 h
end

/-! ### Segments -/

theorem shallow_init_trak (it : InitTrack) (p : InitParts) (hw : InitWritten it p) (hl : (box typTrak (initTrakBody it p)).length < 2 ^ 32) :
    Shallow isoFields (handle isoFields) 8 Whatever Whatever (box typTrak (initTrakBody it p)) 2 := by
  have ho := shallow_ordinary_init
  have P : ∀ (typ body : Bytes) (depth : Nat), depth ≤ 8 → typ.length = 4 → (box typ body).length < 2 ^ 32 →
      typ ∉ [typMoov, typUdta, typMvhd, typTrak, typEdts, typMdia, typMinf, typStbl, typStsd] → typ ∉ entryTypes →
      Shallow isoFields (handle isoFields) 8 Whatever Whatever (box typ body) depth :=
    fun typ body depth hd ht hl h1 h2 => shallow_plain hd ht hl (ho.plain typ h1 h2)
  refine shallow_inner (by decide) (by rfl) hl (fun _ => rfl) ho.last ?_
  unfold initTrakBody at hl ⊢
  rw [box_length _ _ (by rfl), List.length_append] at hl
  refine shallow_append (P _ _ _ (by decide) (by rfl) (by omega) (by decide) (by decide)) ?_
  have hl1 : (initMdia it.timeScale p.codec (box p.typ p.body)).length < 2 ^ 32 := by omega
  clear hl
  unfold initMdia at hl1 ⊢
  refine shallow_inner (by decide) (by rfl) hl1 (fun _ => rfl) ho.last ?_
  rw [box_length _ _ (by rfl), List.length_append, List.length_append] at hl1
  refine shallow_append (P _ _ _ (by decide) (by rfl) (by omega) (by decide) (by decide))
    (shallow_append (P _ _ _ (by decide) (by rfl) (by omega) (by decide) (by decide)) ?_)
  have hl2 : (initMinf p.codec (box p.typ p.body)).length < 2 ^ 32 := by omega
  clear hl1
  unfold initMinf at hl2 ⊢
  refine shallow_inner (by decide) (by rfl) hl2 (fun _ => rfl) ho.last ?_
  rw [box_length _ _ (by rfl), List.length_append, List.length_append] at hl2
  refine shallow_append (shallow_media ho _ _ (by decide) (by omega))
    (shallow_append (P _ _ _ (by decide) (by rfl) (by unfold initDinf at hl2; omega) (by decide) (by decide)) ?_)
  have hl3 : (initStbl (box p.typ p.body)).length < 2 ^ 32 := by omega
  clear hl2
  unfold initStbl at hl3 ⊢
  refine shallow_inner (by decide) (by rfl) hl3 (fun _ => rfl) ho.last ?_
  rw [box_length _ _ (by rfl), List.length_append, List.length_append, List.length_append, List.length_append] at hl3
  refine shallow_append ?_ (shallow_append (P _ _ _ (by decide) (by rfl) (by omega) (by decide) (by decide))
    (shallow_append (P _ _ _ (by decide) (by rfl) (by omega) (by decide) (by decide))
      (shallow_append (P _ _ _ (by decide) (by rfl) (by omega) (by decide) (by decide))
        (P _ _ _ (by decide) (by rfl) (by omega) (by decide) (by decide)))))
  have hl4 : (box typStsd (encodeCount 1 ++ box p.typ p.body)).length < 2 ^ 32 := by omega
  unfold InitParts.body at hl4 ⊢
  exact shallow_sample_entry ho _ _ _ _ _ _ _ _ _ _ hw.entries hw.config hl4 fun hr => P _ _ _ (by decide) (by rfl) hr (by decide) (by decide)

theorem shallow_udta_box (payload : Bytes) (r : Reader) :
    (∃ r1 : Reader, r1.state = .readingUserData ∧ ∀ expand, r.readBox typUdta payload expand = expand r1) ∨
      ∃ o : Res Reader, (∀ r', o = .ok r' → Whatever r') ∧ ∀ expand, r.readBox typUdta payload expand = o := by
  have e : ∀ expand, r.readBox typUdta payload expand = r.enter .waitingTrak .readingUserData expand := fun _ => rfl
  simp only [e]
  unfold Reader.enter
  by_cases hs : r.state = .waitingTrak
  · exact .inl ⟨{ r with state := .readingUserData }, rfl, fun expand => if_neg (by rw [hs]; simp)⟩
  · exact .inr ⟨.err "unexpected box", fun _ _ => trivial, fun expand => if_pos hs⟩

/-- `udta` is expanded only in order to read user data. -/
theorem shallow_udta (bi : BoxInfo) (payload : Bytes) (r : Reader) (hbi : bi.typ = typUdta) :
    (∃ r1 : Reader, r1.state = .readingUserData ∧ ∀ expand, handle isoFields bi 2 payload expand r = expand r1) ∨
      ∃ o : Res Reader, (∀ r', o = .ok r' → Whatever r') ∧ ∀ expand, handle isoFields bi 2 payload expand r = o := by
  obtain ⟨state, ts, ud, cr⟩ := r
  cases state
  case readingUserData =>
    have := shallow_udta_box payload ⟨.waitingTrak, ts, ud, cr⟩
    rw [← hbi] at this
    exact this
  case readingCodec =>
    have e : ∀ expand, handle isoFields bi 2 payload expand ⟨.readingCodec, ts, ud, cr⟩ = (deref cr >>= fun c =>
      c.read 2 bi.typ payload >>= fun a => Reader.afterCodec ⟨.readingCodec, ts, ud, cr⟩ c bi.typ payload expand a) := fun _ => rfl
    simp only [e]
    cases deref cr with
    | err s => exact .inr ⟨_, fun _ _ => trivial, fun _ => rfl⟩
    | panic => exact .inr ⟨_, fun _ _ => trivial, fun _ => rfl⟩
    | ok c =>
      simp only [Res.bind_ok]
      unfold CodecReader.read
      rw [if_pos (by decide)]
      by_cases hw : c.state ≠ .waitingAdditional
      · rw [if_pos hw]
        exact .inr ⟨_, fun _ _ => trivial, fun _ => rfl⟩
      · rw [if_neg hw]
        simp only [Res.bind_ok]
        unfold Reader.afterCodec
        dsimp only
        cases Reader.codecEnded ⟨.readingCodec, ts, ud, cr⟩ c with
        | err s => exact .inr ⟨_, fun _ _ => trivial, fun _ => rfl⟩
        | panic => exact .inr ⟨_, fun _ _ => trivial, fun _ => rfl⟩
        | ok r =>
          simp only [Res.bind_ok]
          have := shallow_udta_box payload { r with state := .waitingTrak }
          rw [← hbi] at this
          exact this
  all_goals
    have := shallow_udta_box payload
    rw [← hbi] at this
    exact this _

/-- The user data: its boxes are recorded, whatever their types are. -/
theorem shallow_user (l : List (Bytes × Bytes)) (hu : ∀ u ∈ l, u.1.length = 4) (hl : (boxBytes (udtaBoxes l)).length < 2 ^ 32) :
    Shallow isoFields (handle isoFields) 8 Whatever Whatever (boxBytes (udtaBoxes l)) 2 := by
  unfold udtaBoxes at hl ⊢
  by_cases h0 : l.length ≠ 0
  · rw [if_pos h0, show boxBytes [(typUdta, boxBytes l)] = box typUdta (boxBytes l) ++ [] from rfl, List.append_nil] at hl ⊢
    rw [box_length _ _ (by rfl)] at hl
    have hin : Shallow isoFields (handle isoFields) 8 (fun r => r.state = .readingUserData) (fun r => r.state = .readingUserData) (boxBytes l) 3 := by
      clear h0
      unfold boxBytes at hl ⊢
      induction l with
      | nil => exact shallow_nil _ _
      | cons u l ih =>
        rw [List.flatMap_cons] at hl ⊢
        have h4 := hu u (List.mem_cons_self ..)
        rw [List.length_append, box_length _ _ h4] at hl
        refine shallow_append (shallow_leaf (by decide) h4 (by omega) fun bi r _ hr => ?_) (ih (fun v hv => hu v (List.mem_cons_of_mem _ hv)) (by omega))
        refine ⟨r.readUserData isoFields bi.typ u.2, fun r' he => ?_, fun expand => ?_⟩
        · unfold Reader.readUserData at he
          split at he
          · cases he
          · cases he; exact hr
        · unfold handle
          rw [hr]
          rfl
    refine shallow_node (fs := []) (by decide) (by rfl) hl rfl (fun bi r hbi _ => ?_) (shallow_weaken (fun _ _ => trivial) hin)
    exact shallow_udta bi _ r hbi
  · rw [if_neg h0]
    exact shallow_nil _ _

/-- A limit of 8 levels changes nothing for segments that `Init.Marshal` has written. -/
theorem C107_init_written (i : Init) (f : SBuf) (hu : ∀ u ∈ i.userData, u.1.length = 4) (h : FMP4Init.marshal ⟨[], 0⟩ i = .ok f) :
    Depth.initUnmarshal 8 isoFields f.buf = FMP4Init.unmarshal isoFields f.buf := by
  obtain ⟨xs, _, hw, hf, hl⟩ := fiso_put_init i f hu h
  have ho := shallow_ordinary_init
  have key : Shallow isoFields (handle isoFields) 8 Whatever Whatever f.buf 1 := by
    rw [hf, show boxBytes [(typFtyp, encodeFtyp), (typMoov, boxBytes (moovBoxes xs i.userData))] =
      box typFtyp encodeFtyp ++ (box typMoov (boxBytes (moovBoxes xs i.userData)) ++ []) from rfl, List.append_nil]
    refine shallow_append (shallow_plain (by decide) (by rfl) (by rw [box_length _ _ (by rfl), init_ftyp_length]; decide) (ho.plain _ (by decide) (by decide))) ?_
    refine shallow_inner (by decide) (by rfl) (by rw [box_length _ _ (by rfl)]; exact hl) (fun _ => rfl) ho.last ?_
    have e : boxBytes (moovBoxes xs i.userData) = box typMvhd encodeMvhd ++ (xs.flatMap (fun x => box typTrak (initTrakBody x.1 x.2)) ++
        (box typMvex (boxBytes (xs.map fun x => (typTrex, encodeTrex (FMP4.u32 x.1.id)))) ++ boxBytes (udtaBoxes i.userData))) := by
      unfold moovBoxes boxBytes
      simp only [List.cons_append, List.flatMap_cons, List.flatMap_append, List.flatMap_map]
    rw [e] at hl ⊢
    rw [List.length_append, List.length_append, List.length_append] at hl
    refine shallow_append (shallow_mvhd ho _ (init_mvhd_fields _ rfl) init_mvhd_length) (shallow_append (shallow_flat _ _ _ fun x hx => ?_)
      (shallow_append (shallow_plain (by decide) (by rfl) (by omega) (ho.plain _ (by decide) (by decide))) (shallow_user _ hu (by omega))))
    have := shallow_part_length (fun x : InitTrack × InitParts => box typTrak (initTrakBody x.1 x.2)) xs x hx
    exact shallow_init_trak x.1 x.2 (hw x hx) (by omega)
  unfold Depth.initUnmarshal FMP4Init.unmarshal
  rw [shallow_file (P := Whatever) trivial key]

/-! ### Presentations -/

theorem shallow_file_trak (t : PMP4.Track) (id : Nat) (p : FileParts) (offs : List Nat) (hw : FileCodec id p.codec p.info p.typ p.entry p.ctyp p.config)
    (hl : (fileTrak t p offs).length < 2 ^ 32) : Shallow isoFields PMP4File.handle 8 Whatever Whatever (fileTrak t p offs) 2 := by
  have ho := shallow_ordinary_file
  have P : ∀ (typ body : Bytes) (depth : Nat), depth ≤ 8 → typ.length = 4 → (box typ body).length < 2 ^ 32 →
      typ ∉ [typMoov, typUdta, typMvhd, typTrak, typEdts, typMdia, typMinf, typStbl, typStsd] → typ ∉ entryTypes →
      Shallow isoFields PMP4File.handle 8 Whatever Whatever (box typ body) depth :=
    fun typ body depth hd ht hl h1 h2 => shallow_plain hd ht hl (ho.plain typ h1 h2)
  unfold fileTrak at hl ⊢
  refine shallow_inner (by decide) (by rfl) hl (fun _ => rfl) ho.last ?_
  rw [box_length _ _ (by rfl), List.length_append, List.length_append] at hl
  refine shallow_append (P _ _ _ (by decide) (by rfl) (by omega) (by decide) (by decide)) (shallow_append (Q := Whatever) ?_ ?_)
  · have hle : (fileEdts p).length < 2 ^ 32 := by omega
    unfold fileEdts at hle ⊢
    refine shallow_inner (by decide) (by rfl) hle (fun _ => rfl) ho.last ?_
    rw [box_length _ _ (by rfl)] at hle
    exact P _ _ _ (by decide) (by rfl) (by omega) (by decide) (by decide)
  have hl1 : (fileMdia t p offs).length < 2 ^ 32 := by omega
  clear hl
  unfold fileMdia at hl1 ⊢
  refine shallow_inner (by decide) (by rfl) hl1 (fun _ => rfl) ho.last ?_
  rw [box_length _ _ (by rfl), List.length_append, List.length_append] at hl1
  refine shallow_append (P _ _ _ (by decide) (by rfl) (by omega) (by decide) (by decide))
    (shallow_append (P _ _ _ (by decide) (by rfl) (by omega) (by decide) (by decide)) ?_)
  have hl2 : (fileMinf p t.samples offs).length < 2 ^ 32 := by omega
  clear hl1
  unfold fileMinf at hl2 ⊢
  refine shallow_inner (by decide) (by rfl) hl2 (fun _ => rfl) ho.last ?_
  rw [box_length _ _ (by rfl), List.length_append, List.length_append] at hl2
  refine shallow_append (shallow_media ho _ _ (by decide) (by omega))
    (shallow_append (P _ _ _ (by decide) (by rfl) (by unfold initDinf at hl2; omega) (by decide) (by decide)) ?_)
  have hl3 : (fileStbl p t.samples offs).length < 2 ^ 32 := by omega
  clear hl2
  unfold fileStbl at hl3 ⊢
  refine shallow_inner (by decide) (by rfl) hl3 (fun _ => rfl) ho.last ?_
  rw [box_length _ _ (by rfl), List.length_append] at hl3
  refine shallow_append (Q := Whatever) ?_ ?_
  · have hl4 : (fileStsd p).length < 2 ^ 32 := by omega
    have := shallow_sample_entry ho id p.info _ _ p.codec p.typ p.entry p.ctyp p.config [] hw.entries hw.configs
      (by rw [List.append_nil]; exact hl4) fun _ => shallow_nil _ _
    rw [List.append_nil] at this
    exact this
  · have hl5 : (fileTables p t.samples offs).length < 2 ^ 32 := by omega
    unfold fileTables at hl5 ⊢
    rw [List.length_append, List.length_append, List.length_append, List.length_append, List.length_append] at hl5
    refine shallow_append (P _ _ _ (by decide) (by rfl) (by omega) (by decide) (by decide)) (shallow_append ?_
      (shallow_append (P _ _ _ (by decide) (by rfl) (by omega) (by decide) (by decide))
        (shallow_append (P _ _ _ (by decide) (by rfl) (by omega) (by decide) (by decide))
          (shallow_append (P _ _ _ (by decide) (by rfl) (by omega) (by decide) (by decide))
            (P _ _ _ (by decide) (by rfl) (by omega) (by decide) (by decide))))))
    have hl6 : (fileStss t.samples).length < 2 ^ 32 := by omega
    unfold fileStss at hl6 ⊢
    cases hm : PMP4.marshalSTSS t.samples with
    | none => exact shallow_nil _ _
    | some l =>
      rw [hm] at hl6
      exact P _ _ _ (by decide) (by rfl) hl6 (by decide) (by decide)

/-- A limit of 8 levels changes nothing for files that `Presentation.Marshal` has written. -/
theorem C107_presentation_written (ts : List PMP4File.Track) (file : Bytes) (hg : ∀ t ∈ ts, FileGood t)
    (h : PMP4File.marshal ts = .ok file) (hl : file.length < 2 ^ 32) :
    Depth.presentationUnmarshal 8 isoFields file = PMP4File.unmarshal isoFields file := by
  unfold PMP4File.marshal at h
  obtain ⟨L, hL, h⟩ := Res.bind_eq_ok.1 h
  obtain ⟨header, hh, h⟩ := Res.bind_eq_ok.1 h
  cases h
  have hw : ∀ t ∈ ts.map (·.toTrack), Writable t := by
    intro t ht
    obtain ⟨u, hu, rfl⟩ := List.mem_map.1 ht
    exact (hg u hu).writable
  have hdata := file_data_length _ hw L hL
  have hl' := hl
  rw [List.length_append, hdata] at hl'
  obtain ⟨L', e1, hint, h3, h4, h5⟩ := C48_interleaving (ts.map (·.toTrack)) (fun t ht _ => (hw t ht).timeScale) (by omega)
  rw [hL] at e1
  cases e1
  have hwL := pmp4_writable_layout _ L hw h3
  have hpay := pmp4_payload_layout L hwL hint
  have hsum := pmp4_sorted_sum _ L hint h3
  have hlen : L.tracks.length = ts.length := by
    have := congrArg List.length h3
    simpa only [List.length_map] using this
  obtain ⟨z1, z2⟩ := file_zipWith ts L.tracks hlen
  have hk : ∀ t ∈ PMP4File.placed ts L.tracks, ∀ c, t.codec = some c → Kept c := by
    intro t ht c hc
    have := List.mem_map_of_mem (f := (·.codec)) ht
    rw [z2] at this
    obtain ⟨u, hu, he⟩ := List.mem_map.1 this
    exact (hg u hu).codec c (he.trans hc)
  obtain ⟨xs, D, k1, k2, _, k3, k4⟩ := file_header _ header hk hh
  have hflat : L.dataSize = (L.sorted.flatMap (·.payload)).length := by
    rw [h5, hsum, List.length_flatMap]
    congr 1
    exact (List.map_congr_left hpay).symm
  have ho := shallow_ordinary_file
  have key : Shallow isoFields PMP4File.handle 8 Whatever Whatever (header ++ PMP4.marshalMdat L.dataSize L.sorted) 1 := by
    rw [file_mdat_box _ _ hflat (by omega)]
    have hmd : (box [0x6D, 0x64, 0x61, 0x74] (L.sorted.flatMap (·.payload))).length < 2 ^ 32 := by
      rw [box_length _ _ (by rfl), ← hflat]; omega
    refine shallow_append ?_ (shallow_plain (by decide) (by rfl) hmd (ho.plain _ (by decide) (by decide)))
    rw [k4]
    generalize hF : (fun l => PMP4.shiftChunks (header.length + 8) (PMP4.marshalSTCO l)) = F at k3 ⊢
    refine shallow_append (shallow_plain (by decide) (by rfl) (by rw [box_length _ _ (by rfl), file_ftyp_length]; decide) (ho.plain _ (by decide) (by decide))) ?_
    refine shallow_inner (by decide) (by rfl) k3 (fun _ => rfl) ho.last ?_
    rw [box_length _ _ (by rfl), List.length_append] at k3
    refine shallow_append (shallow_mvhd ho _ (file_mvhd_fields _ _ _ rfl) (file_mvhd_length _ _)) ?_
    unfold fileTraks at k3 ⊢
    refine shallow_flat _ _ _ fun x hx => ?_
    have := shallow_part_length (fun x : PMP4File.Track × FileParts => fileTrak x.1.toTrack x.2 (F x.1.samples)) xs x hx
    exact shallow_file_trak _ _ _ _ (k2 x hx).written (by omega)
  unfold Depth.presentationUnmarshal PMP4File.unmarshal
  rw [shallow_file (P := Whatever) trivial key]

/-! ### Parts -/

theorem shallow_part (b : Bytes) (p : FMP4.Part) (hf : FitsPart32 p) :
    Shallow (fun _ _ => some 0) (Depth.partsHandle b) 3 Whatever Whatever (partBytes p) 1 := by
  have hl := hf.2.2
  have P : ∀ (typ body : Bytes) (depth : Nat), depth ≤ 3 → typ.length = 4 → (box typ body).length < 2 ^ 32 → typ ≠ FMP4.typMoof → typ ≠ FMP4.typTraf →
      Shallow (fun _ _ => some 0) (Depth.partsHandle b) 3 Whatever Whatever (box typ body) depth :=
    fun typ body depth hd ht hl h1 h2 => shallow_plain hd ht hl (shallow_parts_handle b typ h1 h2)
  have ho : (moof p ((trueOffsets (moofSize p + 8) 0 p.tracks).map Int.ofNat)).length < 2 ^ 32 := by
    rw [fmp4_moof_length p _ (by rw [List.length_map, fmp4_trueOffsets_length])]
    unfold moofSize
    omega
  unfold partBytes
  generalize (trueOffsets (moofSize p + 8) 0 p.tracks).map Int.ofNat = offs at ho ⊢
  refine shallow_append ?_ (P _ _ _ (by decide) (by rfl) (by unfold Spec.FMP4.mdat at hl; omega) (by decide) (by decide))
  unfold Spec.FMP4.moof at ho ⊢
  refine shallow_inner (by decide) (by rfl) ho (fun _ => rfl) (shallow_parts_last b) ?_
  rw [box_length _ _ (by rfl), List.length_append] at ho
  refine shallow_append (P _ _ _ (by decide) (by rfl) (by unfold Spec.FMP4.fullBox at ho; omega) (by decide) (by decide)) ?_
  rw [show (List.zipWith Spec.FMP4.traf p.tracks offs).flatten = (List.zipWith Spec.FMP4.traf p.tracks offs).flatMap id by simp] at ho ⊢
  refine shallow_flat _ _ _ fun x hx => ?_
  have hx' := shallow_part_length id _ x hx
  obtain ⟨t, d, rfl⟩ : ∃ t d, x = Spec.FMP4.traf t d := by
    rw [← List.map_uncurry_zip_eq_zipWith] at hx
    obtain ⟨⟨t, d⟩, _, e⟩ := List.mem_map.1 hx
    exact ⟨t, d, e.symm⟩
  have ht : (Spec.FMP4.traf t d).length < 2 ^ 32 := by
    show (id (Spec.FMP4.traf t d)).length < _; omega
  clear hx' ho hx
  show Shallow _ _ _ _ _ (Spec.FMP4.traf t d) _
  unfold Spec.FMP4.traf at ht ⊢
  refine shallow_inner (by decide) (by rfl) ht (fun _ => rfl) (shallow_parts_last b) ?_
  rw [box_length _ _ (by rfl), List.length_append, List.length_append] at ht
  refine shallow_append (shallow_append (P _ _ _ (by decide) (by rfl) (by unfold Spec.FMP4.fullBox at ht; omega) (by decide) (by decide))
    (P _ _ _ (by decide) (by rfl) (by unfold Spec.FMP4.fullBox at ht; omega) (by decide) (by decide)))
    (P _ _ _ (by decide) (by rfl) (by unfold Spec.FMP4.run Spec.FMP4.fullBox at ht; omega) (by decide) (by decide))

/-- A limit of 3 levels changes nothing for parts that `Parts.Marshal` has written. -/
theorem C107_parts_written (l : List FMP4.Part) (g : SBuf) (hp : ∀ p ∈ l, FitsPart32 p) (h : FMP4.marshalParts l ⟨[], 0⟩ = .ok g) :
    Depth.partsUnmarshal 3 g.buf = FMP4.unmarshal g.buf := by
  have h0 : (⟨[], 0⟩ : SBuf) = full [] := rfl
  rw [h0, fmp4_marshalParts l [] fun p h => (hp p h).2.2] at h
  cases h
  have key : Shallow (fun _ _ => some 0) (Depth.partsHandle (full ([] ++ l.flatMap partBytes)).buf) 3 Whatever Whatever
      (full ([] ++ l.flatMap partBytes)).buf 1 := by
    show Shallow _ _ _ _ _ ([] ++ l.flatMap partBytes) _
    rw [List.nil_append]
    exact shallow_flat _ _ _ fun p h => shallow_part _ p (hp p h)
  unfold Depth.partsUnmarshal FMP4.unmarshal
  rw [shallow_file (P := Whatever) trivial key, deep_parts]

/-! ## Examples -/

/-- A segment with a track and user data. -/
def shallowInit : Init := { tracks := [{ id := 1, timeScale := 48000, codec := some (.opus 2) }], userData := [(typMoov, [1, 2, 3])] }

/-- It is written; it is read with a limit of 8, and not with a limit of 7. -/
example : (FMP4Init.marshal ⟨[], 0⟩ shallowInit >>= fun f => Depth.initUnmarshal 8 isoFields f.buf) = .ok shallowInit := by decide +kernel
example : (FMP4Init.marshal ⟨[], 0⟩ shallowInit >>= fun f => Depth.initUnmarshal 7 isoFields f.buf) = .err "too deep" := by decide +kernel
example : ∀ u ∈ shallowInit.userData, u.1.length = 4 := by decide

/-- The same with a presentation. -/
example : (PMP4File.marshal fileExample >>= fun b => Depth.presentationUnmarshal 8 isoFields b >>= fun l => .ok (l.map (·.1.id))) = .ok [1, 4294967295] := by decide +kernel
example : (PMP4File.marshal fileExample >>= fun b => Depth.presentationUnmarshal 7 isoFields b >>= fun l => .ok (l.map (·.1.id))) = .err "too deep" := by decide +kernel

/-- And with parts, which need 3 levels. -/
example : (FMP4.marshalParts fisoExample ⟨[], 0⟩ >>= fun g => Depth.partsUnmarshal 3 g.buf >>= fun l => .ok l.length) = .ok fisoExample.length := by decide +kernel
example : (FMP4.marshalParts fisoExample ⟨[], 0⟩ >>= fun g => Depth.partsUnmarshal 2 g.buf >>= fun l => .ok l.length) = .err "too deep" := by decide +kernel

end Verif.Props
