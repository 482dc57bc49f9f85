import Verif.Props.FMP4Runs

/-!
# C71: fragments are read as in ISO 14496-12
-/

namespace Verif.Props
open FMP4
open Spec (beBytes)
open Spec.FMP4 (box fullBox beSigned split)
open Spec.Fragments
open ByteR (beBytes_length)

/-- The header that is read. -/
def headValue (t : Traf) : Tfhd := ⟨t.id, t.duration.getD 0, t.size.getD 0, t.flags.getD 0⟩

/-- The content of the `tfhd` box. -/
def headContent (t : Traf) : Bytes :=
  beBytes 1 0 ++ beBytes 3 t.headFlags ++
    (beBytes 4 t.id ++ opt 8 t.baseOffset ++ opt 4 t.description ++ opt 4 t.duration ++ opt 4 t.size ++ opt 4 t.flags)

/-- The content of the `tfdt` box. -/
def timeContent (t : Traf) : Bytes := beBytes 1 (if t.longTime then 1 else 0) ++ beBytes 3 0 ++ beBytes (if t.longTime then 8 else 4) t.time

theorem frag_decodeTfhd (t : Traf) (h0 : t.id < 2 ^ 32) (hb : t.baseOffset = none) (h1 : t.description.getD 0 < 2 ^ 32)
    (h2 : t.duration.getD 0 < 2 ^ 32) (h3 : t.size.getD 0 < 2 ^ 32) (h4 : t.flags.getD 0 < 2 ^ 32) :
    decodeTfhd (headContent t) = .ok (headValue t) := by
  obtain ⟨f1, f2, f3, f4, f5, f6⟩ := frag_head_flags t.baseOffset.isSome t.description.isSome t.duration.isSome t.size.isSome t.flags.isSome t.baseIsMoof
  have hf : t.headFlags = bit t.baseOffset.isSome 1 + bit t.description.isSome 2 + bit t.duration.isSome 8 + bit t.size.isSome 0x10 +
    bit t.flags.isSome 0x20 + bit t.baseIsMoof 0x20000 := rfl
  rw [← hf] at f1 f2 f3 f4 f5 f6
  unfold decodeTfhd headContent
  rw [fmp4_takeFull _ _ _ (by omega) f6, Res.bind_ok]
  simp only [List.append_assoc]
  rw [fmp4_takeBE 4 _ _ (by omega), Res.bind_ok]
  simp only
  rw [f1, f2, f3, f4, f5, hb]
  have h8 : ∀ x : Bytes, takeBE (if (none : Option Nat).isSome = true then 8 else 0) (opt 8 none ++ x) = .ok (0, x) := fun x => rfl
  rw [h8, Res.bind_ok]
  simp only
  rw [frag_takeOpt _ _ h1, Res.bind_ok]
  simp only
  rw [frag_takeOpt _ _ h2, Res.bind_ok]
  simp only
  rw [frag_takeOpt _ _ h3, Res.bind_ok]
  simp only
  have := frag_takeOpt t.flags [] h4
  rw [List.append_nil] at this
  rw [this, Res.bind_ok]
  rfl

theorem frag_handle_tfhd (b : Bytes) (bi : BoxInfo) (ex : Reader → Res Reader) (ht : bi.typ = typTfhd) (t : Traf)
    (hd : decodeTfhd (bi.payload b) = .ok (headValue t))
    (ps : List Part) (q : Nat) (ts : List PartTrack) (tr : PartTrack) (mo : Nat) (tfdt : Option Nat) :
    handle b bi ex (inTrack ps q ts tr mo tfdt none) = .ok (inTrack ps q ts { tr with id := t.id } mo tfdt (some (headValue t))) := by
  unfold handle
  rw [ht, if_neg (by decide), if_neg (by decide), if_neg (by decide), if_pos rfl, if_neg (by simp [inTrack]), hd, Res.bind_ok,
    fmp4_onTrack_in, Res.bind_ok]
  rfl

theorem frag_decodeTfdt (t : Traf) (h : t.time < (if t.longTime then 2 ^ 64 else 2 ^ 32)) : decodeTfdt (timeContent t) = .ok t.time := by
  unfold decodeTfdt timeContent
  cases hl : t.longTime
  · rw [hl] at h
    rw [fmp4_takeFull _ _ _ (by decide) (by decide), Res.bind_ok]
    have := fmp4_takeBE 4 t.time [] h
    rw [List.append_nil] at this
    show (takeBE 4 (beBytes 4 t.time) >>= _) = _
    rw [this, Res.bind_ok]
  · rw [hl] at h
    rw [fmp4_takeFull _ _ _ (by decide) (by decide), Res.bind_ok]
    have := fmp4_takeBE 8 t.time [] h
    rw [List.append_nil] at this
    show (takeBE 8 (beBytes 8 t.time) >>= _) = _
    rw [this, Res.bind_ok]

theorem frag_handle_tfdt (b : Bytes) (bi : BoxInfo) (ex : Reader → Res Reader) (ht : bi.typ = typTfdt) (base : Nat)
    (hd : decodeTfdt (bi.payload b) = .ok base)
    (ps : List Part) (q : Nat) (ts : List PartTrack) (t : PartTrack) (mo : Nat) (tfhd : Option Tfhd) :
    handle b bi ex (inTrack ps q ts t mo none tfhd) = .ok (inTrack ps q ts { t with baseTime := base } mo (some base) tfhd) := by
  unfold handle
  rw [ht, if_neg (by decide), if_neg (by decide), if_neg (by decide), if_neg (by decide), if_pos rfl, if_neg (by simp [inTrack]), hd,
    Res.bind_ok, fmp4_onTrack_in, Res.bind_ok]
  rfl

theorem frag_read_runs (b : Bytes) (hbl : b.length < 2 ^ 64) (t : Traf) (mo : Nat) (hb0 : t.baseOffset = none) (ps : List Part) (q : Nat)
    (ts : List PartTrack) (tfdt : Option Nat) (l : List Run) :
    ∀ (fuel : Nat) (a c : Bytes) (tr : PartTrack), (∀ r ∈ l, GoodRun r t b mo) → b = a ++ (l.flatMap Run.bytes ++ c) →
      b.length < a.length + fuel → (l.flatMap Run.bytes).length < 2 ^ 32 →
      readLevel fuel b a.length (some (l.flatMap Run.bytes).length) (inTrack ps q ts tr mo tfdt (some (headValue t))) =
        .ok (inTrack ps q ts { tr with samples := tr.samples ++ l.flatMap fun r => r.samples t b mo } mo tfdt (some (headValue t))) := by
  induction l with
  | nil =>
    intro fuel a c tr _ hb hf _
    obtain ⟨f, rfl⟩ : ∃ f, fuel = f + 1 := ⟨fuel - 1, by rw [hb, List.length_append] at hf; omega⟩
    rw [List.flatMap_nil, List.flatMap_nil, List.length_nil, fmp4_end, List.append_nil]
  | cons r l ih =>
    intro fuel a c tr hg hb hf hsz
    rw [List.flatMap_cons, List.length_append] at hsz ⊢
    rw [List.flatMap_cons, List.append_assoc] at hb
    rw [List.flatMap_cons]
    have hrl : r.bytes.length = 8 + (runContent r).length := by rw [frag_run_bytes, box_length _ _ rfl]
    have hlen : b.length = a.length + (r.bytes.length + ((l.flatMap Run.bytes).length + c.length)) := by
      conv => lhs; rw [hb]
      simp only [List.length_append]
    obtain ⟨f, rfl⟩ : ∃ f, fuel = f + 1 := ⟨fuel - 1, by omega⟩
    have hb1 : b = a ++ (box typTrun (runContent r) ++ (l.flatMap Run.bytes ++ c)) := hb
    rw [hrl, fmp4_step f b a _ typTrun (runContent r) _ (some (l.flatMap Run.bytes).length) _ hb1 rfl (by omega) (Or.inr ⟨_, rfl, rfl⟩),
      headValue, frag_handle_trun b a _ _ r t mo (hg r List.mem_cons_self) hb0 hb hbl, Res.bind_ok, ← frag_run_bytes, ← headValue,
      ih f (a ++ r.bytes) c _ (fun x hx => hg x (List.mem_cons_of_mem _ hx)) (by rw [List.append_assoc]; exact hb)
        (by rw [List.length_append]; omega) (by omega)]
    simp only [List.append_assoc]

theorem frag_read_traf (n : Nat) (b a c : Bytes) (t : Traf) (hb : b = a ++ (t.bytes ++ c)) (hbl : b.length < 2 ^ 64) (mo : Nat)
    (ht : GoodTraf t b mo) (hsz : t.bytes.length < 2 ^ 32) (hn : b.length < a.length + n)
    (ps : List Part) (q : Nat) (ts : List PartTrack) (st : State) (hst : st = .waitingTraf ∨ st = .waitingBoxes) (x : Bool)
    (tfdt : Option Nat) (tfhd : Option Tfhd) (hinc : (x && (tfdt.isNone || tfhd.isNone)) = false) (left left' : Option Nat)
    (hr : Remains t.bytes.length left left') :
    readLevel (n + 1) b a.length left ⟨st, ps ++ [⟨q, ts⟩], mo, x, tfdt, tfhd⟩ =
      readLevel n b (a ++ t.bytes).length left' (inTrack ps q ts (t.track b mo) mo (some t.time) (some (headValue t))) := by
  obtain ⟨h1, _, h2, h3, h4, h5, h6, h7, h8⟩ := ht
  have hdA := frag_decodeTfhd t h1 h2 h3 h4 h5 h6
  have hdB := frag_decodeTfdt t h7
  have htraf : t.bytes = box typTraf (box typTfhd (headContent t) ++ box typTfdt (timeContent t) ++ t.runs.flatMap Run.bytes) := rfl
  generalize headContent t = A at *
  generalize timeContent t = B at *
  generalize hC : t.runs.flatMap Run.bytes = C at *
  have hbody : (box typTfhd A ++ box typTfdt B ++ C).length = (8 + A.length) + ((8 + B.length) + C.length) := by
    rw [List.length_append, List.length_append, box_length _ _ rfl, box_length _ _ rfl]; omega
  have htl : t.bytes.length = 8 + (box typTfhd A ++ box typTfdt B ++ C).length := by rw [htraf, box_length _ _ rfl]
  rw [htraf] at hb
  rw [htl] at hr hsz
  have hblen : b.length = a.length + (8 + (box typTfhd A ++ box typTfdt B ++ C).length) + c.length := by
    rw [hb, List.length_append, List.length_append, box_length _ _ rfl]; omega
  rw [fmp4_step n b a c typTraf _ left left' _ hb rfl hsz hr]
  unfold handle
  simp only
  rw [if_neg (by decide), if_neg (by decide), if_pos trivial, if_neg (by rcases hst with h | h <;> subst h <;> simp),
    if_neg (by unfold Reader.incomplete; rw [hinc]; simp)]
  have hop : Reader.onPart ⟨st, ps ++ [⟨q, ts⟩], mo, x, tfdt, tfhd⟩ (fun p => { p with tracks := p.tracks ++ [({} : PartTrack)] }) =
      .ok ⟨st, ps ++ [⟨q, ts ++ [({} : PartTrack)]⟩], mo, x, tfdt, tfhd⟩ := by unfold Reader.onPart; simp
  rw [hop, Res.bind_ok]
  generalize ha1 : a ++ (beBytes 4 (8 + (box typTfhd A ++ box typTfdt B ++ C).length) ++ typTraf) = a1
  have ha1l : a1.length = a.length + 8 := by
    rw [← ha1]; simp only [List.length_append, beBytes_length]; rfl
  have hb1 : b = a1 ++ (box typTfhd A ++ (box typTfdt B ++ (C ++ c))) := by
    rw [hb, ← ha1, fmp4_box_eq typTraf]
    simp only [List.append_assoc]
  have hb2 : b = (a1 ++ box typTfhd A) ++ (box typTfdt B ++ (C ++ c)) := by rw [hb1]; simp only [List.append_assoc]
  have hb3 : b = (a1 ++ box typTfhd A ++ box typTfdt B) ++ (C ++ c) := by rw [hb1]; simp only [List.append_assoc]
  obtain ⟨k, rfl⟩ : ∃ k, n = k + 2 := ⟨n - 2, by omega⟩
  have hin : (⟨.waitingBoxes, ps ++ [⟨q, ts ++ [({} : PartTrack)]⟩], mo, true, none, none⟩ : Reader) = inTrack ps q ts {} mo none none := rfl
  rw [← ha1l, hbody, hin, fmp4_step (k + 1) b a1 _ typTfhd A _ (some ((8 + B.length) + C.length)) _ hb1 rfl (by omega)
      (Or.inr ⟨_, rfl, rfl⟩)]
  have hpA : BoxInfo.payload ⟨a1.length, 8 + A.length, 8, typTfhd⟩ b = A := by rw [hb1]; exact fmp4_payload a1 _ typTfhd A rfl
  have hpB : BoxInfo.payload ⟨(a1 ++ box typTfhd A).length, 8 + B.length, 8, typTfdt⟩ b = B := by
    rw [hb2]; exact fmp4_payload (a1 ++ box typTfhd A) _ typTfdt B rfl
  rw [frag_handle_tfhd b _ _ rfl t (by rw [hpA, hdA]), Res.bind_ok,
    fmp4_step k b (a1 ++ box typTfhd A) _ typTfdt B _ (some C.length) _ hb2 rfl (by omega) (Or.inr ⟨_, rfl, rfl⟩),
    frag_handle_tfdt b _ _ rfl t.time (by rw [hpB, hdB]), Res.bind_ok]
  have hruns := frag_read_runs b hbl t mo h2 ps q ts (some t.time) t.runs k (a1 ++ box typTfhd A ++ box typTfdt B) c
  rw [hC] at hruns
  rw [hruns _ h8 hb3 (by simp only [List.length_append, box_length _ _ (rfl : typTfhd.length = 4), box_length _ _ (rfl : typTfdt.length = 4)]; omega)
    (by omega), Res.bind_ok, htraf]
  rfl

theorem frag_read_trafs (b : Bytes) (hbl : b.length < 2 ^ 64) (mo : Nat) (ps : List Part) (q : Nat) (l : List Traf) :
    ∀ (fuel : Nat) (a c : Bytes) (ts : List PartTrack) (r : Reader),
      b = a ++ (l.flatMap Traf.bytes ++ c) → (∀ t ∈ l, GoodTraf t b mo) →
      (l.flatMap Traf.bytes).length < 2 ^ 32 → b.length < a.length + fuel → Between r ps q ts mo →
      ∃ r', readLevel (fuel + 1) b a.length (some (l.flatMap Traf.bytes).length) r = .ok r' ∧
        Between r' ps q (ts ++ l.map fun t => t.track b mo) mo := by
  induction l with
  | nil =>
    intro fuel a c ts r _ _ _ _ hr
    exact ⟨r, fmp4_end _ _ _ _, by rw [List.map_nil, List.append_nil]; exact hr⟩
  | cons t l ih =>
    intro fuel a c ts r hb hf hsz hn hr
    simp only [List.flatMap_cons, List.map_cons, List.length_append, List.append_assoc] at hb hsz ⊢
    obtain ⟨hst, hinc, hp, hmo⟩ := hr
    have hr : r = ⟨r.state, ps ++ [⟨q, ts⟩], mo, r.hasTrack, r.tfdt, r.tfhd⟩ := by rw [← hp, ← hmo]
    have hlen : b.length = a.length + (t.bytes.length + ((l.flatMap Traf.bytes).length + c.length)) := by
      conv => lhs; rw [hb]
      simp only [List.length_append]
    have h8 : 8 ≤ t.bytes.length := by unfold Traf.bytes; rw [box_length _ _ rfl]; omega
    rw [hr, frag_read_traf fuel b a _ t hb hbl mo (hf t List.mem_cons_self) (by omega) hn ps q ts r.state hst r.hasTrack r.tfdt r.tfhd hinc _
      (some _) (Or.inr ⟨_, rfl, rfl⟩)]
    obtain ⟨f, rfl⟩ : ∃ f, fuel = f + 1 := ⟨fuel - 1, by omega⟩
    obtain ⟨r', e, h⟩ := ih f (a ++ t.bytes) c (ts ++ [t.track b mo])
      (inTrack ps q ts (t.track b mo) mo (some t.time) (some (headValue t))) (by rw [List.append_assoc]; exact hb)
      (fun x hx => hf x (List.mem_cons_of_mem _ hx)) (by omega)
      (by rw [List.length_append]; omega) ⟨Or.inr rfl, rfl, rfl, rfl⟩
    refine ⟨r', e, ?_⟩
    rw [List.append_assoc] at h
    exact h

/-- A fragment is read. -/
theorem frag_read (fuel : Nat) (b a c : Bytes) (p : Frag) (h1 : p.sequenceNumber < 2 ^ 32) (h2 : p.moof.length < 2 ^ 32)
    (h3 : 8 + p.data.length < 2 ^ 32) (h4 : ∀ t ∈ p.trafs, GoodTraf t b a.length) (hb : b = a ++ (p.bytes ++ c)) (hbl : b.length < 2 ^ 64)
    (hfuel : b.length < a.length + fuel + 2) (r : Reader) (hs : r.state = .waitingMoof) (hi : r.incomplete = false) :
    ∃ r', readLevel (fuel + 2) b a.length none r = readLevel fuel b (a ++ p.bytes).length none r' ∧ r'.state = .waitingMoof ∧
      r'.incomplete = false ∧ r'.parts = r.parts ++ [⟨p.sequenceNumber, p.trafs.map fun t => t.track b a.length⟩] := by
  generalize hM : beBytes 1 0 ++ beBytes 3 0 ++ beBytes 4 p.sequenceNumber = M
  have hMl : M.length = 8 := by rw [← hM]; simp [beBytes_length]
  generalize hT : p.trafs.flatMap Traf.bytes = T
  have hpb : p.bytes = p.moof ++ box typMdat p.data := rfl
  have hmoof : p.moof = box typMoof (box typMfhd M ++ T) := by rw [← hM, ← hT]; rfl
  have hbody : (box typMfhd M ++ T).length = (8 + M.length) + T.length := by
    rw [List.length_append, box_length _ _ rfl]
  have hms : p.moof.length = 8 + (box typMfhd M ++ T).length := by rw [hmoof, box_length _ _ rfl]
  have hb1 : b = a ++ (box typMoof (box typMfhd M ++ T) ++ (box typMdat p.data ++ c)) := by
    rw [hb, hpb, hmoof, List.append_assoc]
  have hb2 : b = (a ++ p.moof) ++ (box typMdat p.data ++ c) := by
    rw [hb, hpb]; simp only [List.append_assoc]
  have hlen : b.length = a.length + (p.moof.length + (8 + p.data.length) + c.length) := by
    rw [hb2, List.length_append, List.length_append, List.length_append, box_length _ _ rfl]; omega
  rw [fmp4_step (fuel + 1) b a _ typMoof _ none none r hb1 rfl (by omega) (Or.inl ⟨rfl, rfl⟩)]
  generalize ha1 : a ++ (beBytes 4 (8 + (box typMfhd M ++ T).length) ++ typMoof) = a1
  have ha1l : a1.length = a.length + 8 := by rw [← ha1]; simp only [List.length_append, beBytes_length]; rfl
  have hb3 : b = a1 ++ (box typMfhd M ++ (T ++ (box typMdat p.data ++ c))) := by
    rw [hb1, ← ha1, fmp4_box_eq typMoof]
    simp only [List.append_assoc]
  have hb4 : b = (a1 ++ box typMfhd M) ++ (p.trafs.flatMap Traf.bytes ++ (box typMdat p.data ++ c)) := by
    rw [hT, hb3]; simp only [List.append_assoc]
  have hmf : ∀ r0 : Reader, r0.state = .waitingMfhd → r0.incomplete = false → r0.parts = r.parts ++ [({} : Part)] → r0.moofOffset = a.length →
      ∃ r', handle b ⟨a1.length, 8 + M.length, 8, typMfhd⟩ (fun r => readLevel fuel b (a1.length + 8) (some M.length) r) r0 = .ok r' ∧
        Between r' r.parts p.sequenceNumber [] a.length := by
    intro r0 g1 g2 g3 g4
    have hd : decodeMfhd (BoxInfo.payload ⟨a1.length, 8 + M.length, 8, typMfhd⟩ b) = .ok p.sequenceNumber := by
      rw [hb3, fmp4_payload a1 _ typMfhd M rfl, ← hM]
      unfold decodeMfhd
      rw [fmp4_takeFull _ _ _ (by omega) (by omega), Res.bind_ok]
      simp only
      have := fmp4_takeBE 4 p.sequenceNumber [] (by omega)
      rw [List.append_nil] at this
      rw [this, Res.bind_ok]
    refine ⟨{ r0 with parts := r.parts ++ [⟨p.sequenceNumber, []⟩], state := .waitingTraf }, ?_, Or.inl rfl, g2, rfl, g4⟩
    unfold handle
    simp only
    rw [if_neg (by decide), if_pos trivial, g1, if_neg (by simp), hd, Res.bind_ok]
    have : r0.onPart (fun p_1 => { p_1 with sequenceNumber := p.sequenceNumber }) = .ok { r0 with parts := r.parts ++ [⟨p.sequenceNumber, []⟩] } := by
      unfold Reader.onPart
      rw [g3]; simp
    rw [this, Res.bind_ok]
  obtain ⟨r1, e1, hr1⟩ := hmf { r with parts := r.parts ++ [({} : Part)], moofOffset := a.length, state := .waitingMfhd } rfl hi rfl rfl
  obtain ⟨f, rfl⟩ : ∃ f, fuel = f + 1 := ⟨fuel - 1, by omega⟩
  obtain ⟨r2, e2, hr2⟩ := frag_read_trafs b hbl a.length r.parts p.sequenceNumber p.trafs f (a1 ++ box typMfhd M) (box typMdat p.data ++ c) [] r1
    hb4 h4 (by rw [hT]; omega) (by rw [List.length_append, box_length _ _ rfl]; omega) hr1
  rw [hT] at e2
  have hmo : handle b ⟨a.length, 8 + (box typMfhd M ++ T).length, 8, typMoof⟩
      (fun r => readLevel (f + 1 + 1) b (a.length + 8) (some (box typMfhd M ++ T).length) r) r = .ok r2 := by
    unfold handle
    simp only
    rw [if_pos trivial, hs, if_neg (by simp), ← ha1l, hbody,
      fmp4_step (f + 1) b a1 _ typMfhd M _ (some T.length) _ hb3 rfl (by omega) (Or.inr ⟨_, rfl, rfl⟩),
      e1, Res.bind_ok, e2]
  obtain ⟨g1, g2, g3, g4⟩ := hr2
  rw [hmo, Res.bind_ok, ← hmoof, fmp4_step (f + 1) b (a ++ p.moof) c typMdat _ none none r2 hb2 rfl (by omega) (Or.inl ⟨rfl, rfl⟩)]
  have hmd : handle b ⟨(a ++ p.moof).length, 8 + p.data.length, 8, typMdat⟩
      (fun r => readLevel (f + 1) b ((a ++ p.moof).length + 8) (some p.data.length) r) r2 =
      .ok { r2 with state := .waitingMoof } := by
    unfold handle
    simp only
    rw [if_neg (by decide), if_neg (by decide), if_neg (by decide), if_neg (by decide), if_neg (by decide), if_neg (by decide),
      if_pos trivial, if_neg (by rcases g1 with h | h <;> rw [h] <;> simp), g2, if_neg (by simp)]
  refine ⟨{ r2 with state := .waitingMoof }, ?_, rfl, g2, ?_⟩
  · rw [hmd, Res.bind_ok, hpb, ← List.append_assoc]
  · show r2.parts = _
    rw [g3, List.nil_append]

theorem frag_reads (b : Bytes) (hbl : b.length < 2 ^ 64) (l : List Frag) :
    ∀ (fuel : Nat) (a : Bytes) (r : Reader), GoodFrags b a.length l → b = a ++ l.flatMap Frag.bytes → b.length < a.length + fuel →
      r.state = .waitingMoof → r.incomplete = false →
      ∃ r', readLevel fuel b a.length none r = .ok r' ∧ r'.state = .waitingMoof ∧ r'.parts = r.parts ++ parts b a.length l := by
  induction l with
  | nil =>
    intro fuel a r _ hb hfuel hs _
    rw [List.flatMap_nil, List.append_nil] at hb
    subst hb
    obtain ⟨f, rfl⟩ : ∃ f, fuel = f + 1 := ⟨fuel - 1, by omega⟩
    exact ⟨r, fmp4_end_root _ _ _, hs, by rw [parts, List.append_nil]⟩
  | cons p l ih =>
    intro fuel a r hf hb hfuel hs hi
    obtain ⟨h1, h2, h3, h4, h5⟩ := hf
    rw [List.flatMap_cons] at hb
    have hpl : 16 ≤ p.bytes.length := by
      unfold Frag.bytes Frag.moof
      rw [List.length_append, box_length _ _ rfl, box_length _ _ rfl]; omega
    have hlen : b.length = a.length + (p.bytes.length + (l.flatMap Frag.bytes).length) := by rw [hb, List.length_append, List.length_append]
    obtain ⟨f, rfl⟩ : ∃ f, fuel = f + 2 := ⟨fuel - 2, by omega⟩
    obtain ⟨r', e, g1, g2, g3⟩ := frag_read f b a _ p h1 h2 h3 h4 hb hbl (by omega) r hs hi
    obtain ⟨r'', e', k1, k2⟩ := ih f (a ++ p.bytes) r' (by rw [List.length_append]; exact h5) (by rw [List.append_assoc]; exact hb)
      (by rw [List.length_append]; omega) g1 g2
    refine ⟨r'', e.trans e', k1, ?_⟩
    rw [k2, g3, List.append_assoc, List.length_append]
    rfl

/-- C71, for fragments without `first_sample_flags` and without base data offset, and whose signed fields are in range: `Parts.Unmarshal` returns
the samples that the standard says are there. Missing: fragments that use them, for which it is false (`C71_first_flags_false`,
`C71_base_offset_false`, `C71_offset_false`), and tracks with default-base-is-moof unset. -/
theorem C71_fragments_partial (l : List Frag) (hg : GoodFrags (l.flatMap Frag.bytes) 0 l) (hl : (l.flatMap Frag.bytes).length < 2 ^ 64) :
    unmarshal (l.flatMap Frag.bytes) = .ok (parts (l.flatMap Frag.bytes) 0 l) := by
  unfold unmarshal
  obtain ⟨r', e, h1, h2⟩ := frag_reads (l.flatMap Frag.bytes) hl l ((l.flatMap Frag.bytes).length + 1) [] {} hg rfl
    (by simp) rfl rfl
  rw [List.length_nil] at e
  rw [e, Res.bind_ok, h1, if_neg (by simp), h2]
  rfl

/-- Two tracks; the first has two runs, in reverse order in the file, with defaults for size, duration and flags; the second has offsets. -/
def mixedFrag : Frag :=
  { sequenceNumber := 9,
    trafs := [
      { id := 1, duration := some 512, size := some 2, flags := some 0x10000, time := 2 ^ 40,
        runs := [
          { dataOffset := some 232, rows := [{}, {}] },
          { dataOffset := some 228, hasFlags := true, hasSize := true, rows := [{ size := 4, flags := 0x2000000 }] }] },
      { id := 2, longTime := false, description := some 1, time := 7,
        runs := [{ version := 1, dataOffset := some 236, hasDuration := true, hasSize := true, hasOffset := true, rows := [{ duration := 3, size := 1, offset := -5 }] },
          { rows := [] }] }],
    data := [1, 2, 3, 4, 5, 6, 7, 8, 9] }

/-- It is followed by a fragment without tracks. -/
def mixedFrags : List Frag := [mixedFrag, { sequenceNumber := 10 }]

example : mixedFrag.moof.length = 220 := by decide +kernel

theorem frag_mixed_good : GoodFrags (mixedFrags.flatMap Frag.bytes) 0 mixedFrags := by
  have hlen : (mixedFrags.flatMap Frag.bytes).length = 269 := by decide +kernel
  refine ⟨by decide, by decide +kernel, by decide, ?_, by decide, by decide +kernel, by decide, ?_, trivial⟩
  · intro t ht
    simp only [mixedFrag, List.mem_cons, List.not_mem_nil, or_false] at ht
    rcases ht with rfl | rfl
    · refine ⟨by decide, rfl, rfl, by decide, by decide, by decide, by decide, by decide, ?_⟩
      intro r hr
      simp only [List.mem_cons, List.not_mem_nil, or_false] at hr
      rcases hr with rfl | rfl
      · exact ⟨by decide, by decide, rfl, by decide, fun _ => ⟨232, rfl, by decide, by decide, by decide, by rw [hlen]; decide⟩⟩
      · exact ⟨by decide, by decide, rfl, by decide, fun _ => ⟨228, rfl, by decide, by decide, by decide, by rw [hlen]; decide⟩⟩
    · refine ⟨by decide, rfl, rfl, by decide, by decide, by decide, by decide, by decide, ?_⟩
      intro r hr
      simp only [List.mem_cons, List.not_mem_nil, or_false] at hr
      rcases hr with rfl | rfl
      · exact ⟨by decide, by decide, rfl, by decide, fun _ => ⟨236, rfl, by decide, by decide, by decide, by rw [hlen]; decide⟩⟩
      · exact ⟨by decide, by decide, rfl, by decide, fun h => absurd rfl h⟩
  · intro t ht
    cases ht

example : parts (mixedFrags.flatMap Frag.bytes) 0 mixedFrags =
    [⟨9, [{ id := 1, baseTime := 2 ^ 40, samples := [⟨512, 0, true, [5, 6]⟩, ⟨512, 0, true, [7, 8]⟩, ⟨512, 0, false, [1, 2, 3, 4]⟩] },
      { id := 2, baseTime := 7, samples := [⟨3, -5, false, [9]⟩] }]⟩, ⟨10, []⟩] := by decide +kernel

/-- The usual layout of other muxers: the default is non-sync, `first_sample_flags` make the first sample a sync sample. -/
def firstFlagsFrag : Frag :=
  { trafs := [
      { id := 1, duration := some 512, size := some 1, flags := some 0x1010000,
        runs := [{ dataOffset := some 112, firstFlags := some 0x2000000, rows := [{}, {}] }] }],
    data := [1, 2] }

/-- C71 is false of the code: `first_sample_flags` are ignored, so the sync sample is reported as non-sync. -/
theorem C71_first_flags_false :
    unmarshal firstFlagsFrag.bytes = .ok [⟨0, [{ id := 1, baseTime := 0, samples := [⟨512, 0, true, [1]⟩, ⟨512, 0, true, [2]⟩] }]⟩] ∧
    parts firstFlagsFrag.bytes 0 [firstFlagsFrag] = [⟨0, [{ id := 1, baseTime := 0, samples := [⟨512, 0, false, [1]⟩, ⟨512, 0, true, [2]⟩] }]⟩] := by
  decide +kernel

/-- A track with a base data offset. -/
def baseOffsetFrag : Frag :=
  { trafs := [
      { id := 1, baseIsMoof := false, baseOffset := some 112, duration := some 512, size := some 1,
        runs := [{ dataOffset := some 0, rows := [{}, {}] }] }],
    data := [1, 2] }

/-- C71 is false of the code: the base data offset is ignored, so payloads are bytes of the header. -/
theorem C71_base_offset_false :
    unmarshal baseOffsetFrag.bytes = .ok [⟨0, [{ id := 1, baseTime := 0, samples := [⟨512, 0, false, [0]⟩, ⟨512, 0, false, [0]⟩] }]⟩] ∧
    parts baseOffsetFrag.bytes 0 [baseOffsetFrag] = [⟨0, [{ id := 1, baseTime := 0, samples := [⟨512, 0, false, [1]⟩, ⟨512, 0, false, [2]⟩] }]⟩] := by
  decide +kernel

/-- A run of version 0, whose offsets are unsigned. -/
def unsignedFrag : Frag :=
  { trafs := [{ id := 1, duration := some 512, size := some 1, runs := [{ dataOffset := some 108, hasOffset := true, rows := [{ offset := 2 ^ 31 }] }] }],
    data := [1] }

/-- C71 is false of the code: offsets of version 0 are unsigned and are read as signed. -/
theorem C71_offset_false :
    unmarshal unsignedFrag.bytes = .ok [⟨0, [{ id := 1, baseTime := 0, samples := [⟨512, -2 ^ 31, false, [1]⟩] }]⟩] ∧
    parts unsignedFrag.bytes 0 [unsignedFrag] = [⟨0, [{ id := 1, baseTime := 0, samples := [⟨512, 2 ^ 31, false, [1]⟩] }]⟩] := by
  decide +kernel

end Verif.Props
