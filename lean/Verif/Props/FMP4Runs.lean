import Verif.Props.FMP4RoundTrip
import Verif.Spec.Fragments

/-!
# C71: fragments written by other muxers
-/

namespace Verif.Props
open FMP4
open Spec (beBytes)
open Spec.FMP4 (box fullBox beSigned split)
open Spec.Fragments
open ByteR (beBytes_length)
open Bits (toInt32)

/-- A run that the reader supports: no `first_sample_flags`, a data offset relative to `moof`, fields in range, data inside the file. -/
def GoodRun (r : Run) (t : Traf) (file : Bytes) (moof : Nat) : Prop :=
  r.version ≤ 1 ∧ r.rows.length ≤ 19200 ∧ r.firstFlags = none ∧
    (∀ w ∈ r.rows, w.duration < 2 ^ 32 ∧ w.size < 2 ^ 32 ∧ w.flags < 2 ^ 32 ∧ (if r.version = 0 then 0 else -2 ^ 31) ≤ w.offset ∧ w.offset < 2 ^ 31) ∧
    (r.rows ≠ [] → ∃ d : Int, r.dataOffset = some d ∧ -2 ^ 31 ≤ d ∧ d < 2 ^ 31 ∧ 0 ≤ moof + d ∧
      (moof + d).toNat + (r.rows.map (r.sizeOf t)).sum ≤ file.length)

/-- A track that the reader supports: no base data offset, fields in range. -/
def GoodTraf (t : Traf) (file : Bytes) (moof : Nat) : Prop :=
  t.id < 2 ^ 32 ∧ t.baseIsMoof = true ∧ t.baseOffset = none ∧ t.description.getD 0 < 2 ^ 32 ∧ t.duration.getD 0 < 2 ^ 32 ∧ t.size.getD 0 < 2 ^ 32 ∧
    t.flags.getD 0 < 2 ^ 32 ∧ t.time < (if t.longTime then 2 ^ 64 else 2 ^ 32) ∧ ∀ r ∈ t.runs, GoodRun r t file moof

/-- Fragments, from the one at `pos`, that the reader supports. -/
def GoodFrags (file : Bytes) : Nat → List Frag → Prop
  | _, [] => True
  | pos, f :: l => f.sequenceNumber < 2 ^ 32 ∧ f.moof.length < 2 ^ 32 ∧ 8 + f.data.length < 2 ^ 32 ∧ (∀ t ∈ f.trafs, GoodTraf t file pos) ∧
      GoodFrags file (pos + f.bytes.length) l

theorem frag_run_flags : ∀ a b c d e f : Bool,
    hasFlag (bit a 1 + bit b 4 + bit c 0x100 + bit d 0x200 + bit e 0x400 + bit f 0x800) 1 = a ∧
    hasFlag (bit a 1 + bit b 4 + bit c 0x100 + bit d 0x200 + bit e 0x400 + bit f 0x800) 4 = b ∧
    hasFlag (bit a 1 + bit b 4 + bit c 0x100 + bit d 0x200 + bit e 0x400 + bit f 0x800) 0x100 = c ∧
    hasFlag (bit a 1 + bit b 4 + bit c 0x100 + bit d 0x200 + bit e 0x400 + bit f 0x800) 0x200 = d ∧
    hasFlag (bit a 1 + bit b 4 + bit c 0x100 + bit d 0x200 + bit e 0x400 + bit f 0x800) 0x400 = e ∧
    hasFlag (bit a 1 + bit b 4 + bit c 0x100 + bit d 0x200 + bit e 0x400 + bit f 0x800) 0x800 = f ∧
    bit a 1 + bit b 4 + bit c 0x100 + bit d 0x200 + bit e 0x400 + bit f 0x800 < 2 ^ 24 := by decide

theorem frag_head_flags : ∀ a b c d e f : Bool,
    hasFlag (bit a 1 + bit b 2 + bit c 8 + bit d 0x10 + bit e 0x20 + bit f 0x20000) 1 = a ∧
    hasFlag (bit a 1 + bit b 2 + bit c 8 + bit d 0x10 + bit e 0x20 + bit f 0x20000) 2 = b ∧
    hasFlag (bit a 1 + bit b 2 + bit c 8 + bit d 0x10 + bit e 0x20 + bit f 0x20000) 8 = c ∧
    hasFlag (bit a 1 + bit b 2 + bit c 8 + bit d 0x10 + bit e 0x20 + bit f 0x20000) 0x10 = d ∧
    hasFlag (bit a 1 + bit b 2 + bit c 8 + bit d 0x10 + bit e 0x20 + bit f 0x20000) 0x20 = e ∧
    bit a 1 + bit b 2 + bit c 8 + bit d 0x10 + bit e 0x20 + bit f 0x20000 < 2 ^ 24 := by decide

theorem frag_takeOpt (o : Option Nat) (rest : Bytes) (h : o.getD 0 < 2 ^ 32) : takeOpt o.isSome (opt 4 o ++ rest) = .ok (o.getD 0, rest) := by
  cases o with
  | none => rfl
  | some v => exact fmp4_takeOpt4 v rest h

/-- The entry that is read. -/
def rowEntry (r : Run) (w : Row) : TrunEntry :=
  ⟨if r.hasDuration then w.duration else 0, if r.hasSize then w.size else 0, if r.hasFlags then w.flags else 0,
    if r.hasOffset then (w.offset % 2 ^ 32).toNat else 0⟩

theorem frag_entries (r : Run) (l : List Row) : ∀ rest, (∀ w ∈ l, w.duration < 2 ^ 32 ∧ w.size < 2 ^ 32 ∧ w.flags < 2 ^ 32) →
    decodeEntries r.flags l.length (l.flatMap r.row ++ rest) = .ok (l.map (rowEntry r)) := by
  induction l with
  | nil => intro rest _; rfl
  | cons w l ih =>
    intro rest h
    obtain ⟨h1, h2, h3⟩ := h w List.mem_cons_self
    obtain ⟨f1, f2, f3, f4, f5, f6, f7⟩ := frag_run_flags r.dataOffset.isSome r.firstFlags.isSome r.hasDuration r.hasSize r.hasFlags r.hasOffset
    have hf : r.flags = bit r.dataOffset.isSome 1 + bit r.firstFlags.isSome 4 + bit r.hasDuration 0x100 + bit r.hasSize 0x200 +
      bit r.hasFlags 0x400 + bit r.hasOffset 0x800 := rfl
    rw [List.length_cons, List.flatMap_cons, List.map_cons]
    unfold decodeEntries
    rw [← hf] at f3 f4 f5 f6
    rw [f3, f4, f5, f6]
    have hrow : r.row w = (if r.hasDuration then beBytes 4 w.duration else []) ++ (if r.hasSize then beBytes 4 w.size else []) ++
      (if r.hasFlags then beBytes 4 w.flags else []) ++ (if r.hasOffset then beBytes 4 (w.offset % 2 ^ 32).toNat else []) := rfl
    rw [hrow]
    simp only [List.append_assoc]
    rw [fmp4_takeOpt_if _ _ _ h1, Res.bind_ok]
    simp only
    rw [fmp4_takeOpt_if _ _ _ h2, Res.bind_ok]
    simp only
    rw [fmp4_takeOpt_if _ _ _ h3, Res.bind_ok]
    simp only
    rw [fmp4_takeOpt_if _ _ _ (by omega), Res.bind_ok]
    simp only
    rw [ih rest (fun x hx => h x (List.mem_cons_of_mem _ hx)), Res.bind_ok]
    rfl

/-- The content of the `trun` box. -/
def runContent (r : Run) : Bytes :=
  beBytes 1 r.version ++ beBytes 3 r.flags ++
    (beBytes 4 r.rows.length ++ opt 4 (r.dataOffset.map fun d => (d % 2 ^ 32).toNat) ++ opt 4 r.firstFlags ++ r.rows.flatMap r.row)

theorem frag_run_bytes (r : Run) : r.bytes = box typTrun (runContent r) := rfl

/-- What is decoded. -/
def runValue (r : Run) : Trun :=
  ⟨r.version, r.flags, r.rows.length, toInt32 ((r.dataOffset.map fun d => (d % 2 ^ 32).toNat).getD 0), 0, r.rows.map (rowEntry r)⟩

theorem frag_decodeTrun (r : Run) (hv : r.version ≤ 1) (hn : r.rows.length ≤ 19200) (hff : r.firstFlags = none)
    (h : ∀ w ∈ r.rows, w.duration < 2 ^ 32 ∧ w.size < 2 ^ 32 ∧ w.flags < 2 ^ 32) : decodeTrun (runContent r) = .ok (runValue r) := by
  obtain ⟨f1, f2, f3, f4, f5, f6, f7⟩ := frag_run_flags r.dataOffset.isSome r.firstFlags.isSome r.hasDuration r.hasSize r.hasFlags r.hasOffset
  have hf : r.flags = bit r.dataOffset.isSome 1 + bit r.firstFlags.isSome 4 + bit r.hasDuration 0x100 + bit r.hasSize 0x200 +
    bit r.hasFlags 0x400 + bit r.hasOffset 0x800 := rfl
  rw [← hf] at f1 f2 f7
  have hdec := frag_entries r r.rows [] h
  rw [List.append_nil] at hdec
  unfold decodeTrun runContent
  rw [fmp4_takeFull _ _ _ (by omega) f7, Res.bind_ok]
  simp only [List.append_assoc]
  rw [fmp4_takeBE 4 _ _ (by omega), Res.bind_ok]
  simp only
  have ho : r.dataOffset.isSome = (r.dataOffset.map fun d => (d % 2 ^ 32).toNat).isSome := by simp
  rw [f1, ho, frag_takeOpt _ _ (by cases r.dataOffset <;> simp <;> omega), Res.bind_ok]
  simp only
  rw [f2, frag_takeOpt _ _ (by rw [hff]; simp), Res.bind_ok]
  simp only
  rw [hdec, Res.bind_ok, hff]
  rfl

theorem frag_readEntries (r : Run) (t : Traf) (id : Nat) (hff : r.firstFlags = none) (l : List Row) :
    ∀ (i : Nat) (ptr : Bytes), (∀ w ∈ l, (if r.version = 0 then 0 else -2 ^ 31) ≤ w.offset ∧ w.offset < 2 ^ 31) →
      (l.map (r.sizeOf t)).sum ≤ ptr.length →
      readEntries (runValue r) ⟨id, t.duration.getD 0, t.size.getD 0, t.flags.getD 0⟩ (l.map (rowEntry r)) ptr =
        .ok (r.samplesFrom t i l (split (l.map (r.sizeOf t)) ptr)) := by
  obtain ⟨f1, f2, f3, f4, f5, f6, f7⟩ := frag_run_flags r.dataOffset.isSome r.firstFlags.isSome r.hasDuration r.hasSize r.hasFlags r.hasOffset
  have hf : (runValue r).flags = bit r.dataOffset.isSome 1 + bit r.firstFlags.isSome 4 + bit r.hasDuration 0x100 + bit r.hasSize 0x200 +
    bit r.hasFlags 0x400 + bit r.hasOffset 0x800 := rfl
  rw [← hf] at f3 f4 f5
  induction l with
  | nil => intro i ptr _ _; rfl
  | cons w l ih =>
    intro i ptr ho hs
    obtain ⟨ho1, ho2⟩ := ho w List.mem_cons_self
    rw [List.map_cons, List.sum_cons] at hs
    rw [List.map_cons, List.map_cons]
    unfold readEntries
    simp only [f3, f4, f5]
    have hsz : (if r.hasSize then (rowEntry r w).size else t.size.getD 0) = r.sizeOf t w := by
      unfold Run.sizeOf rowEntry; cases r.hasSize <;> rfl
    rw [hsz, if_neg (by omega), slice_ok (Nat.zero_le _) (by omega), Res.bind_ok, sliceFrom_ok (by omega), Res.bind_ok,
      ih (i + 1) _ (fun x hx => ho x (List.mem_cons_of_mem _ hx)) (by rw [List.length_drop]; omega), Res.bind_ok]
    rw [List.drop_zero, Nat.sub_zero]
    have e1 : (if r.hasDuration then (rowEntry r w).duration else t.duration.getD 0) = if r.hasDuration then w.duration else t.duration.getD 0 := by
      unfold rowEntry; cases r.hasDuration <;> rfl
    have e2 : toInt32 (rowEntry r w).cto = if r.hasOffset then w.offset else 0 := by
      unfold rowEntry
      cases r.hasOffset
      · rfl
      · exact fmp4_toInt32 w.offset (by split at ho1 <;> omega) ho2
    have e3 : hasFlag (if r.hasFlags then (rowEntry r w).flags else t.flags.getD 0) (2 ^ 16) = decide (r.flagsOf t i w / 2 ^ 16 % 2 = 1) := by
      unfold Run.flagsOf rowEntry hasFlag
      rw [hff]
      cases r.hasFlags <;> simp <;> rfl
    rw [e1, e2, e3]
    rfl

theorem frag_handle_trun (b a c : Bytes) (ex : Reader → Res Reader) (r : Run) (t : Traf) (mo : Nat) (hg : GoodRun r t b mo)
    (hb0 : t.baseOffset = none) (hb : b = a ++ (r.bytes ++ c)) (hbl : b.length < 2 ^ 64)
    (ps : List Part) (q : Nat) (ts : List PartTrack) (tr : PartTrack) (tfdt : Option Nat) (id : Nat) :
    handle b ⟨a.length, 8 + (runContent r).length, 8, typTrun⟩ ex
        (inTrack ps q ts tr mo tfdt (some ⟨id, t.duration.getD 0, t.size.getD 0, t.flags.getD 0⟩)) =
      .ok (inTrack ps q ts { tr with samples := tr.samples ++ r.samples t b mo } mo tfdt
        (some ⟨id, t.duration.getD 0, t.size.getD 0, t.flags.getD 0⟩)) := by
  obtain ⟨hv, hn, hff, hrows, hdata⟩ := hg
  have hdec := frag_decodeTrun r hv hn hff fun w hw => ⟨(hrows w hw).1, (hrows w hw).2.1, (hrows w hw).2.2.1⟩
  rw [frag_run_bytes] at hb
  have hpay : BoxInfo.payload ⟨a.length, 8 + (runContent r).length, 8, typTrun⟩ b = runContent r := by
    rw [hb]; exact fmp4_payload a c typTrun _ rfl
  have hraw : rawCount (b.drop a.length) = .ok r.rows.length := by
    have : b.drop a.length = (beBytes 4 (8 + (runContent r).length) ++ typTrun ++ (beBytes 1 r.version ++ beBytes 3 r.flags)) ++
        (beBytes 4 r.rows.length ++ (opt 4 (r.dataOffset.map fun d => (d % 2 ^ 32).toNat) ++ opt 4 r.firstFlags ++ r.rows.flatMap r.row ++ c)) := by
      rw [hb, List.drop_left, fmp4_box_eq]
      generalize 8 + (runContent r).length = z
      unfold runContent
      simp only [List.append_assoc]
    rw [this]
    exact fmp4_rawCount _ _ _ (by simp only [List.length_append, beBytes_length]; rfl) (by omega)
  unfold handle
  simp only
  rw [if_neg (by decide), if_neg (by decide), if_neg (by decide), if_neg (by decide), if_neg (by decide), if_pos trivial]
  unfold readTrun
  generalize hth : (⟨id, t.duration.getD 0, t.size.getD 0, t.flags.getD 0⟩ : Tfhd) = tfhd
  have hs : (inTrack ps q ts tr mo tfdt (some tfhd)).state = .waitingBoxes := rfl
  have htf : (inTrack ps q ts tr mo tfdt (some tfhd)).tfhd = some tfhd := rfl
  have hm : (inTrack ps q ts tr mo tfdt (some tfhd)).moofOffset = mo := rfl
  rw [htf]
  simp only
  rw [hs, if_neg (by simp), sliceFrom_ok (by rw [hb, List.length_append]; omega), Res.bind_ok, hraw, Res.bind_ok,
    if_neg (by unfold maxSamplesPerTrun; omega), hpay, hdec, Res.bind_ok]
  by_cases h0 : r.rows = []
  · have h1 : (runValue r).entries.length = 0 := by unfold runValue; simp [h0]
    have h2 : r.samples t b mo = [] := by unfold Run.samples; rw [h0]; rfl
    rw [h1, h2, if_neg (by simp), List.append_nil]
  · have h1 : (runValue r).entries.length ≠ 0 := by
      unfold runValue
      rw [List.length_map]
      intro h; exact h0 (List.eq_nil_of_length_eq_zero h)
    obtain ⟨d, hd, hd1, hd2, hd3, hd4⟩ := hdata h0
    obtain ⟨f1, _⟩ := frag_run_flags r.dataOffset.isSome r.firstFlags.isSome r.hasDuration r.hasSize r.hasFlags r.hasOffset
    have hf1 : hasFlag (runValue r).flags 1 = true := by
      have : (runValue r).flags = bit r.dataOffset.isSome 1 + bit r.firstFlags.isSome 4 + bit r.hasDuration 0x100 + bit r.hasSize 0x200 +
        bit r.hasFlags 0x400 + bit r.hasOffset 0x800 := rfl
      rw [this, f1, hd]; rfl
    have hoff : (runValue r).dataOffset = d := by
      unfold runValue
      rw [hd]
      exact fmp4_toInt32 d hd1 hd2
    rw [if_pos h1, hf1, if_neg (by simp), hm, hoff]
    have hp : ((d % 2 ^ 64).toNat + mo) % 2 ^ 64 = (mo + d).toNat := by omega
    have hent : (runValue r).entries = r.rows.map (rowEntry r) := rfl
    rw [hp, if_neg (by omega), sliceFrom_ok (by omega), Res.bind_ok, hent, ← hth,
      frag_readEntries r t id hff r.rows 0 _ (fun w hw => (hrows w hw).2.2.2) (by rw [List.length_drop]; omega), Res.bind_ok, fmp4_onTrack_in]
    unfold Run.samples Traf.base
    rw [hb0, hd]
    rfl

end Verif.Props
