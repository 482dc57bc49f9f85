import Verif.Props.FMP4Write
import Verif.Props.FMP4Hostile

/-!
# C68: parts are read back
-/

namespace Verif.Props
open FMP4 MP4Writer
open Spec (beBytes)
open Spec.FMP4
open ByteR (beBytes_length)
open Bits (wrapInt32 toInt32)

theorem fmp4_fold_be (k : Nat) : ∀ (v acc : Nat), (beBytes k v).foldl (fun a x => a * 256 + x.toNat) acc = acc * 256 ^ k + v % 256 ^ k := by
  induction k with
  | zero => intro v acc; simp [beBytes, Nat.mod_one]
  | succ k ih =>
    intro v acc
    simp only [beBytes, List.foldl_cons, ih, UInt8.toNat_ofNat']
    have h2 : v % 256 ^ (k + 1) = (v / 256 ^ k % 256) * 256 ^ k + v % 256 ^ k := by
      rw [Nat.pow_succ, Nat.mod_mul, Nat.mul_comm (256 ^ k), Nat.add_comm]
    rw [h2, show 2 ^ 8 = 256 from rfl, Nat.add_mul, Nat.mul_assoc, Nat.mul_comm 256 (256 ^ k), ← Nat.pow_succ, Nat.add_assoc]

theorem fmp4_takeBE (k v : Nat) (rest : Bytes) (h : v < 256 ^ k) : takeBE k (beBytes k v ++ rest) = .ok (v, rest) := by
  unfold takeBE
  rw [if_neg (by simp [beBytes_length]), List.take_left' (beBytes_length k v), List.drop_left' (beBytes_length k v), fmp4_fold_be,
    Nat.zero_mul, Nat.zero_add, Nat.mod_eq_of_lt h]

theorem fmp4_takeFull (version flags : Nat) (rest : Bytes) (h1 : version < 256) (h2 : flags < 2 ^ 24) :
    takeFull (beBytes 1 version ++ beBytes 3 flags ++ rest) = .ok (version, flags, rest) := by
  unfold takeFull
  rw [List.append_assoc, fmp4_takeBE 1 _ _ (by omega), Res.bind_ok]
  simp only
  rw [fmp4_takeBE 3 _ _ (by omega), Res.bind_ok]

/-! ## Boxes -/

theorem fmp4_box_eq (typ body : Bytes) : box typ body = beBytes 4 (8 + body.length) ++ typ ++ body := rfl

theorem fmp4_readBoxInfo (a c typ body : Bytes) (ht : typ.length = 4) (hl : 8 + body.length < 2 ^ 32) :
    readBoxInfo (a ++ (box typ body ++ c)) a.length = .ok (some ⟨a.length, 8 + body.length, 8, typ⟩) := by
  have hd : (a ++ (box typ body ++ c)).drop a.length = beBytes 4 (8 + body.length) ++ (typ ++ (body ++ c)) := by
    rw [List.drop_left]; unfold box; simp only [List.append_assoc]
  unfold readBoxInfo
  rw [hd, if_neg (by simp only [List.length_append, beBytes_length, ht]; omega), fmp4_takeBE 4 _ _ (by omega), Res.bind_ok]
  simp only
  rw [if_neg (by omega), if_neg (by omega), if_neg (by omega), List.take_left' ht]

theorem fmp4_payload (a c typ body : Bytes) (ht : typ.length = 4) :
    BoxInfo.payload ⟨a.length, 8 + body.length, 8, typ⟩ (a ++ (box typ body ++ c)) = body := by
  unfold BoxInfo.payload box
  simp only
  have : a ++ (beBytes 4 (8 + body.length) ++ typ ++ body ++ c) = (a ++ (beBytes 4 (8 + body.length) ++ typ)) ++ (body ++ c) := by
    simp only [List.append_assoc]
  rw [this, List.drop_left' (by simp only [List.length_append, beBytes_length, ht]),
    show 8 + body.length - 8 = body.length by omega, List.take_left]

/-- What is left of the parent after a box. -/
def Remains (size : Nat) (left left' : Option Nat) : Prop := (left = none ∧ left' = none) ∨ ∃ k, left = some (size + k) ∧ left' = some k

theorem fmp4_step (n : Nat) (b a c typ body : Bytes) (left left' : Option Nat) (r : Reader) (hb : b = a ++ (box typ body ++ c))
    (ht : typ.length = 4) (hl : 8 + body.length < 2 ^ 32) (hr : Remains (8 + body.length) left left') :
    readLevel (n + 1) b a.length left r =
      (handle b ⟨a.length, 8 + body.length, 8, typ⟩ (fun r => readLevel n b (a.length + 8) (some body.length) r) r >>=
        fun r => readLevel n b (a ++ box typ body).length left' r) := by
  conv => lhs; unfold readLevel
  have h1 : left.any (· < 8) = false := by
    rcases hr with ⟨h, _⟩ | ⟨k, h, _⟩ <;> subst h <;> simp; omega
  have h2 : left.any (· < 8 + body.length) = false := by
    rcases hr with ⟨h, _⟩ | ⟨k, h, _⟩ <;> subst h <;> simp
  have h3 : left.map (· - (8 + body.length)) = left' := by
    rcases hr with ⟨h, h'⟩ | ⟨k, h, h'⟩ <;> subst h h' <;> simp
  rw [h1, if_neg (by simp)]
  subst hb
  rw [fmp4_readBoxInfo a c typ body ht hl, Res.bind_ok]
  simp only
  rw [h2, if_neg (by simp), h3, List.length_append, box_length _ _ ht, show 8 + body.length - 8 = body.length by omega]

theorem fmp4_end (n : Nat) (b : Bytes) (pos : Nat) (r : Reader) : readLevel (n + 1) b pos (some 0) r = .ok r := by
  unfold readLevel; simp

theorem fmp4_end_root (n : Nat) (b : Bytes) (r : Reader) : readLevel (n + 1) b b.length none r = .ok r := by
  unfold readLevel readBoxInfo
  simp [Res.bind_ok]

/-! ## Runs -/

/-- A sample that the fields of a run can hold. -/
def FitsSample (sa : Sample) : Prop := sa.duration < 2 ^ 32 ∧ -2 ^ 31 ≤ sa.ptsOffset ∧ sa.ptsOffset < 2 ^ 31 ∧ sa.payload.length < 2 ^ 32

theorem fmp4_toInt32 (v : Int) (h1 : -2 ^ 31 ≤ v) (h2 : v < 2 ^ 31) : toInt32 (v % 2 ^ 32).toNat = v := by
  unfold toInt32
  split <;> omega

/-- The entry that is read. -/
def entryOf (a b : Bool) (sa : Sample) : TrunEntry :=
  ⟨sa.duration, sa.payload.length, if a then (if sa.isNonSync then 0x10000 else 0) else 0, if b then (sa.ptsOffset % 2 ^ 32).toNat else 0⟩

theorem fmp4_takeOpt4 (v : Nat) (rest : Bytes) (h : v < 2 ^ 32) : takeOpt true (beBytes 4 v ++ rest) = .ok (v, rest) := by
  unfold takeOpt
  rw [if_pos rfl, fmp4_takeBE 4 _ _ (by omega)]

theorem fmp4_takeOpt_if (c : Bool) (v : Nat) (rest : Bytes) (h : v < 2 ^ 32) :
    takeOpt c ((if c then beBytes 4 v else []) ++ rest) = .ok (if c then v else 0, rest) := by
  cases c
  · rfl
  · exact fmp4_takeOpt4 v rest h

theorem fmp4_flags_bits (a b : Bool) : hasFlag (flagsOf a b) 1 = true ∧ hasFlag (flagsOf a b) 4 = false ∧ hasFlag (flagsOf a b) 0x100 = true ∧
    hasFlag (flagsOf a b) 0x200 = true ∧ hasFlag (flagsOf a b) 0x400 = a ∧ hasFlag (flagsOf a b) 0x800 = b ∧ flagsOf a b < 2 ^ 24 := by
  cases a <;> cases b <;> decide

theorem fmp4_decodeEntries (a b : Bool) (l : List Sample) :
    ∀ rest, (∀ sa ∈ l, FitsSample sa) →
      decodeEntries (flagsOf a b) l.length (l.flatMap (runRow a b) ++ rest) = .ok (l.map (entryOf a b)) := by
  induction l with
  | nil => intro rest _; rfl
  | cons sa l ih =>
    intro rest h
    obtain ⟨h1, h2, h3, h4⟩ := h sa List.mem_cons_self
    obtain ⟨f1, f2, f3, f4, f5, f6, f7⟩ := fmp4_flags_bits a b
    rw [List.length_cons, List.flatMap_cons, List.map_cons]
    unfold decodeEntries
    rw [f3, f4, f5, f6]
    have hrow : runRow a b sa = beBytes 4 sa.duration ++ beBytes 4 sa.payload.length ++
      (if a then beBytes 4 (if sa.isNonSync then 0x10000 else 0) else []) ++ (if b then beBytes 4 (sa.ptsOffset % 2 ^ 32).toNat else []) := rfl
    rw [hrow]
    simp only [List.append_assoc]
    rw [fmp4_takeOpt4 _ _ h1, Res.bind_ok]
    simp only
    rw [fmp4_takeOpt4 _ _ h4, Res.bind_ok]
    simp only
    rw [fmp4_takeOpt_if _ _ _ (by split <;> omega), Res.bind_ok]
    simp only
    rw [fmp4_takeOpt_if _ _ _ (by omega), Res.bind_ok]
    simp only
    rw [ih rest (fun x hx => h x (List.mem_cons_of_mem _ hx)), Res.bind_ok]
    rfl

/-- The body of a run. -/
def runBody (samples : List Sample) (d : Int) : Bytes :=
  beBytes 1 1 ++ beBytes 3 (runFlags samples) ++ (beBytes 4 samples.length ++ beSigned d ++
    samples.flatMap (runRow (samples.any (·.isNonSync)) (samples.any (·.ptsOffset ≠ 0))))

theorem fmp4_decodeTrun (samples : List Sample) (d : Int) (hd : -2 ^ 31 ≤ d ∧ d < 2 ^ 31) (hn : samples.length < 2 ^ 32)
    (h : ∀ sa ∈ samples, FitsSample sa) :
    decodeTrun (runBody samples d) = .ok ⟨1, runFlags samples, samples.length, d, 0,
      samples.map (entryOf (samples.any (·.isNonSync)) (samples.any (·.ptsOffset ≠ 0)))⟩ := by
  have hf : runFlags samples = flagsOf (samples.any (·.isNonSync)) (samples.any (·.ptsOffset ≠ 0)) := rfl
  have hdec := fmp4_decodeEntries (samples.any (·.isNonSync)) (samples.any (·.ptsOffset ≠ 0)) samples [] h
  obtain ⟨f1, f2, f3, f4, f5, f6, f7⟩ := fmp4_flags_bits (samples.any (·.isNonSync)) (samples.any (·.ptsOffset ≠ 0))
  rw [← hf] at f1 f2 f7 hdec
  unfold decodeTrun runBody
  rw [fmp4_takeFull _ _ _ (by omega) f7, Res.bind_ok]
  simp only
  rw [List.append_assoc, fmp4_takeBE 4 _ _ (by omega), Res.bind_ok]
  simp only [beSigned]
  rw [f1, fmp4_takeOpt4 _ _ (by omega), Res.bind_ok]
  simp only
  rw [f2]
  have : takeOpt false (samples.flatMap (runRow (samples.any (·.isNonSync)) (samples.any (·.ptsOffset ≠ 0)))) =
    .ok (0, samples.flatMap (runRow (samples.any (·.isNonSync)) (samples.any (·.ptsOffset ≠ 0)))) := rfl
  rw [this, Res.bind_ok]
  simp only
  rw [List.append_nil] at hdec
  rw [hdec, Res.bind_ok, fmp4_toInt32 _ hd.1 hd.2]

/-- The samples that are read from entries, when the payloads follow. -/
theorem fmp4_readEntries (t : Trun) (id : Nat) (a b : Bool) (hf : t.flags = flagsOf a b) (l : List Sample) :
    ∀ rest, (∀ sa ∈ l, FitsSample sa) → (∀ sa ∈ l, sa.isNonSync = true → a = true) → (∀ sa ∈ l, sa.ptsOffset ≠ 0 → b = true) →
      readEntries t ⟨id, 0, 0, 0⟩ (l.map (entryOf a b)) (l.flatMap (·.payload) ++ rest) = .ok l := by
  obtain ⟨f1, f2, f3, f4, f5, f6, f7⟩ := fmp4_flags_bits a b
  induction l with
  | nil => intro rest _ _ _; rfl
  | cons sa l ih =>
    intro rest h ha hb
    obtain ⟨h1, h2, h3, h4⟩ := h sa List.mem_cons_self
    have ha' := ha sa List.mem_cons_self
    have hb' := hb sa List.mem_cons_self
    rw [List.map_cons, List.flatMap_cons]
    unfold readEntries
    simp only [hf, f3, f4, f5, if_true, entryOf, List.append_assoc]
    rw [if_neg (by rw [List.length_append]; omega), slice_ok (Nat.zero_le _) (by rw [List.length_append]; omega), Res.bind_ok,
      sliceFrom_ok (by rw [List.length_append]; omega), Res.bind_ok, List.drop_left, List.drop_zero, Nat.sub_zero, List.take_left]
    have := ih rest (fun x hx => h x (List.mem_cons_of_mem _ hx)) (fun x hx => ha x (List.mem_cons_of_mem _ hx))
      (fun x hx => hb x (List.mem_cons_of_mem _ hx))
    rw [this, Res.bind_ok]
    have e1 : toInt32 (if b then (sa.ptsOffset % 2 ^ 32).toNat else 0) = sa.ptsOffset := by
      cases b
      · have : sa.ptsOffset = 0 := by
          apply Decidable.byContradiction; intro hne; exact absurd (hb' hne) (by simp)
        rw [this]; rfl
      · rw [if_pos rfl]; exact fmp4_toInt32 _ h2 h3
    have e2 : hasFlag (if a then (if a then (if sa.isNonSync then 0x10000 else 0) else 0) else 0) (2 ^ 16) = sa.isNonSync := by
      cases hs : sa.isNonSync
      · cases a <;> rfl
      · rw [ha' hs]; rfl
    rw [e1, e2]

theorem fmp4_idx_append {α : Type} (x y : List α) (i : Nat) : idx (x ++ y) (x.length + i) = idx y i := by
  unfold idx
  rw [List.getElem?_append_right (by omega), Nat.add_sub_cancel_left]

theorem fmp4_rawCount (x y : Bytes) (v : Nat) (hx : x.length = 12) (hv : v < 2 ^ 32) : rawCount (x ++ (beBytes 4 v ++ y)) = .ok v := by
  unfold rawCount
  have h := fmp4_idx_append x (beBytes 4 v ++ y)
  rw [hx] at h
  rw [if_pos (by simp only [List.length_append, hx, beBytes_length]; omega), h 0, h 1, h 2, h 3]
  simp only [beBytes, List.cons_append, idx_zero_cons, idx_succ_cons, Res.bind_ok, UInt8.toNat_ofNat']
  congr 1
  omega

/-! ## Tracks -/

/-- A track that the fields of a fragment can hold and that has no more samples than what the reader accepts. -/
def FitsTrack (t : PartTrack) : Prop :=
  t.id < 2 ^ 32 ∧ t.baseTime < 2 ^ 64 ∧ t.samples.length ≤ 19200 ∧ ∀ sa ∈ t.samples, FitsSample sa

/-- A reader that is inside a track. -/
def inTrack (ps : List Part) (q : Nat) (ts : List PartTrack) (t : PartTrack) (mo : Nat) (tfdt : Option Nat) (tfhd : Option Tfhd) : Reader :=
  { state := .waitingBoxes, parts := ps ++ [{ sequenceNumber := q, tracks := ts ++ [t] }], moofOffset := mo, hasTrack := true, tfdt, tfhd }

theorem fmp4_onTrack_in (ps : List Part) (q : Nat) (ts : List PartTrack) (t : PartTrack) (mo : Nat) (tfdt : Option Nat) (tfhd : Option Tfhd)
    (g : PartTrack → PartTrack) : (inTrack ps q ts t mo tfdt tfhd).onTrack g = .ok (inTrack ps q ts (g t) mo tfdt tfhd) := by
  unfold Reader.onTrack inTrack
  simp

theorem fmp4_handle_tfhd (b : Bytes) (bi : BoxInfo) (ex : Reader → Res Reader) (ht : bi.typ = typTfhd) (id : Nat) (hid : id < 2 ^ 32)
    (hp : bi.payload b = beBytes 1 0 ++ beBytes 3 0x20000 ++ beBytes 4 id)
    (ps : List Part) (q : Nat) (ts : List PartTrack) (t : PartTrack) (mo : Nat) (tfdt : Option Nat) :
    handle b bi ex (inTrack ps q ts t mo tfdt none) = .ok (inTrack ps q ts { t with id := id } mo tfdt (some ⟨id, 0, 0, 0⟩)) := by
  have hd : decodeTfhd (bi.payload b) = .ok ⟨id, 0, 0, 0⟩ := by
    unfold decodeTfhd
    rw [hp, fmp4_takeFull _ _ _ (by omega) (by omega), Res.bind_ok]
    simp only
    have := fmp4_takeBE 4 id [] (by omega)
    rw [List.append_nil] at this
    rw [this, Res.bind_ok]
    rfl
  unfold handle
  rw [ht, if_neg (by decide), if_neg (by decide), if_neg (by decide), if_pos rfl, if_neg (by simp [inTrack]), hd, Res.bind_ok,
    fmp4_onTrack_in, Res.bind_ok]
  rfl

theorem fmp4_handle_tfdt (b : Bytes) (bi : BoxInfo) (ex : Reader → Res Reader) (ht : bi.typ = typTfdt) (base : Nat) (hbase : base < 2 ^ 64)
    (hp : bi.payload b = beBytes 1 1 ++ beBytes 3 0 ++ beBytes 8 base)
    (ps : List Part) (q : Nat) (ts : List PartTrack) (t : PartTrack) (mo : Nat) (tfhd : Option Tfhd) :
    handle b bi ex (inTrack ps q ts t mo none tfhd) = .ok (inTrack ps q ts { t with baseTime := base } mo (some base) tfhd) := by
  have hd : decodeTfdt (bi.payload b) = .ok base := by
    unfold decodeTfdt
    rw [hp, fmp4_takeFull _ _ _ (by omega) (by omega), Res.bind_ok]
    simp only
    have := fmp4_takeBE 8 base [] (by omega)
    rw [List.append_nil] at this
    rw [if_neg (by omega), this, Res.bind_ok]
  unfold handle
  rw [ht, if_neg (by decide), if_neg (by decide), if_neg (by decide), if_neg (by decide), if_pos rfl, if_neg (by simp [inTrack]), hd,
    Res.bind_ok, fmp4_onTrack_in, Res.bind_ok]
  rfl

theorem fmp4_handle_trun (b a c : Bytes) (ex : Reader → Res Reader) (samples : List Sample) (d : Nat) (rest : Bytes)
    (hb : b = a ++ (box typTrun (runBody samples d) ++ c)) (hn : samples.length ≤ 19200) (hf : ∀ sa ∈ samples, FitsSample sa)
    (hd : d < 2 ^ 31) (mo : Nat) (hmo : mo + d < 2 ^ 64) (hpos : mo + d ≤ b.length)
    (hdata : b.drop (mo + d) = samples.flatMap (·.payload) ++ rest)
    (ps : List Part) (q : Nat) (ts : List PartTrack) (t : PartTrack) (tfdt : Option Nat) (id : Nat) :
    handle b ⟨a.length, 8 + (runBody samples d).length, 8, typTrun⟩ ex (inTrack ps q ts t mo tfdt (some ⟨id, 0, 0, 0⟩)) =
      .ok (inTrack ps q ts { t with samples := t.samples ++ samples } mo tfdt (some ⟨id, 0, 0, 0⟩)) := by
  have hdec := fmp4_decodeTrun samples d (by omega) (by omega) hf
  have hpay : BoxInfo.payload ⟨a.length, 8 + (runBody samples d).length, 8, typTrun⟩ b = runBody samples d := by
    rw [hb]; exact fmp4_payload a c typTrun _ rfl
  have hraw : rawCount (b.drop a.length) = .ok samples.length := by
    have : b.drop a.length = (beBytes 4 (8 + (runBody samples d).length) ++ typTrun ++ (beBytes 1 1 ++ beBytes 3 (runFlags samples))) ++
        (beBytes 4 samples.length ++ (beSigned d ++
          samples.flatMap (runRow (samples.any (·.isNonSync)) (samples.any (·.ptsOffset ≠ 0))) ++ c)) := by
      rw [hb, List.drop_left]
      unfold box
      have e : runBody samples d = beBytes 1 1 ++ beBytes 3 (runFlags samples) ++ (beBytes 4 samples.length ++ beSigned d ++
        samples.flatMap (runRow (samples.any (·.isNonSync)) (samples.any (·.ptsOffset ≠ 0)))) := rfl
      conv => lhs; arg 1; arg 2; rw [e]
      simp only [List.append_assoc]
    rw [this]
    exact fmp4_rawCount _ _ _ (by simp only [List.length_append, beBytes_length]; rfl) (by omega)
  unfold handle
  simp only
  rw [if_neg (by decide), if_neg (by decide), if_neg (by decide), if_neg (by decide), if_neg (by decide), if_pos trivial]
  unfold readTrun
  have hs : (inTrack ps q ts t mo tfdt (some ⟨id, 0, 0, 0⟩)).state = .waitingBoxes := rfl
  have htf : (inTrack ps q ts t mo tfdt (some ⟨id, 0, 0, 0⟩)).tfhd = some ⟨id, 0, 0, 0⟩ := rfl
  have hm : (inTrack ps q ts t mo tfdt (some ⟨id, 0, 0, 0⟩)).moofOffset = mo := rfl
  rw [htf]
  simp only
  rw [hs, if_neg (by simp), sliceFrom_ok (by rw [hb, List.length_append]; omega), Res.bind_ok, hraw, Res.bind_ok,
    if_neg (by unfold maxSamplesPerTrun; omega), hpay, hdec, Res.bind_ok]
  simp only [List.length_map]
  have hfl : hasFlag (runFlags samples) 1 = true := (fmp4_flags_bits (samples.any (·.isNonSync)) (samples.any (·.ptsOffset ≠ 0))).1
  by_cases h0 : samples = []
  · subst h0
    simp
  · rw [if_pos (by intro h; exact h0 (List.eq_nil_of_length_eq_zero h)), hfl, if_neg (by simp), hm]
    have hp : (((d : Int) % 2 ^ 64).toNat + mo) % 2 ^ 64 = mo + d := by omega
    rw [hp, if_neg (by omega), sliceFrom_ok hpos, Res.bind_ok, hdata]
    have := fmp4_readEntries ⟨1, runFlags samples, samples.length, d, 0,
      samples.map (entryOf (samples.any (·.isNonSync)) (samples.any (·.ptsOffset ≠ 0)))⟩ id (samples.any (·.isNonSync))
      (samples.any (·.ptsOffset ≠ 0)) rfl samples rest hf (fun sa hsa h => List.any_eq_true.mpr ⟨sa, hsa, h⟩)
      (fun sa hsa h => List.any_eq_true.mpr ⟨sa, hsa, by simpa using h⟩)
    rw [this, Res.bind_ok, fmp4_onTrack_in]

/-- The fragment of a track is read. -/
theorem fmp4_read_traf (n : Nat) (b a c : Bytes) (t : PartTrack) (d : Nat) (rest : Bytes) (hb : b = a ++ (traf t d ++ c)) (ht : FitsTrack t)
    (hsz : (traf t d).length < 2 ^ 32) (hn : b.length < a.length + n)
    (hd : d < 2 ^ 31) (mo : Nat) (hmo : mo + d < 2 ^ 64) (hpos : mo + d ≤ b.length) (hdata : b.drop (mo + d) = trackData t ++ rest)
    (ps : List Part) (q : Nat) (ts : List PartTrack) (st : State) (hst : st = .waitingTraf ∨ st = .waitingBoxes) (x : Bool)
    (tfdt : Option Nat) (tfhd : Option Tfhd) (hinc : (x && (tfdt.isNone || tfhd.isNone)) = false) (left left' : Option Nat)
    (hr : Remains (traf t d).length left left') :
    readLevel (n + 1) b a.length left ⟨st, ps ++ [⟨q, ts⟩], mo, x, tfdt, tfhd⟩ =
      readLevel n b (a ++ traf t d).length left' (inTrack ps q ts t mo (some t.baseTime) (some ⟨t.id, 0, 0, 0⟩)) := by
  obtain ⟨h1, h2, h3, h4⟩ := ht
  generalize hA : beBytes 1 0 ++ beBytes 3 0x20000 ++ beBytes 4 t.id = A
  generalize hB : beBytes 1 1 ++ beBytes 3 0 ++ beBytes 8 t.baseTime = B
  generalize hC : runBody t.samples d = C
  have hAl : A.length = 8 := by rw [← hA]; simp [beBytes_length]
  have hBl : B.length = 12 := by rw [← hB]; simp [beBytes_length]
  have htraf : traf t d = box typTraf (box typTfhd A ++ box typTfdt B ++ box typTrun C) := by rw [← hA, ← hB, ← hC]; rfl
  have hbody : (box typTfhd A ++ box typTfdt B ++ box typTrun C).length = (8 + A.length) + ((8 + B.length) + ((8 + C.length) + 0)) := by
    rw [List.length_append, List.length_append, box_length _ _ rfl, box_length _ _ rfl, box_length _ _ rfl]; omega
  have htl : (traf t d).length = 8 + (box typTfhd A ++ box typTfdt B ++ box typTrun C).length := by rw [htraf, box_length _ _ rfl]
  rw [htraf] at hb
  rw [htl] at hr hsz
  have hbl : b.length = a.length + (8 + (box typTfhd A ++ box typTfdt B ++ box typTrun C).length) + c.length := by
    rw [hb, List.length_append, List.length_append, box_length _ _ rfl]; omega
  rw [fmp4_step n b a c typTraf _ left left' _ hb rfl hsz hr]
  unfold handle
  simp only
  rw [if_neg (by decide), if_neg (by decide), if_pos trivial, if_neg (by rcases hst with h | h <;> subst h <;> simp),
    if_neg (by unfold Reader.incomplete; rw [hinc]; simp)]
  have hop : Reader.onPart ⟨st, ps ++ [⟨q, ts⟩], mo, x, tfdt, tfhd⟩ (fun p => { p with tracks := p.tracks ++ [({} : PartTrack)] }) =
      .ok ⟨st, ps ++ [⟨q, ts ++ [({} : PartTrack)]⟩], mo, x, tfdt, tfhd⟩ := by unfold Reader.onPart; simp
  rw [hop, Res.bind_ok]
  -- the header of the box is part of what precedes
  generalize ha1 : a ++ (beBytes 4 (8 + (box typTfhd A ++ box typTfdt B ++ box typTrun C).length) ++ typTraf) = a1
  have ha1l : a1.length = a.length + 8 := by
    rw [← ha1]; simp only [List.length_append, beBytes_length]; rfl
  have hb1 : b = a1 ++ (box typTfhd A ++ (box typTfdt B ++ (box typTrun C ++ c))) := by
    rw [hb, ← ha1, fmp4_box_eq typTraf]
    simp only [List.append_assoc]
  have hb2 : b = (a1 ++ box typTfhd A) ++ (box typTfdt B ++ (box typTrun C ++ c)) := by rw [hb1]; simp only [List.append_assoc]
  have hb3 : b = (a1 ++ box typTfhd A ++ box typTfdt B) ++ (box typTrun C ++ c) := by rw [hb1]; simp only [List.append_assoc]
  obtain ⟨k, rfl⟩ : ∃ k, n = k + 4 := ⟨n - 4, by omega⟩
  have hin : (⟨.waitingBoxes, ps ++ [⟨q, ts ++ [({} : PartTrack)]⟩], mo, true, none, none⟩ : Reader) = inTrack ps q ts {} mo none none := rfl
  rw [← ha1l, hbody, hin, fmp4_step (k + 3) b a1 _ typTfhd A _ (some ((8 + B.length) + ((8 + C.length) + 0))) _ hb1 rfl (by omega)
      (Or.inr ⟨_, rfl, rfl⟩)]
  rw [fmp4_handle_tfhd b _ _ rfl t.id h1 (by rw [hA, hb1]; exact fmp4_payload a1 _ typTfhd A rfl), Res.bind_ok,
    fmp4_step (k + 2) b (a1 ++ box typTfhd A) _ typTfdt B _ (some ((8 + C.length) + 0)) _ hb2 rfl (by omega) (Or.inr ⟨_, rfl, rfl⟩),
    fmp4_handle_tfdt b _ _ rfl t.baseTime h2 (by rw [hB, hb2]; exact fmp4_payload (a1 ++ box typTfhd A) _ typTfdt B rfl), Res.bind_ok,
    fmp4_step (k + 1) b (a1 ++ box typTfhd A ++ box typTfdt B) _ typTrun C _ (some 0) _ hb3 rfl (by omega) (Or.inr ⟨_, rfl, rfl⟩)]
  subst hC
  rw [fmp4_handle_trun b _ c _ t.samples d rest hb3 h3 h4 hd mo hmo hpos hdata, Res.bind_ok, fmp4_end, Res.bind_ok, htraf]
  rfl

/-- A reader between tracks. -/
def Between (r : Reader) (ps : List Part) (q : Nat) (ts : List PartTrack) (mo : Nat) : Prop :=
  (r.state = .waitingTraf ∨ r.state = .waitingBoxes) ∧ r.incomplete = false ∧ r.parts = ps ++ [⟨q, ts⟩] ∧ r.moofOffset = mo

/-- The fragments of tracks are read; `n` is the size of the data of previous tracks. -/
theorem fmp4_read_trafs (b : Bytes) (mo delta : Nat) (ps : List Part) (q : Nat) (l : List PartTrack) :
    ∀ (fuel m : Nat) (a c : Bytes) (ts : List PartTrack) (r : Reader) (rest : Bytes),
      b = a ++ ((List.zipWith traf l ((trueOffsets delta m l).map Int.ofNat)).flatten ++ c) → (∀ t ∈ l, FitsTrack t) →
      ((List.zipWith traf l ((trueOffsets delta m l).map Int.ofNat)).flatten).length < 2 ^ 32 → b.length < a.length + fuel →
      mo + (m + delta) ≤ b.length → b.length < 2 ^ 64 → b.drop (mo + (m + delta)) = l.flatMap trackData ++ rest →
      m + delta + (l.flatMap trackData).length < 2 ^ 31 → Between r ps q ts mo →
      ∃ r', readLevel (fuel + 1) b a.length (some ((List.zipWith traf l ((trueOffsets delta m l).map Int.ofNat)).flatten).length) r = .ok r' ∧
        Between r' ps q (ts ++ l) mo := by
  induction l with
  | nil =>
    intro fuel m a c ts r rest _ _ _ _ _ _ _ _ hr
    exact ⟨r, fmp4_end _ _ _ _, by rw [List.append_nil]; exact hr⟩
  | cons t l ih =>
    intro fuel m a c ts r rest hb hf hsz hn hpos hbl hdata hlim hr
    simp only [trueOffsets, List.map_cons, List.zipWith_cons_cons, List.flatten_cons, List.flatMap_cons, List.length_append, Int.ofNat_eq_natCast] at hb hsz hdata hlim ⊢
    obtain ⟨hst, hinc, hp, hmo⟩ := hr
    have hr : r = ⟨r.state, ps ++ [⟨q, ts⟩], mo, r.hasTrack, r.tfdt, r.tfhd⟩ := by rw [← hp, ← hmo]
    have hsz' : (traf t ((m + delta : Nat) : Int)).length < 2 ^ 32 := by omega
    have hlen : b.length = a.length + ((traf t ((m + delta : Nat) : Int)).length +
        ((List.zipWith traf l ((trueOffsets delta (m + (trackData t).length) l).map Int.ofNat)).flatten).length + c.length) := by
      conv => lhs; rw [hb]
      simp only [List.length_append]
    have h8 : 8 ≤ (traf t ((m + delta : Nat) : Int)).length := by unfold traf; rw [box_length _ _ rfl]; omega
    rw [List.append_assoc] at hb hdata
    rw [hr, fmp4_read_traf fuel b a _ t (m + delta) _ hb (hf t List.mem_cons_self) hsz' hn (by omega) mo (by omega) hpos hdata
      ps q ts r.state hst r.hasTrack r.tfdt r.tfhd hinc _ (some _) (Or.inr ⟨_, rfl, rfl⟩)]
    obtain ⟨f, rfl⟩ : ∃ f, fuel = f + 1 := ⟨fuel - 1, by omega⟩
    have hdl : b.length - (mo + (m + delta)) = (trackData t).length + ((l.flatMap trackData).length + rest.length) := by
      have := congrArg List.length hdata
      simpa only [List.length_drop, List.length_append] using this
    have hb' : b = (a ++ traf t ((m + delta : Nat) : Int)) ++
        ((List.zipWith traf l ((trueOffsets delta (m + (trackData t).length) l).map Int.ofNat)).flatten ++ c) := by
      rw [List.append_assoc]; exact hb
    have hd' : b.drop (mo + (m + (trackData t).length + delta)) = l.flatMap trackData ++ rest := by
      rw [show mo + (m + (trackData t).length + delta) = (mo + (m + delta)) + (trackData t).length by omega, ← List.drop_drop, hdata,
        List.drop_left]
    obtain ⟨r', e, h⟩ := ih f (m + (trackData t).length) (a ++ traf t ((m + delta : Nat) : Int)) c (ts ++ [t])
      (inTrack ps q ts t mo (some t.baseTime) (some ⟨t.id, 0, 0, 0⟩)) rest hb' (fun x hx => hf x (List.mem_cons_of_mem _ hx)) (by omega)
      (by rw [List.length_append]; omega) (by omega) hbl hd' (by omega) ⟨Or.inr rfl, rfl, rfl, rfl⟩
    refine ⟨r', e, ?_⟩
    rw [List.append_assoc] at h
    exact h

/-- A part that fits: less than 2^31 bytes, fields in range. -/
def FitsPart (p : Part) : Prop :=
  p.sequenceNumber < 2 ^ 32 ∧ (∀ t ∈ p.tracks, FitsTrack t) ∧ (moof p (p.tracks.map fun _ => 0)).length + (mdat p).length < 2 ^ 31

/-- The bytes of a part. -/
def partBytes (p : Part) : Bytes := moof p ((trueOffsets (moofSize p + 8) 0 p.tracks).map Int.ofNat) ++ mdat p

theorem fmp4_partBytes (b : Bytes) (p : Part) (h : (moof p (p.tracks.map fun _ => 0)).length + (mdat p).length < 2 ^ 31) :
    marshalPart (full b) p = .ok (full (b ++ partBytes p)) := by
  have hmdat : (mdat p).length = 8 + (p.tracks.flatMap trackData).length := by unfold mdat; rw [box_length _ _ rfl]
  have hs : moofSize p = (moof p (p.tracks.map fun _ => 0)).length := rfl
  rw [fmp4_marshalPart b p (by omega), fmp4_offsets_small _ _ _ (by omega)]
  rfl

theorem fmp4_marshalParts (l : List Part) :
    ∀ b, (∀ p ∈ l, (moof p (p.tracks.map fun _ => 0)).length + (mdat p).length < 2 ^ 31) →
      marshalParts l (full b) = .ok (full (b ++ l.flatMap partBytes)) := by
  induction l with
  | nil => intro b _; simp [marshalParts]
  | cons p l ih =>
    intro b h
    unfold marshalParts
    rw [fmp4_partBytes b p (h p List.mem_cons_self), Res.bind_ok, ih _ (fun x hx => h x (List.mem_cons_of_mem _ hx)), List.flatMap_cons,
      List.append_assoc]

/-- A part is read. -/
theorem fmp4_read_part (fuel : Nat) (b a c : Bytes) (p : Part) (hp : FitsPart p) (hb : b = a ++ (partBytes p ++ c)) (hbl : b.length < 2 ^ 64)
    (hfuel : b.length < a.length + fuel + 2) (r : Reader) (hs : r.state = .waitingMoof) (hi : r.incomplete = false) :
    ∃ r', readLevel (fuel + 2) b a.length none r = readLevel fuel b (a ++ partBytes p).length none r' ∧ r'.state = .waitingMoof ∧
      r'.incomplete = false ∧ r'.parts = r.parts ++ [p] := by
  obtain ⟨h1, h2, h3⟩ := hp
  have hmdat : (mdat p).length = 8 + (p.tracks.flatMap trackData).length := by unfold mdat; rw [box_length _ _ rfl]
  have hsz : moofSize p = (moof p (p.tracks.map fun _ => 0)).length := rfl
  generalize hM : beBytes 1 0 ++ beBytes 3 0 ++ beBytes 4 p.sequenceNumber = M
  have hMl : M.length = 8 := by rw [← hM]; simp [beBytes_length]
  generalize ho : (trueOffsets (moofSize p + 8) 0 p.tracks).map Int.ofNat = offs at *
  have hol : offs.length = p.tracks.length := by rw [← ho, List.length_map, fmp4_trueOffsets_length]
  have hpb : partBytes p = moof p offs ++ mdat p := by unfold partBytes; rw [ho]
  have hmoof : moof p offs = box typMoof (box typMfhd M ++ (List.zipWith traf p.tracks offs).flatten) := by rw [← hM]; rfl
  have hml : (moof p offs).length = moofSize p := fmp4_moof_length p offs hol
  have hbody : (box typMfhd M ++ (List.zipWith traf p.tracks offs).flatten).length = (8 + M.length) + (List.zipWith traf p.tracks offs).flatten.length := by
    rw [List.length_append, box_length _ _ rfl]
  have hms : moofSize p = 8 + (box typMfhd M ++ (List.zipWith traf p.tracks offs).flatten).length := by
    rw [← hml, hmoof, box_length _ _ rfl]
  have hb1 : b = a ++ (box typMoof (box typMfhd M ++ (List.zipWith traf p.tracks offs).flatten) ++ (mdat p ++ c)) := by
    rw [hb, hpb, hmoof, List.append_assoc]
  have hb2 : b = (a ++ moof p offs) ++ (box typMdat (p.tracks.flatMap trackData) ++ c) := by
    rw [hb, hpb]; simp only [List.append_assoc]; rfl
  have hlen : b.length = a.length + (moofSize p + (8 + (p.tracks.flatMap trackData).length) + c.length) := by
    rw [hb2, List.length_append, List.length_append, List.length_append, hml, box_length _ _ rfl]; omega
  rw [fmp4_step (fuel + 1) b a _ typMoof _ none none r hb1 rfl (by omega) (Or.inl ⟨rfl, rfl⟩)]
  -- moof
  generalize ha1 : a ++ (beBytes 4 (8 + (box typMfhd M ++ (List.zipWith traf p.tracks offs).flatten).length) ++ typMoof) = a1
  have ha1l : a1.length = a.length + 8 := by rw [← ha1]; simp only [List.length_append, beBytes_length]; rfl
  have hb3 : b = a1 ++ (box typMfhd M ++ ((List.zipWith traf p.tracks offs).flatten ++ (mdat p ++ c))) := by
    rw [hb1, ← ha1, fmp4_box_eq typMoof]
    simp only [List.append_assoc]
  have hb4 : b = (a1 ++ box typMfhd M) ++ ((List.zipWith traf p.tracks offs).flatten ++ (mdat p ++ c)) := by
    rw [hb3]; simp only [List.append_assoc]
  have hdata : b.drop (a.length + (0 + (moofSize p + 8))) = p.tracks.flatMap trackData ++ c := by
    have : b = (a ++ moof p offs ++ (beBytes 4 (8 + (p.tracks.flatMap trackData).length) ++ typMdat)) ++ (p.tracks.flatMap trackData ++ c) := by
      rw [hb2, fmp4_box_eq typMdat]
      simp only [List.append_assoc]
    rw [this]
    exact List.drop_left' (by simp only [List.length_append, beBytes_length, hml]; show a.length + moofSize p + 8 = _; omega)
  have hmf : ∀ r0 : Reader, r0.state = .waitingMfhd → r0.incomplete = false → r0.parts = r.parts ++ [({} : Part)] → r0.moofOffset = a.length →
      ∃ r', handle b ⟨a1.length, 8 + M.length, 8, typMfhd⟩ (fun r => readLevel fuel b (a1.length + 8) (some M.length) r) r0 = .ok r' ∧
        Between r' r.parts p.sequenceNumber [] a.length := by
    intro r0 g1 g2 g3 g4
    have hd : decodeMfhd (BoxInfo.payload ⟨a1.length, 8 + M.length, 8, typMfhd⟩ b) = .ok p.sequenceNumber := by
      rw [hb3, fmp4_payload a1 _ typMfhd M rfl, ← hM]
      unfold decodeMfhd
      rw [fmp4_takeFull _ _ _ (by omega) (by omega), Res.bind_ok]
      simp only
      have := fmp4_takeBE 4 p.sequenceNumber [] (by omega)
      rw [List.append_nil] at this
      rw [this, Res.bind_ok]
    refine ⟨{ r0 with parts := r.parts ++ [⟨p.sequenceNumber, []⟩], state := .waitingTraf }, ?_, Or.inl rfl, g2, rfl, g4⟩
    unfold handle
    simp only
    rw [if_neg (by decide), if_pos trivial, g1, if_neg (by simp), hd, Res.bind_ok]
    have : r0.onPart (fun p_1 => { p_1 with sequenceNumber := p.sequenceNumber }) = .ok { r0 with parts := r.parts ++ [⟨p.sequenceNumber, []⟩] } := by
      unfold Reader.onPart
      rw [g3]; simp
    rw [this, Res.bind_ok]
  obtain ⟨r1, e1, hr1⟩ := hmf { r with parts := r.parts ++ [({} : Part)], moofOffset := a.length, state := .waitingMfhd } rfl hi rfl rfl
  obtain ⟨f, rfl⟩ : ∃ f, fuel = f + 1 := ⟨fuel - 1, by omega⟩
  have hrd := fmp4_read_trafs b a.length (moofSize p + 8) r.parts p.sequenceNumber p.tracks f 0 (a1 ++ box typMfhd M) (mdat p ++ c) [] r1 c
  rw [ho] at hrd
  obtain ⟨r2, e2, hr2⟩ := hrd hb4 h2 (by omega) (by rw [List.length_append, box_length _ _ rfl]; omega) (by omega) hbl hdata (by omega) hr1
  have hmo : handle b ⟨a.length, 8 + (box typMfhd M ++ (List.zipWith traf p.tracks offs).flatten).length, 8, typMoof⟩
      (fun r => readLevel (f + 1 + 1) b (a.length + 8) (some (box typMfhd M ++ (List.zipWith traf p.tracks offs).flatten).length) r) r = .ok r2 := by
    unfold handle
    simp only
    rw [if_pos trivial, hs, if_neg (by simp), ← ha1l, hbody,
      fmp4_step (f + 1) b a1 _ typMfhd M _ (some (List.zipWith traf p.tracks offs).flatten.length) _ hb3 rfl (by omega) (Or.inr ⟨_, rfl, rfl⟩),
      e1, Res.bind_ok, e2]
  obtain ⟨g1, g2, g3, g4⟩ := hr2
  rw [hmo, Res.bind_ok, ← hmoof, fmp4_step (f + 1) b (a ++ moof p offs) c typMdat _ none none r2 hb2 rfl (by omega) (Or.inl ⟨rfl, rfl⟩)]
  have hmd : handle b ⟨(a ++ moof p offs).length, 8 + (p.tracks.flatMap trackData).length, 8, typMdat⟩
      (fun r => readLevel (f + 1) b ((a ++ moof p offs).length + 8) (some (p.tracks.flatMap trackData).length) r) r2 =
      .ok { r2 with state := .waitingMoof } := by
    unfold handle
    simp only
    rw [if_neg (by decide), if_neg (by decide), if_neg (by decide), if_neg (by decide), if_neg (by decide), if_neg (by decide),
      if_pos trivial, if_neg (by rcases g1 with h | h <;> rw [h] <;> simp), g2, if_neg (by simp)]
  refine ⟨{ r2 with state := .waitingMoof }, ?_, rfl, g2, ?_⟩
  · rw [hmd, Res.bind_ok, hpb, ← List.append_assoc]
    rfl
  · show r2.parts = _
    rw [g3, List.nil_append]

theorem fmp4_read_parts (b : Bytes) (hbl : b.length < 2 ^ 64) (l : List Part) :
    ∀ (fuel : Nat) (a : Bytes) (r : Reader), (∀ p ∈ l, FitsPart p) → b = a ++ l.flatMap partBytes → b.length < a.length + fuel →
      r.state = .waitingMoof → r.incomplete = false →
      ∃ r', readLevel fuel b a.length none r = .ok r' ∧ r'.state = .waitingMoof ∧ r'.parts = r.parts ++ l := by
  induction l with
  | nil =>
    intro fuel a r _ hb hfuel hs _
    rw [List.flatMap_nil, List.append_nil] at hb
    subst hb
    obtain ⟨f, rfl⟩ : ∃ f, fuel = f + 1 := ⟨fuel - 1, by omega⟩
    exact ⟨r, fmp4_end_root _ _ _, hs, by rw [List.append_nil]⟩
  | cons p l ih =>
    intro fuel a r hf hb hfuel hs hi
    rw [List.flatMap_cons] at hb
    have hp := hf p List.mem_cons_self
    have hpl : 16 ≤ (partBytes p).length := by
      unfold partBytes moof mdat
      rw [List.length_append, box_length _ _ rfl, box_length _ _ rfl]; omega
    have hlen : b.length = a.length + ((partBytes p).length + (l.flatMap partBytes).length) := by rw [hb, List.length_append, List.length_append]
    obtain ⟨f, rfl⟩ : ∃ f, fuel = f + 2 := ⟨fuel - 2, by omega⟩
    have hm : (moof p ((trueOffsets (moofSize p + 8) 0 p.tracks).map Int.ofNat)).length = moofSize p :=
      fmp4_moof_length p _ (by rw [List.length_map, fmp4_trueOffsets_length])
    obtain ⟨r', e, g1, g2, g3⟩ := fmp4_read_part f b a _ p hp hb hbl (by omega) r hs hi
    obtain ⟨r'', e', k1, k2⟩ := ih f (a ++ partBytes p) r' (fun x hx => hf x (List.mem_cons_of_mem _ hx)) (by rw [List.append_assoc]; exact hb)
      (by rw [List.length_append]; omega) g1 g2
    refine ⟨r'', e.trans e', k1, ?_⟩
    rw [k2, g3, List.append_assoc]
    rfl

/-- C68: parts that fit are read back, from the bytes that `Parts.Marshal` writes, by `Parts.Unmarshal`. -/
theorem C68_round_trip (l : List Part) (h : ∀ p ∈ l, FitsPart p) :
    ∃ b, marshalParts l (full []) = .ok (full b) ∧ (b.length < 2 ^ 64 → unmarshal b = .ok l) := by
  refine ⟨l.flatMap partBytes, ?_, fun hb => ?_⟩
  · have := fmp4_marshalParts l [] fun p hp => (h p hp).2.2
    simpa only [List.nil_append] using this
  · unfold unmarshal
    obtain ⟨r', e, h1, h2⟩ := fmp4_read_parts (l.flatMap partBytes) hb l ((l.flatMap partBytes).length + 1) [] {} h rfl
      (by simp) rfl rfl
    rw [List.length_nil] at e
    rw [e, Res.bind_ok, h1, if_neg (by simp), h2]
    rfl

/-- A second part, which has no samples in its only track. -/
def emptyPart : Part := { sequenceNumber := 4, tracks := [{ id := 1, baseTime := 96000 }] }

example : ∀ p ∈ [examplePart, emptyPart], FitsPart p := by
  intro p hp
  simp only [List.mem_cons, List.not_mem_nil, or_false] at hp
  rcases hp with rfl | rfl
  · refine ⟨by decide, ?_, by decide +kernel⟩
    intro t ht
    simp only [examplePart, List.mem_cons, List.not_mem_nil, or_false] at ht
    rcases ht with rfl | rfl
    · refine ⟨by decide, by decide, by decide, ?_⟩
      intro sa hs
      simp only [List.mem_cons, List.not_mem_nil, or_false] at hs
      rcases hs with rfl | rfl <;> exact ⟨by decide, by decide, by decide, by decide⟩
    · refine ⟨by decide, by decide, by decide, ?_⟩
      intro sa hs
      simp only [List.mem_cons, List.not_mem_nil, or_false] at hs
      subst hs
      exact ⟨by decide, by decide, by decide, by decide⟩
  · refine ⟨by decide, ?_, by decide +kernel⟩
    intro t ht
    simp only [emptyPart, List.mem_cons, List.not_mem_nil, or_false] at ht
    subst ht
    exact ⟨by decide, by decide, by decide, fun sa hs => by cases hs⟩

/-- Negative composition offsets and flags come back. -/
example : (marshalParts [examplePart, emptyPart] (full []) >>= fun f => unmarshal f.buf) = .ok [examplePart, emptyPart] := by decide +kernel

end Verif.Props
