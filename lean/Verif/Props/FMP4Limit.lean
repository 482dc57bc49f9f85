import Verif.Props.FMP4RoundTrip

/-!
# C70: how many samples a file can produce
-/

namespace Verif.Props
open FMP4 MP4Writer
open Spec (beBytes)
open Spec.FMP4
open ByteR (beBytes_length)
open Bits (toInt32)

/-- The number of samples of parts. -/
def sampleCount (l : List Part) : Nat := (l.map fun p => (p.tracks.map fun t => t.samples.length).sum).sum

/-- No `trun` box of the file can have a 64-bit size. -/
def NoLargeTrun (b : Bytes) : Prop := ∀ pos, (b.drop pos).take 8 ≠ [0, 0, 0, 1, 0x74, 0x72, 0x75, 0x6E]

/-- The value of an outcome, if any, has the property. -/
def Holds {α : Type} (P : α → Prop) : Res α → Prop
  | .ok a => P a
  | _ => True

theorem holds_bind {α β : Type} {P : α → Prop} {Q : β → Prop} {x : Res α} {f : α → Res β} (hx : Holds P x) (hf : ∀ a, P a → Holds Q (f a)) :
    Holds Q (x >>= f) := by
  cases x with
  | ok a => exact hf a hx
  | err e => trivial
  | panic => trivial

theorem holds_any {α : Type} (x : Res α) : Holds (fun _ => True) x := by cases x <;> trivial

theorem holds_if {α : Type} {P : α → Prop} {c : Prop} [Decidable c] {x y : Res α} (hx : c → Holds P x) (hy : ¬c → Holds P y) :
    Holds P (if c then x else y) := by
  by_cases h : c
  · rw [if_pos h]; exact hx h
  · rw [if_neg h]; exact hy h

theorem holds_sound {α : Type} {P : α → Prop} {x : Res α} (h : Sound P x) : Holds P x := by
  cases x with
  | ok a => exact h
  | err e => trivial
  | panic => trivial

theorem holds_mono {α : Type} {P Q : α → Prop} {x : Res α} (h : Holds P x) (hpq : ∀ a, P a → Q a) : Holds Q x := by
  cases x with
  | ok a => exact hpq a h
  | err e => trivial
  | panic => trivial

/-- The value of four bytes. -/
def val4 (b : Bytes) : Nat := (b.take 4).foldl (fun a x => a * 256 + x.toNat) 0

theorem holds_takeBE (k : Nat) (b : Bytes) :
    Holds (fun x => k ≤ b.length ∧ x = ((b.take k).foldl (fun a x => a * 256 + x.toNat) 0, b.drop k)) (takeBE k b) :=
  holds_if (fun _ => trivial) fun h => ⟨by omega, rfl⟩

/-- `trun` has as many entries as the number that follows version and flags. -/
theorem holds_trun (p : Bytes) : Holds (fun t => 8 ≤ p.length ∧ t.entries.length = val4 (p.drop 4)) (decodeTrun p) := by
  unfold decodeTrun takeFull
  rw [bind_assoc]
  refine holds_bind (holds_takeBE 1 p) fun x hx => ?_
  obtain ⟨h1, rfl⟩ := hx
  simp only
  rw [bind_assoc]
  refine holds_bind (holds_takeBE 3 _) fun x hx => ?_
  obtain ⟨h2, rfl⟩ := hx
  simp only [Res.bind_ok, List.drop_drop]
  refine holds_bind (holds_takeBE 4 _) fun x hx => ?_
  obtain ⟨h3, rfl⟩ := hx
  simp only
  rw [List.length_drop] at h3
  refine holds_bind (holds_any _) fun _ _ => holds_bind (holds_any _) fun _ _ => ?_
  refine holds_bind (holds_sound (sound_entries _ _ _)) fun l hl => ?_
  exact ⟨by omega, hl⟩

theorem fmp4_val4 (b : Bytes) (x0 x1 x2 x3 : UInt8) (l : Bytes) (h : b = x0 :: x1 :: x2 :: x3 :: l) :
    val4 b = x0.toNat * 2 ^ 24 + x1.toNat * 2 ^ 16 + x2.toNat * 2 ^ 8 + x3.toNat := by
  subst h
  unfold val4
  simp only [List.take_succ_cons, List.take_zero, List.foldl_cons, List.foldl_nil]
  omega

/-- The count that is compared with the limit. -/
theorem holds_rawCount (raw : Bytes) (h : 16 ≤ raw.length) : Holds (fun c => c = val4 (raw.drop 12)) (rawCount raw) := by
  have e : raw.drop 12 = raw[12] :: raw[13] :: raw[14] :: raw[15] :: raw.drop 16 := by
    rw [List.drop_eq_getElem_cons (by omega), List.drop_eq_getElem_cons (by omega), List.drop_eq_getElem_cons (by omega),
      List.drop_eq_getElem_cons (by omega)]
  unfold rawCount
  rw [if_pos h, idx_of_lt (show 12 < _ by omega), Res.bind_ok, idx_of_lt (show 13 < _ by omega), Res.bind_ok,
    idx_of_lt (show 14 < _ by omega), Res.bind_ok, idx_of_lt (show 15 < _ by omega), Res.bind_ok]
  exact (fmp4_val4 _ _ _ _ _ _ e).symm

theorem fmp4_sampleCount_append (l : List Part) (p : Part) : sampleCount (l ++ [p]) = sampleCount l + (p.tracks.map fun t => t.samples.length).sum := by
  unfold sampleCount
  rw [List.map_append, List.sum_append]
  simp

theorem fmp4_onPart_count (r : Reader) (g : Part → Part) (k : Nat)
    (hg : ∀ p, ((g p).tracks.map fun t => t.samples.length).sum ≤ (p.tracks.map fun t => t.samples.length).sum + k) :
    Holds (fun r' => sampleCount r'.parts ≤ sampleCount r.parts + k) (r.onPart g) := by
  by_cases h : r.parts = []
  · unfold Reader.onPart; rw [h]; trivial
  · obtain ⟨l, p, e, e'⟩ := fmp4_onPart r g h
    rw [e']
    show sampleCount (l ++ [g p]) ≤ _
    rw [e, fmp4_sampleCount_append, fmp4_sampleCount_append]
    have := hg p
    omega

theorem fmp4_onTrack_count (r : Reader) (g : PartTrack → PartTrack) (k : Nat) (hg : ∀ t, (g t).samples.length ≤ t.samples.length + k) :
    Holds (fun r' => sampleCount r'.parts ≤ sampleCount r.parts + k) (r.onTrack g) := by
  by_cases h : r.parts = []
  · unfold Reader.onTrack; rw [h]; trivial
  · obtain ⟨l, p, e⟩ : ∃ l p, r.parts = l ++ [p] := ⟨_, _, (List.dropLast_concat_getLast h).symm⟩
    by_cases h' : p.tracks = []
    · unfold Reader.onTrack
      simp only [e, List.reverse_append, List.reverse_cons, List.reverse_nil, List.nil_append, List.singleton_append, h']
      trivial
    · obtain ⟨ts, t, et, e'⟩ := fmp4_onTrack r g l p e h'
      rw [e']
      show sampleCount (l ++ [_]) ≤ _
      rw [e, fmp4_sampleCount_append, fmp4_sampleCount_append, et]
      simp only [List.map_append, List.sum_append, List.map_cons, List.map_nil, List.sum_cons, List.sum_nil]
      have := hg t
      omega

/-- A `trun` with a 32-bit size adds no more than 19200 samples. -/
theorem fmp4_readTrun_count (b : Bytes) (bi : BoxInfo) (r : Reader) (hh : bi.headerSize = 8) :
    Holds (fun r' => sampleCount r'.parts ≤ sampleCount r.parts + 19200) (readTrun b bi r) := by
  unfold readTrun
  split
  · trivial
  · refine holds_if (fun _ => trivial) fun _ => ?_
    by_cases ho : bi.offset ≤ b.length
    · rw [sliceFrom_ok ho, Res.bind_ok]
      cases hc : rawCount (b.drop bi.offset) with
      | err e => trivial
      | panic => trivial
      | ok count =>
        rw [Res.bind_ok]
        refine holds_if (fun _ => trivial) fun hlim => ?_
        refine holds_bind (holds_trun _) fun t ht => ?_
        obtain ⟨hp, hn⟩ := ht
        have hpl : bi.payload b = (b.drop (bi.offset + 8)).take (bi.size - 8) := by unfold BoxInfo.payload; rw [hh]
        rw [hpl] at hp hn
        have hl : 16 ≤ (b.drop bi.offset).length := by
          rw [List.length_take, List.length_drop] at hp
          rw [List.length_drop]; omega
        have hcv := holds_rawCount _ hl
        rw [hc] at hcv
        have hcv : count = val4 ((b.drop bi.offset).drop 12) := hcv
        have hnv : t.entries.length = count := by
          rw [hn, hcv]
          unfold val4
          rw [List.length_take] at hp
          rw [List.drop_take, List.take_take, List.drop_drop, List.drop_drop]
          congr 2
          omega
        have hle : t.entries.length ≤ 19200 := by unfold maxSamplesPerTrun at hlim; omega
        refine holds_if (fun _ => ?_) fun _ => Nat.le_add_right _ _
        refine holds_if (fun _ => trivial) fun _ => ?_
        dsimp only
        refine holds_if (fun _ => trivial) fun _ => ?_
        refine holds_bind (holds_any _) fun ptr _ => ?_
        refine holds_bind (holds_sound (sound_readEntries _ _ _ _)) fun s hs => ?_
        exact fmp4_onTrack_count _ _ _ fun t' => by simp only [List.length_append]; omega
    · unfold sliceFrom
      rw [if_neg ho]
      trivial

/-- Boxes with the type `trun` have 32-bit sizes. -/
theorem fmp4_small_trun (b : Bytes) (h : NoLargeTrun b) (pos : Nat) :
    Holds (fun x => ∀ bi, x = some bi → bi.typ = typTrun → bi.headerSize = 8) (readBoxInfo b pos) := by
  unfold readBoxInfo
  refine holds_if (fun _ bi hb => by cases hb) fun hl => ?_
  refine holds_bind (holds_takeBE 4 _) fun x hx => ?_
  obtain ⟨_, rfl⟩ := hx
  simp only
  refine holds_if (fun _ bi hb _ => by cases hb; rfl) fun _ => ?_
  refine holds_if (fun h1 => ?_) fun _ => holds_if (fun _ => trivial) fun _ bi hb _ => by cases hb; rfl
  refine holds_if (fun _ bi hb => by cases hb) fun _ => ?_
  refine holds_bind (holds_any _) fun y _ => holds_if (fun _ => trivial) fun _ bi hb ht => ?_
  cases hb
  have ht : ((b.drop pos).drop 4).take 4 = typTrun := ht
  exfalso
  apply h pos
  generalize b.drop pos = c at *
  match c, hl with
  | x0 :: x1 :: x2 :: x3 :: l, _ =>
    have hv := fmp4_val4 (x0 :: x1 :: x2 :: x3 :: l) x0 x1 x2 x3 l rfl
    unfold val4 at hv
    rw [h1] at hv
    have k0 : x0 = 0 := UInt8.toNat_inj.mp (by simp; omega)
    have k1 : x1 = 0 := UInt8.toNat_inj.mp (by simp; omega)
    have k2 : x2 = 0 := UInt8.toNat_inj.mp (by simp; omega)
    have k3 : x3 = 1 := UInt8.toNat_inj.mp (by simp; omega)
    subst k0 k1 k2 k3
    simp only [List.drop_succ_cons, List.drop_zero] at ht
    simp only [List.take_succ_cons, List.cons.injEq, true_and]
    exact ht
  | [], h => exact absurd h (by simp)
  | [_], h => exact absurd h (by simp)
  | [_, _], h => exact absurd h (by simp)
  | [_, _, _], h => exact absurd h (by simp)

/-- The end of a level, inside the file. -/
def levelEnd (b : Bytes) (pos : Nat) : Option Nat → Nat
  | none => b.length
  | some k => min (pos + k) b.length

theorem fmp4_handle_count (b : Bytes) (bi : BoxInfo) (ex : Reader → Res Reader) (k : Nat) (r : Reader)
    (hh : bi.typ = typTrun → bi.headerSize = 8)
    (hex : ∀ r, Holds (fun r' => sampleCount r'.parts ≤ sampleCount r.parts + k) (ex r)) :
    Holds (fun r' => sampleCount r'.parts ≤ sampleCount r.parts + max k 19200) (handle b bi ex r) := by
  have h0 : sampleCount r.parts ≤ sampleCount r.parts + max k 19200 := by omega
  unfold handle
  refine holds_if (fun _ => holds_if (fun _ => trivial) fun _ => ?_) fun _ => ?_
  · refine holds_mono (hex _) fun r' hr => ?_
    have : sampleCount (r.parts ++ [({} : Part)]) = sampleCount r.parts := by rw [fmp4_sampleCount_append]; rfl
    have hr : sampleCount r'.parts ≤ sampleCount (r.parts ++ [({} : Part)]) + k := hr
    omega
  refine holds_if (fun _ => holds_if (fun _ => trivial) fun _ => ?_) fun _ => ?_
  · refine holds_bind (holds_any _) fun seq _ => holds_bind (fmp4_onPart_count r _ 0 fun p => Nat.le_refl _) fun r' hr => ?_
    show sampleCount r'.parts ≤ _
    omega
  refine holds_if (fun _ => holds_if (fun _ => trivial) fun _ => ?_) fun _ => ?_
  · refine holds_if (fun _ => trivial) fun _ => ?_
    refine holds_bind (fmp4_onPart_count r _ 0 fun p => by simp) fun r' hr => ?_
    refine holds_mono (hex _) fun r'' hr' => ?_
    have hr' : sampleCount r''.parts ≤ sampleCount r'.parts + k := hr'
    omega
  refine holds_if (fun _ => holds_if (fun _ => trivial) fun _ => ?_) fun _ => ?_
  · refine holds_bind (holds_any _) fun tfhd _ => holds_bind (fmp4_onTrack_count r _ 0 fun p => Nat.le_refl _) fun r' hr => ?_
    show sampleCount r'.parts ≤ _
    omega
  refine holds_if (fun _ => holds_if (fun _ => trivial) fun _ => ?_) fun _ => ?_
  · refine holds_bind (holds_any _) fun tfdt _ => holds_bind (fmp4_onTrack_count r _ 0 fun p => Nat.le_refl _) fun r' hr => ?_
    show sampleCount r'.parts ≤ _
    omega
  refine holds_if (fun ht => holds_mono (fmp4_readTrun_count b bi r (hh ht)) fun r' hr => by omega) fun _ => ?_
  refine holds_if (fun _ => holds_if (fun _ => trivial) fun _ => holds_if (fun _ => trivial) fun _ => h0) fun _ => h0

theorem fmp4_readLevel_count (b : Bytes) (h : NoLargeTrun b) :
    ∀ (n pos : Nat) (left : Option Nat) (r : Reader),
      Holds (fun r' => sampleCount r'.parts + 2400 * min pos b.length ≤ sampleCount r.parts + 2400 * levelEnd b pos left) (readLevel n b pos left r) := by
  intro n
  induction n with
  | zero => intro pos left r; trivial
  | succ n ih =>
    intro pos left r
    have hle : min pos b.length ≤ levelEnd b pos left := by
      cases left with
      | none => simp only [levelEnd]; omega
      | some k => simp only [levelEnd]; omega
    have h0 : sampleCount r.parts + 2400 * min pos b.length ≤ sampleCount r.parts + 2400 * levelEnd b pos left := by omega
    unfold readLevel
    refine holds_if (fun _ => holds_if (fun _ => h0) fun _ => trivial) fun _ => ?_
    cases hb : readBoxInfo b pos with
    | err e => trivial
    | panic => trivial
    | ok x =>
      have h1 := sound_readBoxInfo b pos
      have h2 := fmp4_small_trun b h pos
      rw [hb] at h1 h2
      rw [Res.bind_ok]
      cases x with
      | none => exact holds_if (fun _ => h0) fun _ => trivial
      | some bi =>
        obtain ⟨g1, g2, g3, g4⟩ := h1 bi rfl
        have g5 := h2 bi rfl
        simp only
        refine holds_if (fun _ => trivial) fun hl => ?_
        -- the box takes 8 bytes of the file at least
        have hk : ∀ r0, Holds (fun r' => sampleCount r'.parts ≤ sampleCount r0.parts + 2400 * (min (pos + bi.size) b.length - (pos + 8)))
            (readLevel n b (bi.offset + bi.headerSize) (some (bi.size - bi.headerSize)) r0) := by
          intro r0
          refine holds_mono (ih _ _ r0) fun r' hr => ?_
          rw [g1] at hr
          simp only [levelEnd] at hr
          rw [show pos + bi.headerSize + (bi.size - bi.headerSize) = pos + bi.size by omega] at hr
          omega
        refine holds_bind (fmp4_handle_count b bi _ _ r g5 hk) fun r1 hr1 => ?_
        refine holds_mono (ih _ _ r1) fun r2 hr2 => ?_
        rw [g1] at hr2
        have hend : levelEnd b (pos + bi.size) (left.map (· - bi.size)) ≤ levelEnd b pos left := by
          cases left with
          | none => exact Nat.le_refl _
          | some k =>
            have : ¬ k < bi.size := by simpa using hl
            show min (pos + bi.size + (k - bi.size)) b.length ≤ min (pos + k) b.length
            rw [show pos + bi.size + (k - bi.size) = pos + k by omega]
            exact Nat.le_refl _
        omega

/-- C70: unless some `trun` box has a 64-bit size, the number of samples returned by `Parts.Unmarshal` is at most 19200 for every 8
bytes of the file. What is missing is `trun` boxes with 64-bit sizes. -/
theorem C70_samples_partial (b : Bytes) (h : NoLargeTrun b) (l : List Part) (he : unmarshal b = .ok l) : sampleCount l ≤ 2400 * b.length := by
  have := fmp4_readLevel_count b h (b.length + 1) 0 none {}
  unfold unmarshal at he
  obtain ⟨r, e, he⟩ := Res.bind_eq_ok.mp he
  rw [e] at this
  have this : sampleCount r.parts + 2400 * min 0 b.length ≤ sampleCount [] + 2400 * b.length := this
  have h0 : sampleCount [] = 0 := rfl
  split at he
  · cases he
  · simp only [Res.ok.injEq] at he
    rw [← he]
    omega

example : NoLargeTrun (moof examplePart [196, 199] ++ mdat examplePart) := by
  intro pos
  by_cases h : pos < 204
  · revert pos; decide +kernel
  · rw [List.drop_eq_nil_of_le (by
      have : (moof examplePart [196, 199] ++ mdat examplePart).length = 203 := by decide +kernel
      omega)]
    simp

example : ∃ l, unmarshal (moof examplePart [196, 199] ++ mdat examplePart) = .ok l ∧ sampleCount l = 3 := ⟨[examplePart], by decide +kernel, rfl⟩

/-! ## A `trun` with a 64-bit size -/

/-- Version 0, the flag of the data offset, sample count, data offset: samples take no space. -/
def bareRun (n : Nat) : Bytes := beBytes 1 0 ++ beBytes 3 1 ++ (beBytes 4 n ++ beBytes 4 0)

/-- The same box as `box typTrun (bareRun n)`, with a 64-bit size. -/
def largeRun (n : Nat) : Bytes := beBytes 4 1 ++ typTrun ++ beBytes 8 28 ++ bareRun n

def bareHead : Bytes := box typTfhd (beBytes 1 0 ++ beBytes 3 0x20000 ++ beBytes 4 1)

def bareTime : Bytes := box typTfdt (beBytes 1 1 ++ beBytes 3 0 ++ beBytes 8 0)

def bareMfhd : Bytes := fullBox typMfhd 0 0 (beBytes 4 0)

/-- 104 bytes. -/
def largeFile (n : Nat) : Bytes :=
  box typMoof (bareMfhd ++ box typTraf (bareHead ++ bareTime ++ largeRun n)) ++ box typMdat []

theorem fmp4_bareRun_length (n : Nat) : (bareRun n).length = 12 := by unfold bareRun; simp [beBytes_length]

theorem fmp4_largeRun_length (n : Nat) : (largeRun n).length = 28 := by
  unfold largeRun; simp only [List.length_append, beBytes_length, fmp4_bareRun_length]; rfl

theorem fmp4_largeFile_length (n : Nat) : (largeFile n).length = 104 := by
  unfold largeFile
  simp only [List.length_append, box_length _ _ (show typMoof.length = 4 from rfl), box_length _ _ (show typMdat.length = 4 from rfl),
    box_length _ _ (show typTraf.length = 4 from rfl), fmp4_largeRun_length]
  rfl

theorem fmp4_bare_entries : ∀ (n : Nat) (b : Bytes), decodeEntries 1 n b = .ok (List.replicate n {}) := by
  intro n
  induction n with
  | zero => intro b; rfl
  | succ n ih =>
    intro b
    unfold decodeEntries
    have h1 : hasFlag 1 0x100 = false := rfl
    have h2 : hasFlag 1 0x200 = false := rfl
    have h3 : hasFlag 1 0x400 = false := rfl
    have h4 : hasFlag 1 0x800 = false := rfl
    rw [h1, h2, h3, h4]
    have h : takeOpt false b = .ok (0, b) := rfl
    simp only [h, Res.bind_ok, ih]
    rfl

theorem fmp4_bareTrun (n : Nat) (h : n < 2 ^ 32) : decodeTrun (bareRun n) = .ok ⟨0, 1, n, 0, 0, List.replicate n {}⟩ := by
  unfold decodeTrun bareRun
  rw [fmp4_takeFull _ _ _ (by omega) (by omega), Res.bind_ok]
  simp only
  rw [fmp4_takeBE 4 _ _ (by omega), Res.bind_ok]
  simp only
  have e1 : takeOpt (hasFlag 1 1) (beBytes 4 0) = .ok (0, []) := rfl
  have e2 : takeOpt (hasFlag 1 4) ([] : Bytes) = .ok (0, []) := rfl
  rw [e1, Res.bind_ok]
  simp only
  rw [e2, Res.bind_ok]
  simp only
  rw [fmp4_bare_entries, Res.bind_ok]
  rfl

theorem fmp4_bare_readEntries (t : Trun) (ht : t.flags = 1) (n : Nat) :
    ∀ ptr, readEntries t ⟨1, 0, 0, 0⟩ (List.replicate n {}) ptr = .ok (List.replicate n {}) := by
  induction n with
  | zero => intro ptr; rfl
  | succ n ih =>
    intro ptr
    rw [List.replicate_succ, List.replicate_succ]
    unfold readEntries
    rw [ht]
    have h1 : hasFlag 1 0x100 = false := rfl
    have h2 : hasFlag 1 0x200 = false := rfl
    have h3 : hasFlag 1 0x400 = false := rfl
    simp only [h1, h2, h3, Bool.false_eq_true, if_false]
    rw [if_neg (by omega), slice_ok (Nat.zero_le _) (Nat.zero_le _), Res.bind_ok, sliceFrom_ok (Nat.zero_le _), Res.bind_ok, ih, Res.bind_ok]
    rfl

/-- The step at the `trun` box. -/
theorem fmp4_large_step (k : Nat) (b a c : Bytes) (n : Nat) (hn : n < 2 ^ 32) (hb : b = a ++ (largeRun n ++ c)) :
    readLevel (k + 2) b a.length (some 28) (inTrack [] 0 [] { id := 1 } 0 (some 0) (some ⟨1, 0, 0, 0⟩)) =
      .ok (inTrack [] 0 [] { id := 1, samples := List.replicate n {} } 0 (some 0) (some ⟨1, 0, 0, 0⟩)) := by
  have hd : b.drop a.length = beBytes 4 1 ++ (typTrun ++ (beBytes 8 28 ++ (bareRun n ++ c))) := by
    rw [hb, List.drop_left]; unfold largeRun; simp only [List.append_assoc]
  have hlen : (b.drop a.length).length = 28 + c.length := by
    rw [hd]; simp only [List.length_append, beBytes_length, fmp4_bareRun_length]
    show 4 + (4 + _) = _; omega
  have hal : a.length ≤ b.length := by rw [hb, List.length_append]; omega
  have hbi : readBoxInfo b a.length = .ok (some ⟨a.length, 28, 16, typTrun⟩) := by
    unfold readBoxInfo
    rw [hlen, hd, if_neg (by omega), fmp4_takeBE 4 _ _ (by omega), Res.bind_ok]
    simp only
    rw [if_neg (by omega), if_pos trivial, if_neg (by omega), List.drop_left' (show typTrun.length = 4 from rfl),
      fmp4_takeBE 8 _ _ (by omega), Res.bind_ok]
    simp only
    rw [if_neg (by omega), List.take_left' (show typTrun.length = 4 from rfl)]
  have hpay : BoxInfo.payload ⟨a.length, 28, 16, typTrun⟩ b = bareRun n := by
    unfold BoxInfo.payload
    simp only
    rw [← List.drop_drop, hd]
    have : beBytes 4 1 ++ (typTrun ++ (beBytes 8 28 ++ (bareRun n ++ c))) = (beBytes 4 1 ++ typTrun ++ beBytes 8 28) ++ (bareRun n ++ c) := by
      simp only [List.append_assoc]
    rw [this, List.drop_left' (show (beBytes 4 1 ++ typTrun ++ beBytes 8 28).length = 16 from rfl), List.take_left' (fmp4_bareRun_length n)]
  have hraw : rawCount (b.drop a.length) = .ok 28 := by
    have : b.drop a.length = (beBytes 4 1 ++ typTrun ++ beBytes 4 0) ++ (beBytes 4 28 ++ (bareRun n ++ c)) := by
      rw [hd]
      have : beBytes 8 28 = beBytes 4 0 ++ beBytes 4 28 := by decide
      rw [this]
      simp only [List.append_assoc]
    rw [this]
    exact fmp4_rawCount _ _ _ rfl (by omega)
  rw [readLevel, if_neg (by simp), hbi, Res.bind_ok]
  simp only
  rw [if_neg (by simp)]
  unfold handle
  simp only
  rw [if_neg (by decide), if_neg (by decide), if_neg (by decide), if_neg (by decide), if_neg (by decide), if_pos trivial]
  unfold readTrun
  have hs : (inTrack [] 0 [] { id := 1 } 0 (some 0) (some ⟨1, 0, 0, 0⟩)).state = .waitingBoxes := rfl
  have htf : (inTrack [] 0 [] { id := 1 } 0 (some 0) (some ⟨1, 0, 0, 0⟩)).tfhd = some ⟨1, 0, 0, 0⟩ := rfl
  have hm : (inTrack [] 0 [] { id := 1 } 0 (some 0) (some ⟨1, 0, 0, 0⟩)).moofOffset = 0 := rfl
  rw [htf]
  simp only
  rw [hs, if_neg (by simp), sliceFrom_ok hal, Res.bind_ok, hraw, Res.bind_ok, if_neg (by unfold maxSamplesPerTrun; omega), hpay,
    fmp4_bareTrun n hn, Res.bind_ok]
  simp only [List.length_replicate]
  have hmap : Option.map (fun x => x - 28) (some 28) = some 0 := rfl
  by_cases h0 : n = 0
  · subst h0
    rw [if_neg (by simp), Res.bind_ok, hmap, fmp4_end]
    rfl
  · rw [if_pos h0, if_neg (by decide), hm]
    have hp : (((0 : Int) % 2 ^ 64).toNat + 0) % 2 ^ 64 = 0 := by decide
    rw [hp, if_neg (by omega), sliceFrom_ok (Nat.zero_le _), Res.bind_ok, fmp4_bare_readEntries _ rfl, Res.bind_ok, fmp4_onTrack_in,
      Res.bind_ok, hmap, fmp4_end]
    rfl

/-- C70 is false when a `trun` box has a 64-bit size: the limit is compared with bytes of the size, and a file of 104 bytes produces any
number of samples below 2^32. -/
theorem C70_samples_false (n : Nat) (hn : n < 2 ^ 32) :
    (largeFile n).length = 104 ∧ ∃ l, unmarshal (largeFile n) = .ok l ∧ sampleCount l = n := by
  refine ⟨fmp4_largeFile_length n, [⟨0, [{ id := 1, samples := List.replicate n {} }]⟩], ?_, by simp [sampleCount]⟩
  have hlen := fmp4_largeFile_length n
  have hT : (bareHead ++ bareTime ++ largeRun n).length = 64 := by
    rw [List.length_append, fmp4_largeRun_length]; rfl
  have hTb : (box typTraf (bareHead ++ bareTime ++ largeRun n)).length = 72 := by rw [box_length _ _ rfl, hT]
  have hM : (bareMfhd ++ box typTraf (bareHead ++ bareTime ++ largeRun n)).length = 88 := by
    rw [List.length_append, hTb]; rfl
  unfold unmarshal
  rw [hlen]
  generalize hb : largeFile n = b
  have hb0 : b = [] ++ (box typMoof (bareMfhd ++ box typTraf (bareHead ++ bareTime ++ largeRun n)) ++ box typMdat []) := by rw [← hb]; rfl
  have h1 : b = (beBytes 4 96 ++ typMoof) ++ (bareMfhd ++ (box typTraf (bareHead ++ bareTime ++ largeRun n) ++ box typMdat [])) := by
    rw [hb0, fmp4_box_eq typMoof, hM]; simp only [List.nil_append, List.append_assoc]
  have h2 : b = (beBytes 4 96 ++ typMoof ++ bareMfhd) ++ (box typTraf (bareHead ++ bareTime ++ largeRun n) ++ box typMdat []) := by
    rw [h1]; simp only [List.append_assoc]
  have h3 : b = (beBytes 4 96 ++ typMoof ++ bareMfhd ++ (beBytes 4 72 ++ typTraf)) ++ (bareHead ++ (bareTime ++ (largeRun n ++ box typMdat []))) := by
    rw [h2, fmp4_box_eq typTraf, hT]; simp only [List.append_assoc]
  have h4 : b = (beBytes 4 96 ++ typMoof ++ bareMfhd ++ (beBytes 4 72 ++ typTraf) ++ bareHead) ++ (bareTime ++ (largeRun n ++ box typMdat [])) := by
    rw [h3]; simp only [List.append_assoc]
  have h5 : b = (beBytes 4 96 ++ typMoof ++ bareMfhd ++ (beBytes 4 72 ++ typTraf) ++ bareHead ++ bareTime) ++ (largeRun n ++ box typMdat []) := by
    rw [h3]; simp only [List.append_assoc]
  have h6 : b = (box typMoof (bareMfhd ++ box typTraf (bareHead ++ bareTime ++ largeRun n))) ++ (box typMdat [] ++ []) := by
    rw [hb0]; simp only [List.nil_append, List.append_nil]
  -- the content of the track
  have e1 : readLevel 102 b (beBytes 4 96 ++ typMoof ++ bareMfhd ++ (beBytes 4 72 ++ typTraf)).length (some 64) (inTrack [] 0 [] {} 0 none none) =
      .ok (inTrack [] 0 [] { id := 1, samples := List.replicate n {} } 0 (some 0) (some ⟨1, 0, 0, 0⟩)) := by
    rw [fmp4_step 101 b _ _ typTfhd (beBytes 1 0 ++ beBytes 3 0x20000 ++ beBytes 4 1) (some 64) (some 48) _ h3 rfl (by decide) (Or.inr ⟨48, rfl, rfl⟩),
      fmp4_handle_tfhd b _ _ rfl 1 (by decide) (by rw [h3]; exact fmp4_payload _ _ typTfhd _ rfl), Res.bind_ok]
    have e := fmp4_step 100 b _ _ typTfdt (beBytes 1 1 ++ beBytes 3 0 ++ beBytes 8 0) (some 48) (some 28)
      (inTrack [] 0 [] { id := 1 } 0 none (some ⟨1, 0, 0, 0⟩)) h4 rfl (by decide) (Or.inr ⟨28, rfl, rfl⟩)
    rw [fmp4_handle_tfdt b _ _ rfl 0 (by decide) (by rw [h4]; exact fmp4_payload _ _ typTfdt _ rfl), Res.bind_ok] at e
    refine e.trans ?_
    exact fmp4_large_step 98 b _ _ n hn h5
  -- the content of the fragment
  have e2 : readLevel 104 b (beBytes 4 96 ++ typMoof).length (some 88) { parts := [{}], state := .waitingMfhd } =
      .ok (inTrack [] 0 [] { id := 1, samples := List.replicate n {} } 0 (some 0) (some ⟨1, 0, 0, 0⟩)) := by
    rw [fmp4_step 103 b _ _ typMfhd (beBytes 1 0 ++ beBytes 3 0 ++ beBytes 4 0) (some 88) (some 72) _ h1 rfl (by decide) (Or.inr ⟨72, rfl, rfl⟩)]
    have hmf : ∀ ex, handle b ⟨(beBytes 4 96 ++ typMoof).length, 8 + (beBytes 1 0 ++ beBytes 3 0 ++ beBytes 4 0).length, 8, typMfhd⟩ ex
        { parts := [{}], state := .waitingMfhd } = .ok { parts := [{}], state := .waitingTraf } := by
      intro ex
      unfold handle
      simp only
      rw [if_neg (by decide), if_pos trivial, if_neg (by simp), h1]
      have hp : BoxInfo.payload ⟨(beBytes 4 96 ++ typMoof).length, 8 + (beBytes 1 0 ++ beBytes 3 0 ++ beBytes 4 0).length, 8, typMfhd⟩
        ((beBytes 4 96 ++ typMoof) ++ (bareMfhd ++ (box typTraf (bareHead ++ bareTime ++ largeRun n) ++ box typMdat []))) =
          beBytes 1 0 ++ beBytes 3 0 ++ beBytes 4 0 := fmp4_payload _ _ typMfhd _ rfl
      rw [hp]
      rfl
    rw [hmf, Res.bind_ok]
    have e := fmp4_step 102 b _ _ typTraf (bareHead ++ bareTime ++ largeRun n) (some 72) (some 0) { parts := [{}], state := .waitingTraf } h2 rfl
      (by rw [hT]; decide) (Or.inr ⟨0, by rw [hT], rfl⟩)
    refine e.trans ?_
    rw [hT]
    have htr : handle b ⟨(beBytes 4 96 ++ typMoof ++ bareMfhd).length, 8 + 64, 8, typTraf⟩
        (fun r => readLevel 102 b ((beBytes 4 96 ++ typMoof ++ bareMfhd).length + 8) (some 64) r) { parts := [{}], state := .waitingTraf } =
        .ok (inTrack [] 0 [] { id := 1, samples := List.replicate n {} } 0 (some 0) (some ⟨1, 0, 0, 0⟩)) := by
      unfold handle
      simp only
      rw [if_neg (by decide), if_neg (by decide), if_pos trivial, if_neg (by simp), if_neg (by decide)]
      exact e1
    rw [htr, Res.bind_ok, fmp4_end]
  -- the file
  have e3 := fmp4_step 104 b [] _ typMoof _ none none {} hb0 rfl (by rw [hM]; decide) (Or.inl ⟨rfl, rfl⟩)
  rw [hM] at e3
  have hmo : handle b ⟨([] : Bytes).length, 8 + 88, 8, typMoof⟩ (fun r => readLevel 104 b (([] : Bytes).length + 8) (some 88) r) {} =
      .ok (inTrack [] 0 [] { id := 1, samples := List.replicate n {} } 0 (some 0) (some ⟨1, 0, 0, 0⟩)) := by
    unfold handle
    simp only
    rw [if_pos trivial, if_neg (by simp)]
    exact e2
  rw [hmo, Res.bind_ok, List.nil_append, fmp4_step 103 b _ _ typMdat [] none none _ h6 rfl (by decide) (Or.inl ⟨rfl, rfl⟩)] at e3
  have hmd : ∀ bi ex, bi.typ = typMdat →
      handle b bi ex (inTrack [] 0 [] { id := 1, samples := List.replicate n {} } 0 (some 0) (some ⟨1, 0, 0, 0⟩)) =
      .ok { inTrack [] 0 [] { id := 1, samples := List.replicate n {} } 0 (some 0) (some ⟨1, 0, 0, 0⟩) with state := .waitingMoof } := by
    intro bi ex h
    unfold handle
    rw [h, if_neg (by decide), if_neg (by decide), if_neg (by decide), if_neg (by decide), if_neg (by decide), if_neg (by decide), if_pos rfl,
      if_neg (by simp [inTrack]), if_neg (by simp [inTrack, Reader.incomplete])]
  rw [hmd _ _ rfl, Res.bind_ok] at e3
  have hend : (box typMoof (bareMfhd ++ box typTraf (bareHead ++ bareTime ++ largeRun n)) ++ box typMdat []).length = b.length := by rw [hb0]; rfl
  rw [hend, fmp4_end_root 102 b] at e3
  rw [show 104 + 1 = 105 from rfl]
  have e3' : readLevel 105 b 0 none {} = .ok { inTrack [] 0 [] { id := 1, samples := List.replicate n {} } 0 (some 0) (some ⟨1, 0, 0, 0⟩) with
    state := .waitingMoof } := e3
  rw [e3', Res.bind_ok]
  rfl

end Verif.Props
