import Verif.Model.FMP4Work
import Verif.Props.FMP4Limit

/-!
# C105: the work of `Parts.Unmarshal`
-/

namespace Verif.Props
open FMP4 MP4Writer
open Spec (beBytes)
open Spec.FMP4
open ByteR (beBytes_length)

/-! ## The counter changes nothing -/

theorem work_ext {α : Type} {x y : Work α} (h1 : x.cost = y.cost) (h2 : x.res = y.res) : x = y := by
  cases x; cases y; cases h1; cases h2; rfl

theorem work_bind_res {α β : Type} (x : Work α) (f : α → Work β) : (x >>= f).res = (x.res >>= fun a => (f a).res) := by
  show (Work.bind x f).res = _
  unfold Work.bind
  cases x.res <;> rfl

theorem work_free_ok {α β : Type} (a : α) (f : α → Work β) : (Work.free (.ok a) >>= f) = f a := by
  refine work_ext ?_ rfl
  exact Nat.zero_add _

theorem work_free_res {α : Type} (x : Res α) : (Work.free x).res = x := rfl

theorem work_if_res {α : Type} (c : Prop) [Decidable c] (x y : Work α) : (if c then x else y).res = if c then x.res else y.res := by
  split <;> rfl

theorem work_readTrun (b : Bytes) (bi : BoxInfo) (r : Reader) : (readTrunW b bi r).res = readTrun b bi r := by
  unfold readTrunW readTrun
  cases r.tfhd with
  | none => rfl
  | some tfhd => simp only [work_if_res, work_bind_res, work_free_res, Work.add]

theorem work_handle (b : Bytes) (bi : BoxInfo) (ex : Reader → Work Reader) (r : Reader) :
    (handleW b bi ex r).res = handle b bi (fun r => (ex r).res) r := by
  unfold handleW handle
  simp only [work_if_res, work_bind_res, work_free_res, work_readTrun]

theorem work_readLevel (b : Bytes) : ∀ (n pos : Nat) (left : Option Nat) (r : Reader),
    (readLevelW n b pos left r).res = readLevel n b pos left r := by
  intro n
  induction n with
  | zero => intro pos left r; rfl
  | succ n ih =>
    intro pos left r
    rw [readLevelW, readLevel]
    simp only [work_if_res, work_bind_res, work_free_res]
    split
    · rfl
    · refine bind_congr fun x => ?_
      cases x with
      | none => rfl
      | some bi => simp only [work_if_res, work_bind_res, work_free_res, work_handle, ih]

/-- C105: the counted reader returns what the reader returns. -/
theorem C105_same (b : Bytes) : (unmarshalW b).res = unmarshal b := by
  unfold unmarshalW unmarshal
  simp only [work_bind_res, work_free_res, work_readLevel]

/-! ## The bound -/

theorem work_bind_cost {α β : Type} (x : Work α) (f : α → Work β) (k j : Nat) (hx : x.cost ≤ k) (hf : ∀ a, x.res = .ok a → (f a).cost ≤ j) :
    (x >>= f).cost ≤ k + j := by
  show (Work.bind x f).cost ≤ _
  unfold Work.bind
  cases h : x.res with
  | ok a =>
    have := hf a h
    show x.cost + (f a).cost ≤ _
    omega
  | err e => show x.cost ≤ _; omega
  | panic => show x.cost ≤ _; omega

theorem work_free_bind_cost {α β : Type} (x : Res α) (f : α → Work β) (j : Nat) (hf : ∀ a, x = .ok a → (f a).cost ≤ j) :
    (Work.free x >>= f).cost ≤ j := by
  have := work_bind_cost (Work.free x) f 0 j (Nat.le_refl _) hf
  omega

theorem work_if_cost {α : Type} {c : Prop} [Decidable c] {x y : Work α} {k : Nat} (hx : c → x.cost ≤ k) (hy : ¬c → y.cost ≤ k) :
    (if c then x else y).cost ≤ k := by
  by_cases h : c
  · rw [if_pos h]; exact hx h
  · rw [if_neg h]; exact hy h

theorem work_le_sum : ∀ (l : List Nat) (x : Nat), x ∈ l → x ≤ l.sum := by
  intro l x
  induction l with
  | nil => intro h; cases h
  | cons y l ih =>
    intro h
    rw [List.sum_cons]
    rcases List.mem_cons.mp h with rfl | h
    · omega
    · have := ih h
      omega

theorem work_existing (r : Reader) : r.existing ≤ sampleCount r.parts := by
  unfold Reader.existing
  split
  · exact Nat.zero_le _
  · rename_i p hp
    split
    · exact Nat.zero_le _
    · rename_i t ht
      have h1 : p ∈ r.parts := List.mem_of_getLast? hp
      have h2 : t ∈ p.tracks := List.mem_of_getLast? ht
      have e2 : t.samples.length ≤ (p.tracks.map fun t => t.samples.length).sum :=
        work_le_sum _ _ (List.mem_map_of_mem h2)
      have e1 : (p.tracks.map fun t => t.samples.length).sum ≤ sampleCount r.parts :=
        work_le_sum _ _ (List.mem_map_of_mem h1)
      omega

/-- `trun` boxes with 32-bit sizes have no more than 19200 entries, if the reader gets as far as the array. -/
theorem work_entries (b : Bytes) (bi : BoxInfo) (hh : bi.headerSize = 8) (ho : bi.offset ≤ b.length) (count : Nat)
    (hc : rawCount (b.drop bi.offset) = .ok count) (hlim : ¬ count > maxSamplesPerTrun) (t : Trun) (ht : decodeTrun (bi.payload b) = .ok t) :
    t.entries.length ≤ 19200 := by
  have ht' := holds_trun (bi.payload b)
  rw [ht] at ht'
  obtain ⟨hp, hn⟩ := ht'
  have hpl : bi.payload b = (b.drop (bi.offset + 8)).take (bi.size - 8) := by unfold BoxInfo.payload; rw [hh]
  rw [hpl] at hp hn
  have hl : 16 ≤ (b.drop bi.offset).length := by
    rw [List.length_take, List.length_drop] at hp
    rw [List.length_drop]; omega
  have hcv := holds_rawCount _ hl
  rw [hc] at hcv
  have hcv : count = val4 ((b.drop bi.offset).drop 12) := hcv
  have hnv : t.entries.length = count := by
    rw [hn, hcv]
    unfold val4
    rw [List.length_take] at hp
    rw [List.drop_take, List.take_take, List.drop_drop, List.drop_drop]
    congr 2
    omega
  unfold maxSamplesPerTrun at hlim
  omega

theorem work_readTrun_cost (b : Bytes) (bi : BoxInfo) (r : Reader) (hh : bi.headerSize = 8) :
    (readTrunW b bi r).cost ≤ sampleCount r.parts + 19200 := by
  unfold readTrunW
  split
  · exact Nat.zero_le _
  · refine work_if_cost (fun _ => Nat.zero_le _) fun _ => ?_
    refine work_free_bind_cost _ _ _ fun raw hraw => work_free_bind_cost _ _ _ fun count hcount => ?_
    refine work_if_cost (fun _ => Nat.zero_le _) fun hlim => work_free_bind_cost _ _ _ fun t ht => ?_
    refine work_if_cost (fun _ => work_if_cost (fun _ => Nat.zero_le _) fun _ => ?_) fun _ => Nat.zero_le _
    have ho : bi.offset ≤ b.length := by
      by_cases h : bi.offset ≤ b.length
      · exact h
      · unfold sliceFrom at hraw; rw [if_neg h] at hraw; cases hraw
    rw [sliceFrom_ok ho] at hraw
    cases hraw
    have h1 := work_entries b bi hh ho count hcount hlim t ht
    have h2 := work_existing r
    unfold Work.add
    dsimp only
    refine Nat.le_trans (Nat.add_le_add_left (m := 0) ?_ _) (by omega)
    refine work_if_cost (fun _ => Nat.zero_le _) fun _ => ?_
    exact work_free_bind_cost _ _ _ fun _ _ => work_free_bind_cost _ _ _ fun _ _ => Nat.zero_le _

theorem work_handle_cost (b : Bytes) (bi : BoxInfo) (ex : Reader → Work Reader) (k m : Nat) (r : Reader)
    (hh : bi.typ = typTrun → bi.headerSize = 8) (hr : sampleCount r.parts ≤ m)
    (hex : ∀ r, sampleCount r.parts ≤ m → (ex r).cost ≤ k) : (handleW b bi ex r).cost ≤ max k (m + 19200) := by
  have h0 : 0 ≤ max k (m + 19200) := Nat.zero_le _
  unfold handleW
  refine work_if_cost (fun _ => work_if_cost (fun _ => h0) fun _ => ?_) fun _ => ?_
  · have : sampleCount (r.parts ++ [({} : Part)]) = sampleCount r.parts := by rw [fmp4_sampleCount_append]; rfl
    have := hex { r with parts := r.parts ++ [{}], moofOffset := bi.offset, state := .waitingMfhd } (by dsimp only; omega)
    omega
  refine work_if_cost (fun _ => work_if_cost (fun _ => h0) fun _ => ?_) fun _ => ?_
  · exact work_free_bind_cost _ _ _ fun _ _ => work_free_bind_cost _ _ _ fun _ _ => h0
  refine work_if_cost (fun _ => work_if_cost (fun _ => h0) fun _ => work_if_cost (fun _ => h0) fun _ => ?_) fun _ => ?_
  · refine work_free_bind_cost _ _ _ fun r' h' => ?_
    have h2 := fmp4_onPart_count r (fun p => { p with tracks := p.tracks ++ [{}] }) 0 fun p => by simp
    rw [h'] at h2
    have h2 : sampleCount r'.parts ≤ sampleCount r.parts + 0 := h2
    have := hex { r' with hasTrack := true, tfdt := none, tfhd := none, state := .waitingBoxes } (by dsimp only; omega)
    omega
  refine work_if_cost (fun _ => work_if_cost (fun _ => h0) fun _ => ?_) fun _ => ?_
  · exact work_free_bind_cost _ _ _ fun _ _ => work_free_bind_cost _ _ _ fun _ _ => h0
  refine work_if_cost (fun _ => work_if_cost (fun _ => h0) fun _ => ?_) fun _ => ?_
  · exact work_free_bind_cost _ _ _ fun _ _ => work_free_bind_cost _ _ _ fun _ _ => h0
  refine work_if_cost (fun ht => ?_) fun _ => ?_
  · have := work_readTrun_cost b bi r (hh ht)
    omega
  refine work_if_cost (fun _ => work_if_cost (fun _ => h0) fun _ => work_if_cost (fun _ => h0) fun _ => h0) fun _ => h0

theorem work_readLevel_cost (b : Bytes) (h : NoLargeTrun b) :
    ∀ (n pos : Nat) (left : Option Nat) (r : Reader), sampleCount r.parts ≤ 2400 * min pos b.length →
      (readLevelW n b pos left r).cost ≤ 300 * b.length * (levelEnd b pos left - min pos b.length) := by
  intro n
  induction n with
  | zero => intro pos left r _; exact Nat.zero_le _
  | succ n ih =>
    intro pos left r hr
    rw [readLevelW]
    refine work_if_cost (fun _ => Nat.zero_le _) fun _ => ?_
    refine work_free_bind_cost _ _ _ fun x hb => ?_
    have h1 := sound_readBoxInfo b pos
    have h2 := fmp4_small_trun b h pos
    rw [hb] at h1 h2
    cases x with
    | none => exact Nat.zero_le _
    | some bi =>
      obtain ⟨g1, g2, g3, g4⟩ := h1 bi rfl
      have g5 := h2 bi rfl
      dsimp only
      refine work_if_cost (fun _ => Nat.zero_le _) fun hl => ?_
      have hend : min (pos + bi.size) b.length ≤ levelEnd b pos left ∧
          levelEnd b (pos + bi.size) (left.map (· - bi.size)) = levelEnd b pos left := by
        cases left with
        | none => exact ⟨Nat.min_le_right _ _, rfl⟩
        | some k =>
          have : ¬ k < bi.size := by simpa using hl
          refine ⟨?_, ?_⟩
          · show _ ≤ min (pos + k) b.length
            omega
          · show min (pos + bi.size + (k - bi.size)) b.length = min (pos + k) b.length
            rw [show pos + bi.size + (k - bi.size) = pos + k by omega]
      have hlev : levelEnd b (pos + bi.headerSize) (some (bi.size - bi.headerSize)) = min (pos + bi.size) b.length := by
        simp only [levelEnd]
        rw [show pos + bi.headerSize + (bi.size - bi.headerSize) = pos + bi.size by omega]
      -- the content, if the box has one
      have hk : ∀ r0, sampleCount r0.parts ≤ 2400 * min pos b.length →
          (readLevelW n b (bi.offset + bi.headerSize) (some (bi.size - bi.headerSize)) r0).cost ≤
            300 * b.length * (min (pos + bi.size) b.length - (pos + 8)) := by
        intro r0 h0
        rw [g1]
        refine Nat.le_trans (ih _ _ r0 (by omega)) (Nat.mul_le_mul_left _ ?_)
        rw [hlev]
        omega
      have c1 := work_handle_cost b bi _ _ _ r g5 hr hk
      -- the samples after the box
      have hk' : ∀ r0, Holds (fun r' => sampleCount r'.parts ≤ sampleCount r0.parts + 2400 * (min (pos + bi.size) b.length - (pos + 8)))
          (readLevel n b (bi.offset + bi.headerSize) (some (bi.size - bi.headerSize)) r0) := by
        intro r0
        refine holds_mono (fmp4_readLevel_count b h n _ _ r0) fun r' hr => ?_
        rw [g1, hlev] at hr
        omega
      have s1 := fmp4_handle_count b bi _ _ r g5 hk'
      refine Nat.le_trans (work_bind_cost _ _ _ (300 * b.length * (levelEnd b pos left - min (pos + bi.size) b.length)) c1 fun r1 h1 => ?_) ?_
      · rw [work_handle] at h1
        simp only [work_readLevel] at h1
        rw [h1] at s1
        have s1 : sampleCount r1.parts ≤ sampleCount r.parts + max (2400 * (min (pos + bi.size) b.length - (pos + 8))) 19200 := s1
        rw [g1]
        refine Nat.le_trans (ih _ _ r1 (by omega)) (Nat.mul_le_mul_left _ ?_)
        rw [hend.2]
        exact Nat.le_refl _
      · have e1 : max (300 * b.length * (min (pos + bi.size) b.length - (pos + 8))) (2400 * min pos b.length + 19200) ≤
            300 * b.length * (min (pos + bi.size) b.length - pos) := by
          refine Nat.max_le.mpr ⟨Nat.mul_le_mul_left _ (by omega), ?_⟩
          have : 300 * b.length * 8 ≤ 300 * b.length * (min (pos + bi.size) b.length - pos) := Nat.mul_le_mul_left _ (by omega)
          omega
        refine Nat.le_trans (Nat.add_le_add_right e1 _) ?_
        rw [← Nat.mul_add]
        exact Nat.mul_le_mul_left _ (by omega)

/-- C105: unless some `trun` box has a 64-bit size, the arrays that `Parts.Unmarshal` allocates for samples have at most 300 n² elements,
where n is the size of the file, whatever the outcome. What is missing is a bound that is linear in n: there is none. -/
theorem C105_work_partial (b : Bytes) (h : NoLargeTrun b) : (unmarshalW b).cost ≤ 300 * b.length ^ 2 := by
  have h1 := work_readLevel_cost b h (b.length + 1) 0 none {} (Nat.zero_le _)
  refine Nat.le_trans (work_bind_cost _ _ _ 0 h1 fun _ _ => Nat.le_refl _) ?_
  rw [Nat.zero_min, Nat.pow_two, ← Nat.mul_assoc]
  exact Nat.le_refl _

/-- The hypothesis is met by the file of C70; its tracks have two samples and one. -/
example : (unmarshalW (moof examplePart [196, 199] ++ mdat examplePart)).cost = 3 := by decide +kernel

/-! ## Files of many runs -/

/-- `k` runs of `n` samples that take no space. -/
def workRuns (n k : Nat) : Bytes := (List.replicate k (box typTrun (bareRun n))).flatten

/-- `moof` and `traf` extend to the end of the file (a size of zero); `mdat` is in `traf`. -/
def workFile (n k : Nat) : Bytes :=
  beBytes 4 0 ++ typMoof ++ (bareMfhd ++ (beBytes 4 0 ++ typTraf ++ (bareHead ++ (bareTime ++ (workRuns n k ++ box typMdat [])))))

theorem work_runs_length (n k : Nat) : (workRuns n k).length = 20 * k := by
  unfold workRuns
  induction k with
  | zero => rfl
  | succ k ih =>
    rw [List.replicate_succ, List.flatten_cons, List.length_append, ih, box_length _ _ rfl, fmp4_bareRun_length]
    omega

theorem work_file_length (n k : Nat) : (workFile n k).length = 76 + 20 * k := by
  unfold workFile
  simp only [List.length_append, work_runs_length]
  have h1 : (beBytes 4 0).length = 4 := rfl
  have h2 : typMoof.length = 4 := rfl
  have h3 : typTraf.length = 4 := rfl
  have h4 : bareMfhd.length = 16 := rfl
  have h5 : bareHead.length = 16 := rfl
  have h6 : bareTime.length = 20 := rfl
  have h7 : (box typMdat []).length = 8 := rfl
  omega

/-- What `k` runs of `n` samples cost, when the track has `m` samples before them. -/
def runCost (n : Nat) : Nat → Nat → Nat
  | 0, _ => 0
  | k + 1, m => (m + n) + runCost n k (m + n)

theorem work_runCost (n k : Nat) : ∀ m, 2 * runCost n k m = 2 * (k * m) + n * (k * (k + 1)) := by
  induction k with
  | zero => intro m; simp [runCost]
  | succ k ih =>
    intro m
    rw [runCost, Nat.mul_add, ih]
    have e1 : k * (m + n) = k * m + n * k := by rw [Nat.mul_add, Nat.mul_comm k n]
    have e2 : n * ((k + 1) * (k + 1 + 1)) = n * (k * (k + 1)) + 2 * (n * k) + 2 * n := by
      have : (k + 1) * (k + 1 + 1) = k * (k + 1) + 2 * k + 2 := by
        simp only [Nat.add_mul, Nat.mul_add]; omega
      rw [this, Nat.mul_add, Nat.mul_add]
      have : n * (2 * k) = 2 * (n * k) := by rw [Nat.mul_left_comm]
      omega
    have e3 : (k + 1) * m = k * m + m := by rw [Nat.add_mul, Nat.one_mul]
    rw [e1, e2, e3]
    omega

theorem work_add_bind {α β : Type} (j : Nat) (x : Work α) (f : α → Work β) : (x.add j >>= f) = (x >>= f).add j := by
  show Work.bind _ _ = (Work.bind _ _).add j
  unfold Work.bind Work.add
  cases x.res with
  | ok a => refine work_ext ?_ rfl; exact Nat.add_assoc _ _ _
  | err e => rfl
  | panic => rfl

theorem work_add_add {α : Type} (i j : Nat) (x : Work α) : (x.add j).add i = x.add (i + j) := by
  unfold Work.add
  rw [Nat.add_assoc]

theorem work_step (n : Nat) (b a c typ body : Bytes) (left left' : Option Nat) (r : Reader) (hb : b = a ++ (box typ body ++ c))
    (ht : typ.length = 4) (hl : 8 + body.length < 2 ^ 32) (hr : Remains (8 + body.length) left left') :
    readLevelW (n + 1) b a.length left r =
      (handleW b ⟨a.length, 8 + body.length, 8, typ⟩ (fun r => readLevelW n b (a.length + 8) (some body.length) r) r >>=
        fun r => readLevelW n b (a ++ box typ body).length left' r) := by
  rw [readLevelW]
  have h1 : left.any (· < 8) = false := by
    rcases hr with ⟨h, _⟩ | ⟨k, h, _⟩ <;> subst h <;> simp; omega
  have h2 : left.any (· < 8 + body.length) = false := by
    rcases hr with ⟨h, _⟩ | ⟨k, h, _⟩ <;> subst h <;> simp
  have h3 : left.map (· - (8 + body.length)) = left' := by
    rcases hr with ⟨h, h'⟩ | ⟨k, h, h'⟩ <;> subst h h' <;> simp
  rw [h1, if_neg (by simp)]
  subst hb
  rw [fmp4_readBoxInfo a c typ body ht hl, work_free_ok]
  simp only
  rw [h2, if_neg (by simp), h3, List.length_append, box_length _ _ ht, show 8 + body.length - 8 = body.length by omega]

/-- A box whose size is zero extends to the end of the file. -/
theorem work_step_open (n : Nat) (b a c typ : Bytes) (left left' : Option Nat) (r : Reader) (hb : b = a ++ (beBytes 4 0 ++ (typ ++ c)))
    (ht : typ.length = 4) (hr : Remains (8 + c.length) left left') :
    readLevelW (n + 1) b a.length left r =
      (handleW b ⟨a.length, 8 + c.length, 8, typ⟩ (fun r => readLevelW n b (a.length + 8) (some c.length) r) r >>=
        fun r => readLevelW n b b.length left' r) := by
  rw [readLevelW]
  have h1 : left.any (· < 8) = false := by
    rcases hr with ⟨h, _⟩ | ⟨k, h, _⟩ <;> subst h <;> simp; omega
  have h2 : left.any (· < 8 + c.length) = false := by
    rcases hr with ⟨h, _⟩ | ⟨k, h, _⟩ <;> subst h <;> simp
  have h3 : left.map (· - (8 + c.length)) = left' := by
    rcases hr with ⟨h, h'⟩ | ⟨k, h, h'⟩ <;> subst h h' <;> simp
  have hlen : b.length = a.length + (8 + c.length) := by
    rw [hb, List.length_append, List.length_append, List.length_append, ht]
    show _ + (4 + _) = _
    omega
  have hbi : readBoxInfo b a.length = .ok (some ⟨a.length, 8 + c.length, 8, typ⟩) := by
    unfold readBoxInfo
    rw [if_neg (by rw [List.length_drop]; omega), hb, List.drop_left, fmp4_takeBE 4 _ _ (by omega), Res.bind_ok]
    simp only
    rw [if_pos trivial, List.take_left' ht, ← hb, hlen, Nat.add_sub_cancel_left]
  rw [h1, if_neg (by simp), hbi, work_free_ok]
  simp only
  rw [h2, if_neg (by simp), h3, show 8 + c.length - 8 = c.length by omega, ← hlen]

/-- Boxes that have no boxes and are not `trun` cost nothing. -/
theorem work_leaf (b : Bytes) (bi : BoxInfo) (ex : Reader → Work Reader) (ex' : Reader → Res Reader) (r r' : Reader)
    (h1 : bi.typ ≠ typMoof) (h2 : bi.typ ≠ typTraf) (h3 : bi.typ ≠ typTrun) (h : handle b bi ex' r = .ok r') :
    handleW b bi ex r = .free (.ok r') := by
  refine work_ext ?_ ?_
  · unfold handleW
    rw [if_neg h1, if_neg h2, if_neg h3]
    refine Nat.le_zero.mp ?_
    refine work_if_cost (fun _ => work_if_cost (fun _ => Nat.le_refl _) fun _ => ?_) fun _ => ?_
    · exact work_free_bind_cost _ _ _ fun _ _ => work_free_bind_cost _ _ _ fun _ _ => Nat.le_refl _
    refine work_if_cost (fun _ => work_if_cost (fun _ => Nat.le_refl _) fun _ => ?_) fun _ => ?_
    · exact work_free_bind_cost _ _ _ fun _ _ => work_free_bind_cost _ _ _ fun _ _ => Nat.le_refl _
    refine work_if_cost (fun _ => work_if_cost (fun _ => Nat.le_refl _) fun _ => ?_) fun _ => ?_
    · exact work_free_bind_cost _ _ _ fun _ _ => work_free_bind_cost _ _ _ fun _ _ => Nat.le_refl _
    exact work_if_cost (fun _ => work_if_cost (fun _ => Nat.le_refl _) fun _ => work_if_cost (fun _ => Nat.le_refl _) fun _ => Nat.le_refl _)
      fun _ => Nat.le_refl _
  · rw [work_handle]
    unfold handle at h ⊢
    rw [if_neg h1, if_neg h2] at h ⊢
    exact h

/-- The reader after `m` samples. -/
def workState (m : Nat) : Reader := inTrack [] 0 [] { id := 1, samples := List.replicate m {} } 0 (some 0) (some ⟨1, 0, 0, 0⟩)

/-- A run of `n` samples. -/
theorem work_run (b a c : Bytes) (n m : Nat) (h0 : n ≠ 0) (hn : n ≤ 19200) (hb : b = a ++ (box typTrun (bareRun n) ++ c)) (ex : Reader → Work Reader) :
    handleW b ⟨a.length, 8 + (bareRun n).length, 8, typTrun⟩ ex (workState m) = (Work.free (.ok (workState (m + n)))).add (m + n) := by
  have hal : a.length ≤ b.length := by rw [hb, List.length_append]; omega
  have hpay : BoxInfo.payload ⟨a.length, 8 + (bareRun n).length, 8, typTrun⟩ b = bareRun n := by rw [hb]; exact fmp4_payload a c typTrun _ rfl
  have hraw : rawCount (b.drop a.length) = .ok n := by
    have : b.drop a.length = (beBytes 4 20 ++ typTrun ++ (beBytes 1 0 ++ beBytes 3 1)) ++ (beBytes 4 n ++ (beBytes 4 0 ++ c)) := by
      rw [hb, List.drop_left, fmp4_box_eq, fmp4_bareRun_length]
      unfold bareRun
      simp only [List.append_assoc]
    rw [this]
    exact fmp4_rawCount _ _ _ rfl (by omega)
  unfold handleW
  simp only
  rw [if_neg (by decide), if_neg (by decide), if_neg (by decide), if_neg (by decide), if_neg (by decide), if_pos trivial]
  unfold readTrunW
  have hs : (workState m).state = .waitingBoxes := rfl
  have htf : (workState m).tfhd = some ⟨1, 0, 0, 0⟩ := rfl
  have hm : (workState m).moofOffset = 0 := rfl
  have hx : (workState m).existing = m := List.length_replicate
  rw [htf]
  simp only
  rw [hs, if_neg (by simp), sliceFrom_ok hal, work_free_ok, hraw, work_free_ok, if_neg (by unfold maxSamplesPerTrun; omega), hpay,
    fmp4_bareTrun n (by omega), work_free_ok]
  simp only [List.length_replicate]
  rw [if_pos h0, if_neg (by decide), hm, hx]
  have hp : (((0 : Int) % 2 ^ 64).toNat + 0) % 2 ^ 64 = 0 := by decide
  rw [hp, if_neg (by omega), sliceFrom_ok (Nat.zero_le _), work_free_ok, fmp4_bare_readEntries _ rfl, work_free_ok]
  unfold workState
  rw [fmp4_onTrack_in]
  simp only [List.replicate_append_replicate]

theorem work_runs (b c : Bytes) (n rest fuel : Nat) (h0 : n ≠ 0) (hn : n ≤ 19200) : ∀ (k m : Nat) (a : Bytes), b = a ++ (workRuns n k ++ c) →
    readLevelW (k + fuel) b a.length (some (20 * k + rest)) (workState m) =
      (readLevelW fuel b (a ++ workRuns n k).length (some rest) (workState (m + k * n))).add (runCost n k m) := by
  intro k
  induction k with
  | zero =>
    intro m a _
    rw [Nat.zero_add, Nat.mul_zero, Nat.zero_add, Nat.zero_mul, Nat.add_zero]
    refine work_ext ?_ ?_
    · show _ = 0 + _
      rw [Nat.zero_add]
      unfold workRuns
      rw [List.replicate_zero, List.flatten_nil, List.append_nil]
    · unfold Work.add workRuns
      rw [List.replicate_zero, List.flatten_nil, List.append_nil]
  | succ k ih =>
    intro m a hb
    have hr : workRuns n (k + 1) = box typTrun (bareRun n) ++ workRuns n k := by
      unfold workRuns; rw [List.replicate_succ, List.flatten_cons]
    have hb1 : b = a ++ (box typTrun (bareRun n) ++ (workRuns n k ++ c)) := by rw [hb, hr, List.append_assoc]
    have hb2 : b = (a ++ box typTrun (bareRun n)) ++ (workRuns n k ++ c) := by rw [hb1, List.append_assoc]
    rw [show k + 1 + fuel = (k + fuel) + 1 by omega,
      work_step (k + fuel) b a _ typTrun (bareRun n) (some (20 * (k + 1) + rest)) (some (20 * k + rest)) (workState m) hb1 rfl
        (by rw [fmp4_bareRun_length]; omega) (Or.inr ⟨20 * k + rest, by rw [fmp4_bareRun_length]; congr 1; omega, rfl⟩),
      work_run b a _ n m h0 hn hb1, work_add_bind, work_free_ok, ih (m + n) _ hb2, work_add_add, hr, List.append_assoc,
      show m + n + k * n = m + (k + 1) * n by rw [Nat.add_mul]; omega]
    rfl

/-- The result and the cost of a file of `k` runs. -/
theorem work_file (n k : Nat) (h0 : n ≠ 0) (hn : n ≤ 19200) :
    unmarshalW (workFile n k) = ⟨runCost n k 0, .ok [⟨0, [{ id := 1, samples := List.replicate (k * n) {} }]⟩]⟩ := by
  have hlen := work_file_length n k
  unfold unmarshalW
  rw [hlen]
  generalize hb : workFile n k = b at hlen
  unfold workFile at hb
  generalize hc : workRuns n k ++ box typMdat [] = c at hb
  have hcl : c.length = 20 * k + 8 := by rw [← hc, List.length_append, work_runs_length]; rfl
  have b0 : b = [] ++ (beBytes 4 0 ++ (typMoof ++ (bareMfhd ++ (beBytes 4 0 ++ typTraf ++ (bareHead ++ (bareTime ++ c)))))) := by
    rw [← hb]; simp only [List.append_assoc, List.nil_append]
  have b1 : b = (beBytes 4 0 ++ typMoof) ++ (bareMfhd ++ (beBytes 4 0 ++ typTraf ++ (bareHead ++ (bareTime ++ c)))) := by
    rw [← hb]
  have b2 : b = (beBytes 4 0 ++ typMoof ++ bareMfhd) ++ (beBytes 4 0 ++ (typTraf ++ (bareHead ++ (bareTime ++ c)))) := by
    rw [← hb]; simp only [List.append_assoc]
  have b3 : b = (beBytes 4 0 ++ typMoof ++ bareMfhd ++ (beBytes 4 0 ++ typTraf)) ++ (bareHead ++ (bareTime ++ c)) := by
    rw [← hb]; simp only [List.append_assoc]
  have b4 : b = (beBytes 4 0 ++ typMoof ++ bareMfhd ++ (beBytes 4 0 ++ typTraf) ++ bareHead) ++ (bareTime ++ c) := by
    rw [← hb]; simp only [List.append_assoc]
  have b5 : b = (beBytes 4 0 ++ typMoof ++ bareMfhd ++ (beBytes 4 0 ++ typTraf) ++ bareHead ++ bareTime) ++ (workRuns n k ++ box typMdat []) := by
    rw [← hb, ← hc]; simp only [List.append_assoc]
  have b6 : b = (beBytes 4 0 ++ typMoof ++ bareMfhd ++ (beBytes 4 0 ++ typTraf) ++ bareHead ++ bareTime ++ workRuns n k) ++ (box typMdat [] ++ []) := by
    rw [← hb, ← hc]; simp only [List.append_assoc, List.append_nil]
  have l3 : (bareHead ++ (bareTime ++ c)).length = 20 * k + 44 := by
    rw [List.length_append, List.length_append, hcl]; show 16 + (20 + _) = _; omega
  have l1 : (bareMfhd ++ (beBytes 4 0 ++ typTraf ++ (bareHead ++ (bareTime ++ c)))).length = 20 * k + 68 := by
    rw [List.length_append, List.length_append, l3]; show 16 + (8 + _) = _; omega
  -- `mdat`
  have hmd : ∀ bi ex, bi.typ = typMdat → handleW b bi ex (workState (0 + k * n)) = .free (.ok { workState (0 + k * n) with state := .waitingMoof }) := by
    intro bi ex h
    refine work_leaf b bi ex (fun r => .ok r) _ _ (by rw [h]; decide) (by rw [h]; decide) (by rw [h]; decide) ?_
    unfold handle
    rw [h, if_neg (by decide), if_neg (by decide), if_neg (by decide), if_neg (by decide), if_neg (by decide), if_neg (by decide), if_pos rfl,
      if_neg (by simp [workState, inTrack]), if_neg (by simp [workState, inTrack, Reader.incomplete])]
  have s6 : readLevelW (19 * k + 72) b (beBytes 4 0 ++ typMoof ++ bareMfhd ++ (beBytes 4 0 ++ typTraf) ++ bareHead ++ bareTime ++ workRuns n k).length
      (some 8) (workState (0 + k * n)) = .free (.ok { workState (0 + k * n) with state := .waitingMoof }) := by
    refine (work_step (19 * k + 71) b _ [] typMdat [] (some 8) (some 0) _ b6 rfl (by decide) (Or.inr ⟨0, rfl, rfl⟩)).trans ?_
    rw [hmd _ _ rfl, work_free_ok]
    rfl
  -- runs
  have s5 := work_runs b (box typMdat []) n 8 (19 * k + 72) h0 hn k 0 _ b5
  rw [s6, show k + (19 * k + 72) = 20 * k + 72 by omega] at s5
  -- `tfdt`
  have s4 : readLevelW (20 * k + 73) b (beBytes 4 0 ++ typMoof ++ bareMfhd ++ (beBytes 4 0 ++ typTraf) ++ bareHead).length
      (some (20 * k + 28)) (inTrack [] 0 [] { id := 1 } 0 none (some ⟨1, 0, 0, 0⟩)) =
      (Work.free (.ok { workState (0 + k * n) with state := .waitingMoof })).add (runCost n k 0) := by
    refine (work_step (20 * k + 72) b _ c typTfdt (beBytes 1 1 ++ beBytes 3 0 ++ beBytes 8 0) (some (20 * k + 28)) (some (20 * k + 8)) _ b4 rfl
      (by decide) (Or.inr ⟨20 * k + 8, by congr 1; show _ = 20 + _; omega, rfl⟩)).trans ?_
    rw [work_leaf b _ _ (fun r => .ok r) _ _ (by decide) (by decide) (by decide)
      (fmp4_handle_tfdt b _ _ rfl 0 (by decide) (by rw [b4]; exact fmp4_payload _ _ typTfdt _ rfl) [] 0 [] { id := 1 } 0 (some ⟨1, 0, 0, 0⟩)), work_free_ok]
    exact s5
  -- `tfhd`
  have s3 : readLevelW (20 * k + 74) b (beBytes 4 0 ++ typMoof ++ bareMfhd ++ (beBytes 4 0 ++ typTraf)).length
      (some (20 * k + 44)) (inTrack [] 0 [] {} 0 none none) =
      (Work.free (.ok { workState (0 + k * n) with state := .waitingMoof })).add (runCost n k 0) := by
    refine (work_step (20 * k + 73) b _ (bareTime ++ c) typTfhd (beBytes 1 0 ++ beBytes 3 0x20000 ++ beBytes 4 1) (some (20 * k + 44)) (some (20 * k + 28)) _
      b3 rfl (by decide) (Or.inr ⟨20 * k + 28, by congr 1; show _ = 16 + _; omega, rfl⟩)).trans ?_
    rw [work_leaf b _ _ (fun r => .ok r) _ _ (by decide) (by decide) (by decide)
      (fmp4_handle_tfhd b _ _ rfl 1 (by decide) (by rw [b3]; exact fmp4_payload _ _ typTfhd _ rfl) [] 0 [] {} 0 none), work_free_ok]
    exact s4
  -- `traf`
  have s2 : readLevelW (20 * k + 75) b (beBytes 4 0 ++ typMoof ++ bareMfhd).length
      (some (20 * k + 52)) { parts := [{}], state := .waitingTraf } =
      (Work.free (.ok { workState (0 + k * n) with state := .waitingMoof })).add (runCost n k 0) := by
    refine (work_step_open (20 * k + 74) b _ _ typTraf (some (20 * k + 52)) (some 0) _ b2 rfl
      (Or.inr ⟨0, by rw [l3]; congr 1; omega, rfl⟩)).trans ?_
    rw [l3]
    unfold handleW
    simp only
    rw [if_neg (by decide), if_neg (by decide), if_pos trivial, if_neg (by simp), if_neg (by decide)]
    have ho : ({ state := .waitingTraf, parts := [{}] } : Reader).onPart (fun p => { p with tracks := p.tracks ++ [{}] }) =
        .ok { state := .waitingTraf, parts := [{ tracks := [{}] }] } := rfl
    have hin : ({ state := .waitingBoxes, parts := [{ tracks := [{}] }], hasTrack := true } : Reader) = inTrack [] 0 [] {} 0 none none := rfl
    have hpos : (beBytes 4 0 ++ typMoof ++ bareMfhd).length + 8 = (beBytes 4 0 ++ typMoof ++ bareMfhd ++ (beBytes 4 0 ++ typTraf)).length := rfl
    rw [ho, work_free_ok]
    dsimp only
    rw [hin, hpos, s3, work_add_bind, work_free_ok]
    rfl
  -- `mfhd`
  have s1 : readLevelW (20 * k + 76) b (beBytes 4 0 ++ typMoof).length
      (some (20 * k + 68)) { parts := [{}], state := .waitingMfhd } =
      (Work.free (.ok { workState (0 + k * n) with state := .waitingMoof })).add (runCost n k 0) := by
    refine (work_step (20 * k + 75) b _ _ typMfhd (beBytes 1 0 ++ beBytes 3 0 ++ beBytes 4 0) (some (20 * k + 68)) (some (20 * k + 52)) _
      b1 rfl (by decide) (Or.inr ⟨20 * k + 52, by congr 1; show _ = 16 + _; omega, rfl⟩)).trans ?_
    have hmf : ∀ ex, handle b ⟨(beBytes 4 0 ++ typMoof).length, 8 + (beBytes 1 0 ++ beBytes 3 0 ++ beBytes 4 0).length, 8, typMfhd⟩ ex
        { parts := [{}], state := .waitingMfhd } = .ok { parts := [{}], state := .waitingTraf } := by
      intro ex
      have hp : BoxInfo.payload ⟨(beBytes 4 0 ++ typMoof).length, 8 + (beBytes 1 0 ++ beBytes 3 0 ++ beBytes 4 0).length, 8, typMfhd⟩ b =
          beBytes 1 0 ++ beBytes 3 0 ++ beBytes 4 0 := by rw [b1]; exact fmp4_payload _ _ typMfhd _ rfl
      unfold handle
      simp only
      rw [if_neg (by decide), if_pos trivial, if_neg (by simp), hp]
      rfl
    rw [work_leaf b _ _ (fun r => .ok r) _ _ (by decide) (by decide) (by decide) (hmf _), work_free_ok]
    exact s2
  -- `moof`
  have s0 : readLevelW (20 * k + 77) b 0 none {} =
      (Work.free (.ok { workState (0 + k * n) with state := .waitingMoof })).add (runCost n k 0) := by
    refine (work_step_open (20 * k + 76) b [] _ typMoof none none _ b0 rfl (Or.inl ⟨rfl, rfl⟩)).trans ?_
    rw [l1]
    unfold handleW
    simp only
    rw [if_pos trivial, if_neg (by simp)]
    refine (congrArg (· >>= _) (s1)).trans ?_
    rw [work_add_bind, work_free_ok]
    congr 1
    refine work_ext (Nat.le_zero.mp ?_) ?_
    · rw [readLevelW]
      refine work_if_cost (fun _ => Nat.le_refl _) fun _ => ?_
      refine work_free_bind_cost _ _ _ fun x hx => ?_
      unfold readBoxInfo at hx
      rw [if_pos (by simp)] at hx
      cases hx
      exact Nat.le_refl _
    · rw [work_readLevel]
      exact fmp4_end_root _ _ _
  rw [show 76 + 20 * k + 1 = 20 * k + 77 by omega, s0, work_add_bind, work_free_ok, Nat.zero_add]
  rfl

/-- C105 is false: no multiple of the size of the file bounds the elements of the arrays. `k` runs of 19200 samples are a valid file of
76 + 20 k bytes and cost 9600 k (k + 1) elements. -/
theorem C105_work_false :
    (∀ k, (workFile 19200 k).length = 76 + 20 * k ∧ (∃ l, unmarshal (workFile 19200 k) = .ok l ∧ sampleCount l = 19200 * k) ∧
      (unmarshalW (workFile 19200 k)).cost = 9600 * (k * (k + 1))) ∧
    ¬ ∃ c, ∀ b, (unmarshalW b).cost ≤ c * b.length := by
  have key : ∀ k, (unmarshalW (workFile 19200 k)).cost = 9600 * (k * (k + 1)) := by
    intro k
    rw [work_file 19200 k (by omega) (by omega)]
    have := work_runCost 19200 k 0
    show runCost 19200 k 0 = _
    omega
  refine ⟨fun k => ⟨work_file_length _ _, ?_, key k⟩, ?_⟩
  · refine ⟨[⟨0, [{ id := 1, samples := List.replicate (k * 19200) {} }]⟩], ?_, ?_⟩
    · rw [← C105_same, work_file 19200 k (by omega) (by omega)]
    · simp [sampleCount, Nat.mul_comm]
  · rintro ⟨c, h⟩
    have h1 := h (workFile 19200 (c + 1))
    rw [key, work_file_length] at h1
    have e1 : (c + 1) * (c + 1 + 1) = c * c + 3 * c + 2 := by simp only [Nat.add_mul, Nat.mul_add]; omega
    have e2 : c * (76 + 20 * (c + 1)) = 20 * (c * c) + 96 * c := by
      simp only [Nat.mul_add]
      have : c * (20 * c) = 20 * (c * c) := by rw [Nat.mul_left_comm]
      omega
    rw [e1, e2] at h1
    omega

/-- A file of 20 kilobytes moves nearly ten thousand million pointers. -/
example : (workFile 19200 1000).length = 20076 ∧ (unmarshalW (workFile 19200 1000)).cost = 9609600000 :=
  ⟨(C105_work_false.1 1000).1, by rw [(C105_work_false.1 1000).2.2]⟩

end Verif.Props
