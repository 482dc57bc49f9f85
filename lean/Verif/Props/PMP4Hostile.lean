import Verif.Model.PMP4
import Verif.Spec.SampleTables

/-!
# C47: MP4 reader and hostile sample tables
-/

namespace Verif.Props
open PMP4 SampleTables

theorem pmp4_readSTTS_np (l : List (Run Nat)) : ∀ s, (readSTTS l s).NoPanic := by
  induction l with
  | nil => intro s; simp [readSTTS]
  | cons e l ih => intro s; unfold readSTTS; split; · simp
                   · exact ih _

theorem pmp4_readSTTS_len (l : List (Run Nat)) : ∀ s s', readSTTS l s = .ok s' → s.length ≤ maxSamples → s'.length ≤ maxSamples := by
  induction l with
  | nil => intro s s' h hs; cases h; exact hs
  | cons e l ih =>
    intro s s' h hs
    unfold readSTTS at h
    split at h
    · cases h
    · rename_i hm
      refine ih _ _ h ?_
      rw [List.length_append, List.length_replicate]
      exact Nat.not_lt.mp hm

theorem pmp4_readSTSS_ok (l : List Nat) :
    ∀ s, (readSTSS l s).NoPanic ∧ ∀ s', readSTSS l s = .ok s' → s'.length = s.length ∧
      s'.map (fun x => (x.payloadSize, x.location)) = s.map (fun x => (x.payloadSize, x.location)) := by
  induction l with
  | nil => intro s; exact ⟨by simp [readSTSS], fun s' h => by cases h; exact ⟨rfl, rfl⟩⟩
  | cons n l ih =>
    intro s
    unfold readSTSS
    dsimp only
    generalize (n + 2 ^ 32 - 1) % 2 ^ 32 = k
    split
    · exact ⟨by simp, fun s' h => by cases h⟩
    · rename_i hlt
      have hk : k < s.length := by omega
      rw [idx_of_lt hk, Res.bind_ok]
      obtain ⟨h1, h2⟩ := ih (s.set k { s[k] with isNonSync := false })
      refine ⟨h1, fun s' h => ?_⟩
      obtain ⟨h3, h4⟩ := h2 s' h
      refine ⟨by simpa using h3, ?_⟩
      rw [h4, List.map_set]
      dsimp only
      apply List.ext_getElem (by simp)
      intro i hi1 hi2
      rw [List.getElem_set]
      split
      · rename_i he; subst he; simp
      · rfl

theorem pmp4_setOffsets_ok (v : Int) (k : Nat) :
    ∀ n s, n + k ≤ s.length → ∃ s', setOffsets v k n s = .ok s' ∧ s'.length = s.length ∧
      s'.map (fun x => (x.payloadSize, x.location)) = s.map (fun x => (x.payloadSize, x.location)) := by
  induction k with
  | zero => intro n s _; exact ⟨s, rfl, rfl, rfl⟩
  | succ k ih =>
    intro n s h
    unfold setOffsets
    rw [idx_of_lt (by omega), Res.bind_ok]
    obtain ⟨s', h1, h2, h3⟩ := ih (n + 1) (s.set n { s[n] with ptsOffset := v }) (by simp; omega)
    refine ⟨s', h1, by simpa using h2, ?_⟩
    rw [h3, List.map_set]
    apply List.ext_getElem (by simp)
    intro i hi1 hi2
    rw [List.getElem_set]
    split
    · rename_i he; subst he; simp
    · rfl

theorem pmp4_readCTTS_ok (l : List (Run Int)) :
    ∀ n s, (readCTTS l n s).NoPanic ∧ ∀ s', readCTTS l n s = .ok s' → s'.length = s.length ∧
      s'.map (fun x => (x.payloadSize, x.location)) = s.map (fun x => (x.payloadSize, x.location)) := by
  induction l with
  | nil => intro n s; exact ⟨by simp [readCTTS], fun s' h => by cases h; exact ⟨rfl, rfl⟩⟩
  | cons e l ih =>
    intro n s
    unfold readCTTS
    split
    · exact ⟨by simp, fun s' h => by cases h⟩
    · obtain ⟨s1, h1, h2, h3⟩ := pmp4_setOffsets_ok (Bits.wrapInt32 e.value) e.count n s (by omega)
      rw [h1, Res.bind_ok]
      refine ⟨(ih _ s1).1, fun s' h => ?_⟩
      obtain ⟨h4, h5⟩ := (ih _ s1).2 s' h
      exact ⟨by omega, by rw [h5, h3]⟩

theorem pmp4_addChunks_ok (total spc k : Nat) :
    ∀ sc ch, (addChunks total spc k sc ch).NoPanic ∧ ∀ sc' ch', addChunks total spc k sc ch = .ok (sc', ch') →
      sc' = sc + k * spc ∧ ch' = ch ++ List.replicate k spc ∧ (sc ≤ total → sc' ≤ total) := by
  induction k with
  | zero => intro sc ch; exact ⟨by simp [addChunks], fun sc' ch' h => by cases h; simp⟩
  | succ k ih =>
    intro sc ch
    unfold addChunks
    split
    · exact ⟨by simp, fun _ _ h => by cases h⟩
    · refine ⟨(ih _ _).1, fun sc' ch' h => ?_⟩
      obtain ⟨h1, h2, h3⟩ := (ih _ _).2 sc' ch' h
      refine ⟨by rw [h1, Nat.succ_mul]; omega, ?_, fun _ => h3 (by omega)⟩
      rw [h2, List.append_assoc]; rfl

theorem pmp4_readSTSC_ok (total : Nat) (ht : total ≤ maxSamples) (l : List StscEntry) :
    ∀ sc ch, sc ≤ total → (∀ e, l.getLast? = some e → e.samplesPerChunk ≠ 0) →
      (readSTSC total l sc ch).NoPanic ∧ ∀ ch', readSTSC total l sc ch = .ok ch' →
        ch'.sum + (if l = [] then total else sc) = ch.sum + total := by
  induction l with
  | nil => intro sc ch _ _; exact ⟨by simp [readSTSC], fun ch' h => by cases h; simp⟩
  | cons e l ih =>
    intro sc ch hsc hz
    have hcount : (chunkCount total sc e l).NoPanic ∧ ∀ n, l = [] → chunkCount total sc e l = .ok n → sc + n * e.samplesPerChunk = total := by
      cases l with
      | cons x l => exact ⟨by simp [chunkCount], fun n h => by cases h⟩
      | nil =>
        have hz : e.samplesPerChunk ≠ 0 := hz e rfl
        rw [chunkCount, if_neg hz]
        split
        · exact ⟨by simp, fun n _ h => by cases h⟩
        · rename_i hm
          refine ⟨by simp, fun n _ h => ?_⟩
          cases h
          have hm : (total - sc) % e.samplesPerChunk = 0 := by omega
          have hle : (total - sc) / e.samplesPerChunk ≤ total - sc := Nat.div_le_self _ _
          rw [Nat.mod_eq_of_lt (by unfold maxSamples at ht; omega), Nat.div_mul_cancel (Nat.dvd_of_mod_eq_zero hm)]
          omega
    unfold readSTSC
    rw [if_neg (by simp)]
    cases hc : chunkCount total sc e l with
    | panic => exact absurd hc hcount.1
    | err s => exact ⟨by simp, fun _ h => by cases h⟩
    | ok n =>
      rw [Res.bind_ok]
      split
      · exact ⟨by simp, fun _ h => by cases h⟩
      · split
        · exact ⟨by simp, fun _ h => by cases h⟩
        · obtain ⟨ha, hb⟩ := pmp4_addChunks_ok total e.samplesPerChunk n sc ch
          cases hadd : addChunks total e.samplesPerChunk n sc ch with
          | panic => exact absurd hadd ha
          | err s => exact ⟨by simp, fun _ h => by cases h⟩
          | ok p =>
            obtain ⟨sc2, ch2⟩ := p
            obtain ⟨h1, h2, h3⟩ := hb _ _ hadd
            rw [Res.bind_ok]
            obtain ⟨h4, h5⟩ := ih sc2 ch2 (h3 hsc) (fun x hx => hz x (by
              cases l with
              | nil => cases hx
              | cons y l => simpa using hx))
            refine ⟨h4, fun ch' h => ?_⟩
            have h6 := h5 ch' h
            have hsum : ch2.sum = ch.sum + n * e.samplesPerChunk := by rw [h2]; simp [List.sum_replicate_nat]
            cases l with
            | nil =>
              have := hcount.2 n rfl hc
              simp only [if_true] at h6
              omega
            | cons x l =>
              rw [if_neg (by simp)] at h6
              omega

theorem pmp4_locateChunk_ok (sizes : List Nat) (k : Nat) :
    ∀ off i s, i + k ≤ s.length → s.length ≤ sizes.length → ∃ s', locateChunk sizes k off i s = .ok (i + k, s') ∧
      s'.length = s.length ∧ (∀ j, (h : j < s.length) → (h' : j < s'.length) → (j < i ∨ i + k ≤ j) → s'[j] = s[j]) ∧
      (∀ j, (h' : j < s'.length) → i ≤ j → j < i + k → ∃ o, s'[j].location = some (o, s'[j].payloadSize)) := by
  induction k with
  | zero => intro off i s _ _; exact ⟨s, rfl, rfl, fun _ _ _ _ => rfl, fun j _ h1 h2 => by omega⟩
  | succ k ih =>
    intro off i s h hs
    unfold locateChunk
    rw [idx_of_lt (show i < sizes.length by omega), Res.bind_ok, idx_of_lt (show i < s.length by omega), Res.bind_ok]
    obtain ⟨s', h1, h2, h3, h4⟩ := ih ((off + sizes[i]) % 2 ^ 32) (i + 1)
      (s.set i { s[i] with payloadSize := sizes[i], location := some (off, sizes[i]) }) (by simp; omega) (by simpa using hs)
    rw [List.length_set] at h2
    refine ⟨s', by rw [h1, show i + 1 + k = i + (k + 1) by omega], h2, ?_, ?_⟩
    · intro j hj hj' hjj
      rw [h3 j (by simpa using hj) hj' (by omega), List.getElem_set_ne (by omega)]
    · intro j hj' hij hjk
      by_cases hji : j = i
      · subst hji
        rw [h3 j (by simp; omega) hj' (by omega), List.getElem_set_self]
        exact ⟨off, rfl⟩
      · exact h4 j hj' (by omega) (by omega)

theorem pmp4_locate_ok (sizes : List Nat) (l : List (Nat × Nat)) :
    ∀ i s, i + (l.map (·.1)).sum ≤ s.length → s.length ≤ sizes.length → ∃ s', locate sizes l i s = .ok s' ∧
      s'.length = s.length ∧ (∀ j, (h : j < s.length) → (h' : j < s'.length) → (j < i ∨ i + (l.map (·.1)).sum ≤ j) → s'[j] = s[j]) ∧
      (∀ j, (h' : j < s'.length) → i ≤ j → j < i + (l.map (·.1)).sum → ∃ o, s'[j].location = some (o, s'[j].payloadSize)) := by
  induction l with
  | nil => intro i s _ _; exact ⟨s, rfl, rfl, fun _ _ _ _ => rfl, fun j _ h1 h2 => by simp at h2; omega⟩
  | cons c l ih =>
    obtain ⟨n, off⟩ := c
    intro i s h hs
    simp only [List.map_cons, List.sum_cons] at h ⊢
    unfold locate
    obtain ⟨s1, h1, h2, h3, h4⟩ := pmp4_locateChunk_ok sizes n off i s (by omega) hs
    rw [h1, Res.bind_ok]
    obtain ⟨s', h5, h6, h7, h8⟩ := ih (i + n) s1 (by omega) (by omega)
    refine ⟨s', h5, by omega, ?_, ?_⟩
    · intro j hj hj' hjj
      rw [h7 j (by omega) hj' (by omega), h3 j hj (by omega) (by omega)]
    · intro j hj' hij hjk
      by_cases hjn : j < i + n
      · rw [h7 j (by omega) hj' (by omega)]
        exact h4 j (by omega) hij hjn
      · exact h8 j hj' (by omega) (by omega)

/-- The last entry of a `stsc` box is not the one that makes the reader divide by zero. -/
def StscDivisible (entries : List StscEntry) : Prop := ∀ e, entries.getLast? = some e → e.samplesPerChunk ≠ 0

/-- At most one `stsc` box for each track, whose last entry has a number of samples other than zero. `seen`: there was one already. -/
def OneStsc : Bool → List Event → Prop
  | _, [] => True
  | _, .trak :: l => OneStsc false l
  | seen, .table (.stsc entries) :: l => seen = false ∧ StscDivisible entries ∧ OneStsc true l
  | seen, _ :: l => OneStsc seen l

/-- What holds of the reader of a track, when there was a `stsc` box (`seen`) or not. -/
structure ReaderInv (seen : Bool) (r : Reader) : Prop where
  len : r.samples.length ≤ maxSamples
  fresh : r.props = false → r.samples = []
  sum : r.chunks.sum ≤ r.samples.length
  unseen : seen = false → r.chunks = []

theorem pmp4_chunkOffsets (c : List Nat) :
    ∀ (offsets : List Nat) (i : Nat), offsets.length = i + c.length → chunkOffsets c offsets i = .ok (List.zip c (offsets.drop i)) := by
  induction c with
  | nil => intro offsets i _; rfl
  | cons x c ih =>
    intro offsets i h
    simp only [List.length_cons] at h
    unfold chunkOffsets
    rw [idx_of_lt (by omega), Res.bind_ok, ih offsets (i + 1) (by omega), Res.bind_ok, List.drop_eq_getElem_cons (show i < offsets.length by omega)]
    rfl

theorem pmp4_zip_sum (a b : List Nat) (h : b.length = a.length) : ((List.zip a b).map (·.1)).sum = a.sum := by
  rw [List.map_fst_zip (by omega)]

theorem pmp4_readBox_inv (seen : Bool) (r : Reader) (b : Box) (hr : ReaderInv seen r)
    (hb : ∀ entries, b = .stsc entries → seen = false ∧ StscDivisible entries) :
    (readBox r b).NoPanic ∧ ∀ r', readBox r b = .ok r' →
      ReaderInv (match b with | .stsc _ => true | _ => seen) r' ∧ r'.props = true := by
  obtain ⟨hlen, hfresh, hsum, hun⟩ := hr
  cases b with
  | stts entries =>
    unfold readBox
    dsimp only
    split
    · exact ⟨by simp, fun _ h => by cases h⟩
    · rename_i hp
      have hs : r.samples = [] := hfresh (by simpa using hp)
      have hch : r.chunks.sum = 0 := by rw [hs] at hsum; simpa using hsum
      cases hst : readSTTS entries r.samples with
      | panic => exact absurd hst (pmp4_readSTTS_np _ _)
      | err e => exact ⟨by simp, fun _ h => by cases h⟩
      | ok s =>
        rw [Res.bind_ok]
        refine ⟨by simp, fun r' h => ?_⟩
        cases h
        exact ⟨⟨pmp4_readSTTS_len _ _ _ hst hlen, fun h => (by cases h), by show r.chunks.sum ≤ _; omega, hun⟩, rfl⟩
  | stss numbers =>
    unfold readBox
    dsimp only
    split
    · rename_i hp
      obtain ⟨h1, h2⟩ := pmp4_readSTSS_ok numbers (r.samples.map fun sa => { sa with isNonSync := true })
      cases hst : readSTSS numbers (r.samples.map fun sa => { sa with isNonSync := true }) with
      | panic => exact absurd hst h1
      | err e => exact ⟨by simp, fun _ h => by cases h⟩
      | ok s =>
        rw [Res.bind_ok]
        have hl : s.length = r.samples.length := by rw [(h2 s hst).1, List.length_map]
        refine ⟨by simp, fun r' h => ?_⟩
        cases h
        exact ⟨⟨by show s.length ≤ _; omega, fun h => (by rw [hp] at h; cases h), by show r.chunks.sum ≤ s.length; omega, hun⟩, hp⟩
    · exact ⟨by simp, fun _ h => by cases h⟩
  | ctts entries =>
    unfold readBox
    dsimp only
    split
    · rename_i hp
      obtain ⟨h1, h2⟩ := pmp4_readCTTS_ok entries 0 r.samples
      cases hst : readCTTS entries 0 r.samples with
      | panic => exact absurd hst h1
      | err e => exact ⟨by simp, fun _ h => by cases h⟩
      | ok s =>
        rw [Res.bind_ok]
        have hl : s.length = r.samples.length := (h2 s hst).1
        refine ⟨by simp, fun r' h => ?_⟩
        cases h
        exact ⟨⟨by show s.length ≤ _; omega, fun h => (by rw [hp] at h; cases h), by show r.chunks.sum ≤ s.length; omega, hun⟩, hp⟩
    · exact ⟨by simp, fun _ h => by cases h⟩
  | stsc entries =>
    obtain ⟨hseen, hdiv⟩ := hb entries rfl
    unfold readBox
    dsimp only
    split
    · rename_i hp
      obtain ⟨h1, h2⟩ := pmp4_readSTSC_ok r.samples.length hlen entries 0 r.chunks (Nat.zero_le _) hdiv
      cases hst : readSTSC r.samples.length entries 0 r.chunks with
      | panic => exact absurd hst h1
      | err e => exact ⟨by simp, fun _ h => by cases h⟩
      | ok c =>
        rw [Res.bind_ok]
        have hl := h2 c hst
        rw [hun hseen] at hl
        simp only [List.sum_nil] at hl
        refine ⟨by simp, fun r' h => ?_⟩
        cases h
        refine ⟨⟨hlen, fun h => (by rw [hp] at h; cases h), ?_, fun h => (by cases h)⟩, hp⟩
        show c.sum ≤ r.samples.length
        omega
    · exact ⟨by simp, fun _ h => by cases h⟩
  | stsz sizes =>
    unfold readBox
    dsimp only
    split
    · rename_i hp
      refine ⟨by simp, fun r' h => ?_⟩
      cases h
      exact ⟨⟨hlen, hfresh, hsum, hun⟩, hp⟩
    · exact ⟨by simp, fun _ h => by cases h⟩
  | stco offsets =>
    unfold readBox
    dsimp only
    split
    · rename_i hp
      split
      · exact ⟨by simp, fun _ h => by cases h⟩
      · rename_i ho
        have ho : offsets.length = r.chunks.length := by omega
        rw [pmp4_chunkOffsets _ _ _ (by omega), Res.bind_ok, List.drop_zero]
        split
        · exact ⟨by simp, fun _ h => by cases h⟩
        · rename_i hz
          obtain ⟨s', h1, h2, _⟩ := pmp4_locate_ok r.sizes (List.zip r.chunks offsets) 0 r.samples
            (by rw [pmp4_zip_sum _ _ ho]; omega) (by omega)
          rw [h1, Res.bind_ok]
          refine ⟨by simp, fun r' h => ?_⟩
          cases h
          exact ⟨⟨by show s'.length ≤ _; omega, fun h => (by rw [hp] at h; cases h), by show r.chunks.sum ≤ s'.length; omega, hun⟩, hp⟩
    · exact ⟨by simp, fun _ h => by cases h⟩

/-- What holds of the whole reader. -/
structure PReaderInv (seen : Bool) (p : PReader) : Prop where
  cur : p.state ≠ .waitingFtyp → p.state ≠ .waitingMoov → p.state ≠ .waitingMvhd → p.state ≠ .waitingTrak → p.cur ≠ none
  codec : p.state = .readingCodec → p.listed = true
  before : p.state = .waitingElst ∨ p.state = .waitingTkhd ∨ p.state = .waitingMdhd ∨ p.state = .waitingStsd → p.listed = true
  inv : ∀ t, p.cur = some t → ReaderInv seen t.reader
  props : ∀ t, p.cur = some t → p.state ≠ .waitingSampleProps → t.reader.samples = []

/-- Whether there was a `stsc` box in the track, after an event. -/
def seenStsc (seen : Bool) : Event → Bool
  | .trak => false
  | .table (.stsc _) => true
  | _ => seen

theorem pmp4_readEvent_inv (seen : Bool) (p : PReader) (e : Event) (hp : PReaderInv seen p)
    (he : ∀ entries, e = .table (.stsc entries) → seen = false ∧ StscDivisible entries) :
    (readEvent p e).NoPanic ∧ ∀ p', readEvent p e = .ok p' →
      PReaderInv (seenStsc seen e) p' := by
  obtain ⟨h1, h2, h2b, h3, h4⟩ := hp
  cases e with
  | ftyp | moov | mvhd | edts | elst | mdia | minf | stbl | stsd =>
    unfold readEvent
    dsimp only
    split
    · exact ⟨by simp, fun _ h => by cases h⟩
    · rename_i hst
      have hst := Decidable.not_not.mp hst
      refine ⟨by simp, fun p' h => ?_⟩
      cases h
      refine ⟨?_, ?_, ?_, h3, ?_⟩ <;> simp_all
  | trak =>
    unfold readEvent
    dsimp only
    split
    · exact ⟨by simp, fun _ h => by cases h⟩
    · refine ⟨by simp, fun p' h => ?_⟩
      cases h
      refine ⟨by simp, by simp, by simp, ?_, ?_⟩
      · intro t ht; cases ht
        exact ⟨by simp, fun _ => rfl, by simp, fun _ => rfl⟩
      · intro t ht _; cases ht; rfl
  | tkhd id =>
    unfold readEvent
    dsimp only
    split
    · exact ⟨by simp, fun _ h => by cases h⟩
    · rename_i hst
      have hst := Decidable.not_not.mp hst
      unfold PReader.withCur
      cases hc : p.cur with
      | none => exact absurd hc (h1 (by simp [hst]) (by simp [hst]) (by simp [hst]) (by simp [hst]))
      | some t =>
        refine ⟨by simp, fun p' h => ?_⟩
        cases h
        refine ⟨by simp, by simp, fun _ => h2b (by simp [hst]), ?_, ?_⟩
        · intro t' ht; cases ht; exact h3 t hc
        · intro t' ht _; cases ht; exact h4 t hc (by simp [hst])
  | mdhd ts d =>
    unfold readEvent
    dsimp only
    split
    · exact ⟨by simp, fun _ h => by cases h⟩
    · rename_i hst
      have hst := Decidable.not_not.mp hst
      split
      · exact ⟨by simp, fun _ h => by cases h⟩
      · unfold PReader.withCur
        cases hc : p.cur with
        | none => exact absurd hc (h1 (by simp [hst]) (by simp [hst]) (by simp [hst]) (by simp [hst]))
        | some t =>
          refine ⟨by simp, fun p' h => ?_⟩
          cases h
          refine ⟨by simp, by simp, fun _ => h2b (by simp [hst]), ?_, ?_⟩
          · intro t' ht; cases ht; exact h3 t hc
          · intro t' ht _; cases ht; exact h4 t hc (by simp [hst])
  | codec found =>
    unfold readEvent
    dsimp only
    split
    · exact ⟨by simp, fun _ h => by cases h⟩
    · rename_i hst
      have hst := Decidable.not_not.mp hst
      rw [h2 hst]
      cases found with
      | true =>
        refine ⟨by simp, fun p' h => ?_⟩
        cases h
        exact ⟨fun _ _ _ _ => h1 (by simp [hst]) (by simp [hst]) (by simp [hst]) (by simp [hst]), by simp, by simp, h3,
          fun t ht _ => h4 t ht (by simp [hst])⟩
      | false =>
        refine ⟨by simp, fun p' h => ?_⟩
        cases h
        exact ⟨fun _ _ _ _ => h1 (by simp [hst]) (by simp [hst]) (by simp [hst]) (by simp [hst]), by simp, by simp, h3,
          fun t ht _ => h4 t ht (by simp [hst])⟩
  | codecError =>
    unfold readEvent
    dsimp only
    split
    · exact ⟨by simp, fun _ h => by cases h⟩
    · refine ⟨by simp, fun p' h => ?_⟩
      cases h
      exact ⟨h1, h2, h2b, h3, h4⟩
  | other =>
    refine ⟨by simp [readEvent], fun p' h => ?_⟩
    cases h
    exact ⟨h1, h2, h2b, h3, h4⟩
  | table b =>
    unfold readEvent
    dsimp only
    split
    · exact ⟨by simp, fun _ h => by cases h⟩
    · rename_i hst
      have hst : p.state = .waitingSamples ∨ p.state = .waitingSampleProps := by
        rcases Classical.em (p.state = .waitingSamples) with h | h
        · exact Or.inl h
        · exact Or.inr (Classical.byContradiction fun h' => hst ⟨h, h'⟩)
      have hcur : p.cur ≠ none := by
        rcases hst with h | h <;> exact h1 (by simp [h]) (by simp [h]) (by simp [h]) (by simp [h])
      unfold PReader.withCur
      cases hc : p.cur with
      | none => exact absurd hc hcur
      | some t =>
        dsimp only
        have ht := h3 t hc
        have hinv : ReaderInv seen
            { t.reader with props := decide (p.state = .waitingSampleProps), trackDuration := p.trackDuration } :=
          ⟨ht.len, fun h => h4 t hc (by simpa using h), ht.sum, ht.unseen⟩
        obtain ⟨ha, hb⟩ := pmp4_readBox_inv seen _ b hinv (fun entries h => he entries (by rw [h]))
        refine ⟨Res.noPanic_bind ha (fun _ _ => by simp), fun p' h => ?_⟩
        obtain ⟨r, hr1, hr2⟩ := Res.bind_eq_ok.mp h
        obtain ⟨hr3, hr4⟩ := hb r hr1
        cases hr2
        rw [hr4]
        refine ⟨by simp, by simp, by simp, ?_, by simp⟩
        intro t' ht'; cases ht'
        cases b <;> exact hr3

theorem pmp4_readEvents_np (l : List Event) :
    ∀ (seen : Bool) (p : PReader), PReaderInv seen p → OneStsc seen l → (readEvents l p).NoPanic := by
  induction l with
  | nil => intro seen p _ _; simp [readEvents]
  | cons e l ih =>
    intro seen p hp hone
    unfold readEvents
    have hone' : (∀ entries, e = .table (.stsc entries) → seen = false ∧ StscDivisible entries) ∧
        OneStsc (seenStsc seen e) l := by
      cases e with
      | table b =>
        cases b with
        | stsc entries => exact ⟨fun x h => by cases h; exact ⟨hone.1, hone.2.1⟩, hone.2.2⟩
        | stts _ | stss _ | ctts _ | stsz _ | stco _ => exact ⟨fun x h => (by cases h), hone⟩
      | ftyp | moov | mvhd | edts | elst | mdia | minf | stbl | stsd | trak | codecError | other =>
        exact ⟨fun x h => (by cases h), hone⟩
      | tkhd _ | mdhd _ _ | codec _ => exact ⟨fun x h => (by cases h), hone⟩
    obtain ⟨ha, hb⟩ := pmp4_readEvent_inv seen p e hp hone'.1
    exact Res.noPanic_bind ha (fun p' h => ih _ p' (hb p' h) hone'.2)

/-- **C47, partial.** For all contents of all boxes, in any order, `Presentation.Unmarshal` does not panic, provided that there is at
most one `stsc` box for each track and that its last entry has a number of samples other than zero. Both conditions are necessary, see
`C47_false` and `C47_second_stsc_false`. -/
theorem C47_partial (events : List Event) (h : OneStsc false events) : (unmarshal events).NoPanic := by
  unfold unmarshal
  refine Res.noPanic_bind (pmp4_readEvents_np events false {} ?_ h) ?_
  · exact ⟨by simp, by simp, by simp, by simp, by simp⟩
  · intro p _
    split
    · simp
    · split <;> simp

/-- The boxes of a file with a track, before its sample tables. -/
def pmp4Prefix : List Event :=
  [.ftyp, .moov, .mvhd, .trak, .tkhd 1, .edts, .elst, .mdia, .mdhd 90000 0, .other, .minf, .stbl, .stsd, .codec true]

/-- A hostile file that is refused without a panic. -/
example : OneStsc false (pmp4Prefix ++ [.table (.stts [⟨4, 3000⟩]), .table (.stsc [⟨2, 7⟩, ⟨1, 3⟩])]) := by
  simp [pmp4Prefix, OneStsc, StscDivisible]

example : unmarshal (pmp4Prefix ++ [.table (.stts [⟨4, 3000⟩]), .table (.stsc [⟨2, 7⟩, ⟨1, 3⟩])]) = .err "invalid stsc" := by
  decide +kernel

/-- **C47 is false**: a `stsc` box whose last entry has no samples makes the reader divide by zero. -/
theorem C47_false : ∃ events, unmarshal events = .panic :=
  ⟨pmp4Prefix ++ [.table (.stts [⟨1, 3000⟩]), .table (.stsc [⟨1, 0⟩])], by decide +kernel⟩

/-- **C47 is false** also when all entries have samples: chunks of a second `stsc` box are added to those of the first one, and then
`stco` makes the reader access a sample that does not exist. -/
theorem C47_second_stsc_false : ∃ events, (∀ entries, .table (.stsc entries) ∈ events → ∀ e ∈ entries, e.samplesPerChunk ≠ 0) ∧
    unmarshal events = .panic :=
  ⟨pmp4Prefix ++ [.table (.stts [⟨1, 3000⟩]), .table (.stsc [⟨1, 1⟩]), .table (.stsc [⟨1, 1⟩]), .table (.stsz [10]),
    .table (.stco [100, 200])], by simp [pmp4Prefix], by decide +kernel⟩

/-- **C47 is false** about locations: samples of a file without `stco` are accepted, with no function to get their payload. -/
theorem C47_location_false : ∃ events t sa, unmarshal events = .ok [t] ∧ sa ∈ t.reader.samples ∧ sa.location = none :=
  ⟨pmp4Prefix ++ [.table (.stts [⟨1, 3000⟩])],
    ⟨1, 90000, ⟨true, 0, -3000, [{ duration := 3000 }], [], []⟩⟩, { duration := 3000 }, by decide +kernel, by simp, rfl⟩

/-! ## Locations -/

/-- Boxes other than `stts` and `stsc`. -/
def Box.isPlain : Box → Bool
  | .stts _ => false
  | .stsc _ => false
  | _ => true

theorem pmp4_plain (l : List Box) :
    ∀ r r', (∀ b ∈ l, Box.isPlain b) → readBoxes l r = .ok r' →
      r'.chunks = r.chunks ∧ r'.samples.length = r.samples.length ∧
      (r.chunks.sum = r.samples.length →
        (∀ sa ∈ r.samples, ∃ o, sa.location = some (o, sa.payloadSize)) ∨ (∃ o, .stco o ∈ l) →
        ∀ sa ∈ r'.samples, ∃ o, sa.location = some (o, sa.payloadSize)) := by
  induction l with
  | nil => intro r r' _ h; cases h; exact ⟨rfl, rfl, fun _ h => h.elim id (fun ⟨o, h⟩ => by cases h)⟩
  | cons b l ih =>
    intro r r' hpl h
    unfold readBoxes at h
    obtain ⟨r1, h1, h2⟩ := Res.bind_eq_ok.mp h
    obtain ⟨ha, hb, hc⟩ := ih r1 r' (fun b hb => hpl b (List.mem_cons_of_mem _ hb)) h2
    have hb1 := hpl b List.mem_cons_self
    have key : r1.chunks = r.chunks ∧ r1.samples.length = r.samples.length ∧
        (r.chunks.sum = r.samples.length → (∀ sa ∈ r.samples, ∃ o, sa.location = some (o, sa.payloadSize)) ∨ (∃ o, b = .stco o) →
          ∀ sa ∈ r1.samples, ∃ o, sa.location = some (o, sa.payloadSize)) := by
      have keep : ∀ s : List RSample, s.map (fun x => (x.payloadSize, x.location)) = r.samples.map (fun x => (x.payloadSize, x.location)) →
          (∀ sa ∈ r.samples, ∃ o, sa.location = some (o, sa.payloadSize)) → ∀ sa ∈ s, ∃ o, sa.location = some (o, sa.payloadSize) := by
        intro s hs hall sa hsa
        have : (sa.payloadSize, sa.location) ∈ r.samples.map (fun x => (x.payloadSize, x.location)) := by
          rw [← hs]; exact List.mem_map_of_mem (f := fun x : RSample => (x.payloadSize, x.location)) hsa
        obtain ⟨sb, hsb, heq⟩ := List.mem_map.mp this
        obtain ⟨o, ho⟩ := hall sb hsb
        simp only [Prod.mk.injEq] at heq
        exact ⟨o, by rw [← heq.1, ← heq.2]; exact ho⟩
      cases b with
      | stts _ => cases hb1
      | stsc _ => cases hb1
      | stss numbers =>
        unfold readBox at h1
        dsimp only at h1
        split at h1
        · obtain ⟨s, hs1, hs2⟩ := Res.bind_eq_ok.mp h1
          obtain ⟨hs3, hs4⟩ := (pmp4_readSTSS_ok numbers _).2 s hs1
          cases hs2
          refine ⟨rfl, by simpa using hs3, fun _ hor => ?_⟩
          rcases hor with hor | ⟨o, ho⟩
          · exact keep s (by rw [hs4, List.map_map]; rfl) hor
          · cases ho
        · cases h1
      | ctts entries =>
        unfold readBox at h1
        dsimp only at h1
        split at h1
        · obtain ⟨s, hs1, hs2⟩ := Res.bind_eq_ok.mp h1
          obtain ⟨hs3, hs4⟩ := (pmp4_readCTTS_ok entries 0 _).2 s hs1
          cases hs2
          refine ⟨rfl, by simpa using hs3, fun _ hor => ?_⟩
          rcases hor with hor | ⟨o, ho⟩
          · exact keep s hs4 hor
          · cases ho
        · cases h1
      | stsz sizes =>
        unfold readBox at h1
        dsimp only at h1
        split at h1
        · cases h1
          refine ⟨rfl, rfl, fun _ hor => ?_⟩
          rcases hor with hor | ⟨o, ho⟩
          · exact hor
          · cases ho
        · cases h1
      | stco offsets =>
        unfold readBox at h1
        dsimp only at h1
        split at h1
        · split at h1
          · cases h1
          · rename_i ho
            have ho : offsets.length = r.chunks.length := by omega
            rw [pmp4_chunkOffsets _ _ _ (by omega), Res.bind_ok, List.drop_zero] at h1
            split at h1
            · cases h1
            · rename_i hz
              obtain ⟨s, hs1, hs2⟩ := Res.bind_eq_ok.mp h1
              cases hs2
              by_cases hsum : r.chunks.sum = r.samples.length
              · obtain ⟨s', h3, h4, _, h6⟩ := pmp4_locate_ok r.sizes (List.zip r.chunks offsets) 0 r.samples
                  (by rw [pmp4_zip_sum _ _ ho]; omega) (by omega)
                rw [hs1] at h3; cases h3
                refine ⟨rfl, h4, fun _ _ sa (hsa : sa ∈ s) => ?_⟩
                obtain ⟨j, hj, rfl⟩ := List.mem_iff_getElem.mp hsa
                exact h6 j hj (Nat.zero_le _) (by rw [pmp4_zip_sum _ _ ho]; omega)
              · refine ⟨rfl, ?_, fun h => absurd h hsum⟩
                have hlen : ∀ (k off i : Nat) (s s' : List RSample) (i' : Nat),
                    locateChunk r.sizes k off i s = .ok (i', s') → s'.length = s.length := by
                  intro k
                  induction k with
                  | zero => intro off i s s' i' h; cases h; rfl
                  | succ k ihk =>
                    intro off i s s' i' h
                    unfold locateChunk at h
                    obtain ⟨_, _, h⟩ := Res.bind_eq_ok.mp h
                    obtain ⟨_, _, h⟩ := Res.bind_eq_ok.mp h
                    simpa using ihk _ _ _ _ _ h
                have hlen2 : ∀ (c : List (Nat × Nat)) (i : Nat) (s s' : List RSample),
                    locate r.sizes c i s = .ok s' → s'.length = s.length := by
                  intro c
                  induction c with
                  | nil => intro i s s' h; cases h; rfl
                  | cons x c ihc =>
                    obtain ⟨n, off⟩ := x
                    intro i s s' h
                    unfold locate at h
                    obtain ⟨⟨i1, s1⟩, hx, h⟩ := Res.bind_eq_ok.mp h
                    rw [ihc _ _ _ h, hlen _ _ _ _ _ _ hx]
                exact hlen2 _ _ _ _ hs1
        · cases h1
    obtain ⟨k1, k2, k3⟩ := key
    refine ⟨by rw [ha, k1], by rw [hb, k2], fun hsum hor => ?_⟩
    have hsum1 : r1.chunks.sum = r1.samples.length := by rw [k1, k2]; exact hsum
    refine hc hsum1 ?_
    rcases hor with hor | ⟨o, ho⟩
    · exact Or.inl (k3 hsum (Or.inl hor))
    · rcases List.mem_cons.mp ho with he | hm
      · exact Or.inl (k3 hsum (Or.inr ⟨o, he.symm⟩))
      · exact Or.inr ⟨o, hm⟩

/-- **C47, partial.** When a track has one `stsc` box that is not empty, followed at some point by `stco`, every sample that is accepted
has an offset, and the size in its location is its payload size. -/
theorem C47_located_partial (stts : List (Run Nat)) (a b : List Box) (entries : List StscEntry) (d : Nat) (r : Reader)
    (ha : ∀ x ∈ a, Box.isPlain x) (hb : ∀ x ∈ b, Box.isPlain x) (hne : entries ≠ []) (hdiv : StscDivisible entries)
    (hstco : ∃ o, Box.stco o ∈ b) (h : readBoxes (.stts stts :: a ++ .stsc entries :: b) { trackDuration := d } = .ok r) :
    ∀ sa ∈ r.samples, ∃ o, sa.location = some (o, sa.payloadSize) := by
  have happ : ∀ (x y : List Box) (r : Reader), readBoxes (x ++ y) r = (readBoxes x r >>= fun r => readBoxes y r) := by
    intro x
    induction x with
    | nil => intro y r; rfl
    | cons z x ih =>
      intro y r
      show (readBox r z >>= fun r => readBoxes (x ++ y) r) = ((readBox r z >>= fun r => readBoxes x r) >>= fun r => readBoxes y r)
      rw [bind_assoc]
      congr 1
      funext r1
      exact ih y r1
  rw [happ] at h
  obtain ⟨r2, h2, h3⟩ := Res.bind_eq_ok.mp h
  unfold readBoxes at h2 h3
  obtain ⟨r1, h1, h2⟩ := Res.bind_eq_ok.mp h2
  obtain ⟨r3, h4, h5⟩ := Res.bind_eq_ok.mp h3
  unfold readBox at h1
  simp only [Bool.false_eq_true, if_false] at h1
  obtain ⟨s, hs, hr1⟩ := Res.bind_eq_ok.mp h1
  have hlen := pmp4_readSTTS_len _ _ _ hs (by simp)
  cases hr1
  obtain ⟨hp1, hp2, _⟩ := pmp4_plain a _ _ ha h2
  simp only at hp1 hp2
  unfold readBox at h4
  dsimp only at h4
  split at h4
  · obtain ⟨c, hc, hr3⟩ := Res.bind_eq_ok.mp h4
    have hsum := (pmp4_readSTSC_ok r2.samples.length (by omega) entries 0 r2.chunks (Nat.zero_le _) hdiv).2 c hc
    rw [if_neg hne, hp1] at hsum
    simp only [List.sum_nil] at hsum
    cases hr3
    exact (pmp4_plain b _ _ hb h5).2.2 (by show c.sum = r2.samples.length; omega) (Or.inr hstco)
  · cases h4

example : ∃ r, readBoxes [.stts [⟨3, 10⟩], .stss [1], .stsc [⟨1, 2⟩, ⟨2, 1⟩], .stsz [5, 6, 7], .stco [100, 200]] { trackDuration := 30 } = .ok r ∧
    r.samples.map (·.location) = [some (100, 5), some (105, 6), some (200, 7)] :=
  ⟨⟨true, 30, 0, [⟨10, 0, false, 5, some (100, 5)⟩, ⟨10, 0, true, 6, some (105, 6)⟩, ⟨10, 0, true, 7, some (200, 7)⟩], [2, 1], [5, 6, 7]⟩,
    by decide +kernel, rfl⟩

end Verif.Props
