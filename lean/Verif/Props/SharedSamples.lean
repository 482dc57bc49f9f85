import Verif.Model.PMP4Heap
import Verif.Props.PMP4FileRoundTrip

/-!
# C110: samples of MP4 files may be shared

`Presentation.Marshal` writes into the samples that it is given. When the same sample is present more than once, the offset that remains in
it is that of its last position. The file can be read back anyway.
-/

namespace Verif.Props
open PMP4File MP4Codec MP4Box MP4Writer
open FMP4Init (typMvhd isoFields)
open FMP4 (box_length)
open PMP4 (Sample RTrack readEvents tracksEvents shiftChunks marshalSTCO marshalMdat)
open Spec.FMP4 (box)

/-! ## Statement -/

/-- The sample at an address. -/
def sharedAt (heap : List Sample) (a : Nat) : Sample := heap.getD a {}

/-- A track with the samples that its addresses have. -/
def sharedValue (heap : List Sample) (t : PMP4Heap.Track) : PMP4File.Track :=
  ⟨⟨t.id, t.timeScale, t.timeOffset, t.samples.map (sharedAt heap)⟩, t.codec⟩

/-- All addresses are valid. -/
def SharedValid (heap : List Sample) (ts : List PMP4Heap.Track) : Prop := ∀ t ∈ ts, ∀ a ∈ t.samples, a < heap.length

/-! ## Memory -/

theorem shared_unplaced {a b : Sample} (h : unplaced a = unplaced b) : ∀ off, ({ a with offset := off } : Sample) = { b with offset := off } := by
  intro off
  cases a; cases b
  simp only [unplaced, Sample.mk.injEq] at h ⊢
  simpa using h

theorem shared_at_lt {heap : List Sample} {a : Nat} (h : a < heap.length) : sharedAt heap a = heap[a] := by
  unfold sharedAt
  rw [List.getD_eq_getElem?_getD, List.getElem?_eq_getElem h]; rfl

theorem shared_at_map {H K : List Sample} (h : H.map unplaced = K.map unplaced) (a : Nat) : unplaced (sharedAt H a) = unplaced (sharedAt K a) := by
  have e : ∀ l : List Sample, unplaced (sharedAt l a) = (l.map unplaced).getD a (unplaced {}) := by
    intro l
    unfold sharedAt
    rw [List.getD_eq_getElem?_getD, List.getD_eq_getElem?_getD, List.getElem?_map]
    cases l[a]? <;> rfl
  rw [e, e, h]

theorem shared_set_map (H : List Sample) (a : Nat) (ha : a < H.length) (off : Nat) :
    (H.set a { H[a] with offset := off }).map unplaced = H.map unplaced := by
  rw [List.map_set]
  have : unplaced { H[a] with offset := off } = (H.map unplaced)[a]'(by simpa using ha) := by
    rw [List.getElem_map]; rfl
  rw [this, List.set_getElem_self]

theorem shared_at_set (H : List Sample) (a b : Nat) (ha : a < H.length) (sa : Sample) :
    sharedAt (H.set a sa) b = if b = a then sa else sharedAt H b := by
  unfold sharedAt
  rw [List.getD_eq_getElem?_getD, List.getD_eq_getElem?_getD, List.getElem?_set]
  by_cases h : b = a
  · subst h; simp [ha]
  · rw [if_neg h, if_neg (fun e => h e.symm)]

theorem shared_loadAll (heap : List Sample) (l : List Nat) (h : ∀ a ∈ l, a < heap.length) :
    PMP4Heap.loadAll heap l = .ok (l.map (sharedAt heap)) := by
  induction l with
  | nil => rfl
  | cons a l ih =>
    unfold PMP4Heap.loadAll
    rw [idx_of_lt (h a List.mem_cons_self), Res.bind_ok, ih fun b hb => h b (List.mem_cons_of_mem _ hb), Res.bind_ok, List.map_cons,
      shared_at_lt (h a List.mem_cons_self)]

theorem shared_loadTracks (heap : List Sample) (ts : List PMP4Heap.Track) (h : SharedValid heap ts) :
    PMP4Heap.loadTracks heap ts = .ok (ts.map (sharedValue heap)) := by
  induction ts with
  | nil => rfl
  | cons t ts ih =>
    unfold PMP4Heap.loadTracks
    rw [shared_loadAll heap _ (h t List.mem_cons_self), Res.bind_ok, ih fun u hu => h u (List.mem_cons_of_mem _ hu), Res.bind_ok]
    rfl

/-! ## Order of samples -/

def sharedCore (c : PMP4.Cursor) : Nat × Int × List Sample := (c.timeScale, c.elapsed, c.left)

def sharedCoreH (heap : List Sample) (c : PMP4Heap.Cursor) : Nat × Int × List Sample := (c.timeScale, c.elapsed, c.left.map (sharedAt heap))

theorem shared_best (heap : List Sample) (csH : List PMP4Heap.Cursor) :
    ∀ (cs : List PMP4.Cursor) (i : Nat) (b : Option (Nat × Int)), cs.map sharedCore = csH.map (sharedCoreH heap) →
      PMP4Heap.bestTrack i csH b = PMP4.bestTrack i cs b := by
  induction csH with
  | nil =>
    intro cs i b h
    have : cs = [] := by simpa using h
    subst this; rfl
  | cons cH csH ih =>
    intro cs i b h
    cases cs with
    | nil => simp at h
    | cons c cs =>
      simp only [List.map_cons, List.cons.injEq, sharedCore, sharedCoreH, Prod.mk.injEq] at h
      obtain ⟨⟨h1, h2, h3⟩, h4⟩ := h
      unfold PMP4Heap.bestTrack PMP4.bestTrack
      cases hl : cH.left with
      | nil =>
        rw [hl] at h3
        rw [h3]
        exact ih cs (i + 1) b h4
      | cons a l =>
        rw [hl] at h3
        rw [h3, List.map_cons]
        simp only
        rw [h1, h2]
        refine bind_congr fun e => ?_
        cases b with
        | none => exact ih cs (i + 1) _ h4
        | some x => exact ih cs (i + 1) _ h4

theorem shared_best_some (cs : List PMP4Heap.Cursor) : ∀ i b, PMP4Heap.bestTrack i cs (some b) ≠ .ok none := by
  induction cs with
  | nil => intro i b h; cases h
  | cons c cs ih =>
    intro i b h
    unfold PMP4Heap.bestTrack at h
    cases hl : c.left with
    | nil => rw [hl] at h; exact ih _ _ h
    | cons a l =>
      rw [hl] at h
      simp only at h
      obtain ⟨e, _, h⟩ := Res.bind_eq_ok.mp h
      by_cases hlt : e < b.2
      · rw [if_pos hlt] at h; exact ih _ _ h
      · rw [if_neg hlt] at h; exact ih _ _ h

theorem shared_best_none (cs : List PMP4Heap.Cursor) : ∀ i, PMP4Heap.bestTrack i cs none = .ok none → ∀ c ∈ cs, c.left = [] := by
  induction cs with
  | nil => intro i _ c hc; cases hc
  | cons c cs ih =>
    intro i h
    unfold PMP4Heap.bestTrack at h
    cases hl : c.left with
    | nil =>
      rw [hl] at h
      intro d hd
      rcases List.mem_cons.mp hd with e | e
      · subst e; exact hl
      · exact ih _ h d e
    | cons a l =>
      rw [hl] at h
      simp only at h
      obtain ⟨e, _, h⟩ := Res.bind_eq_ok.mp h
      exact absurd h (shared_best_some _ _ _)

theorem shared_idx {α : Type} {l : List α} {i : Nat} {x : α} (h : idx l i = .ok x) : ∃ hi : i < l.length, l[i] = x := by
  by_cases hi : i < l.length
  · rw [idx_of_lt hi] at h; cases h; exact ⟨hi, rfl⟩
  · rw [idx_of_ge (by omega)] at h; cases h

/-- The loop on addresses does what the loop on values does. -/
theorem shared_loop (H0 : List Sample) : ∀ (n : Nat) (cs : List PMP4.Cursor) (csH : List PMP4Heap.Cursor) (off : Nat) (sorted : List Sample)
    (H : List Sample) (sortedH : List Nat) (size : Nat) (sorted' : List Sample) (cs' : List PMP4.Cursor),
    cs.map sharedCore = csH.map (sharedCoreH H0) → (∀ c ∈ csH, ∀ a ∈ c.left, a < H0.length) → H.map unplaced = H0.map unplaced →
    (∀ a ∈ sortedH, a < H0.length) →
    sortedH.map (fun a => unplaced (sharedAt H0 a)) = sorted.map unplaced → (∀ a ∈ sortedH, sharedAt H a ∈ sorted) →
    PMP4.sortLoop n cs off sorted = .ok (size, sorted', cs') →
    ∃ H' sortedH', PMP4Heap.sortLoop n csH off H sortedH = .ok (size, sortedH', H') ∧ H'.map unplaced = H0.map unplaced ∧
      (∀ a ∈ sortedH', a < H0.length) ∧
      sortedH'.map (fun a => unplaced (sharedAt H0 a)) = sorted'.map unplaced ∧ (∀ a ∈ sortedH', sharedAt H' a ∈ sorted') ∧
      (∀ a ∈ sortedH, a ∈ sortedH') ∧ ∀ c ∈ csH, ∀ a ∈ c.left, a ∈ sortedH' := by
  intro n
  induction n with
  | zero =>
    intro cs csH off sorted H sortedH size sorted' cs' h1 h2 h3 h4 h5 h6 h
    unfold PMP4.sortLoop at h
    obtain ⟨b, hb, h⟩ := Res.bind_eq_ok.mp h
    cases b with
    | some x => cases h
    | none =>
      cases h
      have hbH : PMP4Heap.bestTrack 0 csH none = .ok none := (shared_best H0 csH cs 0 none h1).trans hb
      refine ⟨H, sortedH, ?_, h3, h4, h5, h6, fun a ha => ha, fun c hc a ha => ?_⟩
      · unfold PMP4Heap.sortLoop
        rw [hbH, Res.bind_ok]
      · rw [shared_best_none csH 0 hbH c hc] at ha; cases ha
  | succ n ih =>
    intro cs csH off sorted H sortedH size sorted' cs' h1 h2 h3 h4 h5 h6 h
    unfold PMP4.sortLoop at h
    obtain ⟨b, hb, h⟩ := Res.bind_eq_ok.mp h
    have hbH := (shared_best H0 csH cs 0 none h1).trans hb
    cases b with
    | none =>
      cases h
      refine ⟨H, sortedH, ?_, h3, h4, h5, h6, fun a ha => ha, fun c hc a ha => ?_⟩
      · unfold PMP4Heap.sortLoop
        rw [hbH, Res.bind_ok]
      · rw [shared_best_none csH 0 hbH c hc] at ha; cases ha
    | some x =>
      obtain ⟨i, e⟩ := x
      simp only at h
      obtain ⟨c, hc, h⟩ := Res.bind_eq_ok.mp h
      obtain ⟨sa, hsa, h⟩ := Res.bind_eq_ok.mp h
      obtain ⟨hi, hc⟩ := shared_idx hc
      have hlen : cs.length = csH.length := by simpa using congrArg List.length h1
      have hiH : i < csH.length := by omega
      have hcore : sharedCore c = sharedCoreH H0 csH[i] := by
        have e1 : (cs.map sharedCore)[i]? = (csH.map (sharedCoreH H0))[i]? := by rw [h1]
        rw [List.getElem?_map, List.getElem?_map, List.getElem?_eq_getElem hi, List.getElem?_eq_getElem hiH, hc] at e1
        exact Option.some.inj e1
      generalize hcH : csH[i] = cH at hcore
      simp only [sharedCore, sharedCoreH, Prod.mk.injEq] at hcore
      obtain ⟨q1, q2, q3⟩ := hcore
      have hmem : cH ∈ csH := by rw [← hcH]; exact List.getElem_mem hiH
      cases hl : cH.left with
      | nil => rw [q3, hl] at hsa; cases hsa
      | cons a l =>
        have hv : a < H0.length := h2 cH hmem a (by rw [hl]; exact List.mem_cons_self)
        have hHlen : H.length = H0.length := by simpa using congrArg List.length h3
        have haH : a < H.length := by omega
        rw [q3, hl, List.map_cons, idx_zero_cons] at hsa
        cases hsa
        have hun : unplaced H[a] = unplaced (sharedAt H0 a) := by
          rw [← shared_at_lt haH]; exact shared_at_map h3 a
        have hpl := shared_unplaced hun
        have hdur : H[a].duration = (sharedAt H0 a).duration := by have := congrArg Sample.duration hun; exact this
        have hsz : H[a].payloadSize = (sharedAt H0 a).payloadSize := by have := congrArg Sample.payloadSize hun; exact this
        obtain ⟨H', sortedH', r1, r2, r3, r4, r5, r6, r7⟩ := ih _ (csH.set i { cH with
            elapsed := TS.wrap64 (cH.elapsed + H[a].duration), left := cH.left.drop 1 }) _ _ (H.set a { H[a] with offset := off }) (a :: sortedH)
          size sorted' cs' (by
            rw [List.map_set, List.map_set, h1]
            congr 1
            simp only [sharedCore, sharedCoreH, Prod.mk.injEq]
            refine ⟨q1, by rw [q2, hdur], by rw [q3, List.map_drop]⟩)
          (by
            intro d hd b hb
            rcases List.mem_or_eq_of_mem_set hd with hd | hd
            · exact h2 d hd b hb
            · subst hd
              exact h2 cH hmem b (List.mem_of_mem_drop hb))
          (by rw [shared_set_map H a haH]; exact h3)
          (by
            intro b hb
            rcases List.mem_cons.mp hb with e | e
            · subst e; exact hv
            · exact h4 b e)
          (by
            rw [List.map_cons, List.map_cons, h5]
            rfl)
          (by
            intro b hb
            rw [shared_at_set H a b haH]
            by_cases e : b = a
            · rw [if_pos e, hpl off]; exact List.mem_cons_self
            · rw [if_neg e]
              rcases List.mem_cons.mp hb with hb | hb
              · exact absurd hb e
              · exact List.mem_cons_of_mem _ (h6 b hb)) h
        refine ⟨H', sortedH', ?_, r2, r3, r4, r5, fun b hb => r6 b (List.mem_cons_of_mem _ hb), fun d hd b hbd => ?_⟩
        · unfold PMP4Heap.sortLoop
          rw [hbH, Res.bind_ok]
          simp only
          rw [idx_of_lt hiH, hcH, Res.bind_ok, hl, idx_zero_cons, Res.bind_ok, idx_of_lt haH, Res.bind_ok, ← hl]
          rw [show (off + H[a].payloadSize) % 2 ^ 32 = (off + (sharedAt H0 a).payloadSize) % 2 ^ 32 by rw [hsz]]
          exact r1
        · obtain ⟨j, hj, hdj⟩ := List.mem_iff_getElem.mp hd
          by_cases hji : j = i
          · subst hji
            rw [← hdj, hcH, hl] at hbd
            rcases List.mem_cons.mp hbd with e | e
            · subst e; exact r6 _ List.mem_cons_self
            · refine r7 _ (List.mem_iff_getElem.mpr ⟨j, by simpa using hj, List.getElem_set_self (by simpa using hj)⟩) b ?_
              simp only [hl, List.drop_succ_cons, List.drop_zero]
              exact e
          · refine r7 d (List.mem_iff_getElem.mpr ⟨j, by simpa using hj, ?_⟩) b hbd
            rw [List.getElem_set_ne (fun e => hji e.symm)]
            exact hdj

/-- The same for `sortSamples`. -/
theorem shared_sort (heap : List Sample) (ts : List PMP4Heap.Track) (hv : SharedValid heap ts) (L : PMP4.Layout)
    (h : PMP4.sortSamples (ts.map fun t => (sharedValue heap t).toTrack) = .ok L) :
    ∃ heap' sorted, PMP4Heap.sortSamples heap ts = .ok (L.dataSize, sorted, heap') ∧ heap'.map unplaced = heap.map unplaced ∧
      (∀ a ∈ sorted, a < heap.length) ∧ sorted.map (fun a => unplaced (sharedAt heap a)) = L.sorted.map unplaced ∧
      ∀ t ∈ ts, ∀ a ∈ t.samples, sharedAt heap' a ∈ L.sorted := by
  unfold PMP4.sortSamples at h
  obtain ⟨⟨size, sorted, cs⟩, h0, h⟩ := Res.bind_eq_ok.mp h
  cases h
  obtain ⟨H', sortedH', r1, r2, r3, r4, r5, r6, r7⟩ := shared_loop heap _ _ (ts.map fun t => (⟨t.timeScale, t.timeOffset, t.samples⟩ : PMP4Heap.Cursor))
    0 [] heap [] size sorted cs (by rw [List.map_map, List.map_map, List.map_map]; rfl)
    (by
      intro c hc a ha
      obtain ⟨t, ht, rfl⟩ := List.mem_map.mp hc
      exact hv t ht a ha) rfl (fun a ha => (by cases ha)) rfl (fun a ha => (by cases ha)) h0
  refine ⟨H', sortedH'.reverse, ?_, r2, fun a ha => r3 a (List.mem_reverse.mp ha), ?_, fun t ht a ha => ?_⟩
  · unfold PMP4Heap.sortSamples
    have e : (ts.map fun t => (sharedValue heap t).toTrack).map (fun t => t.samples.length) = ts.map fun t => t.samples.length := by
      rw [List.map_map]
      refine List.map_congr_left fun t _ => ?_
      simp [sharedValue]
    rw [e] at r1
    simp only
    rw [r1, Res.bind_ok]
  · rw [List.map_reverse, r4, ← List.map_reverse]
  · exact List.mem_reverse.mpr (r5 a (r7 ⟨t.timeScale, t.timeOffset, t.samples⟩ (List.mem_map.mpr ⟨t, ht, rfl⟩) a ha))

/-! ## Reading -/

/-- The events of a file whose tracks have any offsets, as long as payloads are there. -/
theorem shared_events (header : Bytes) (us : List PMP4.Track) (n S : Nat) (sorted : List Sample) (hne : us ≠ []) (hw : ∀ t ∈ us, Writable t)
    (hat : ∀ t ∈ us, ∀ sa ∈ t.samples, ((marshalMdat n sorted).drop (sa.offset + 8)).take sa.payloadSize = sa.payload ∧
      sa.offset + sa.payloadSize ≤ S) (hsize : header.length + 8 + S < 2 ^ 32) :
    ∃ evs rts, tracksEvents (header.length + 8) us = .ok evs ∧ PMP4.unmarshal ([.ftyp, .moov, .mvhd] ++ evs ++ [.other]) = .ok rts ∧
      rts.map (seen (header ++ marshalMdat n sorted)) = us.map given := by
  obtain ⟨evs, p', rts, t1, t2, t3, t4, t5⟩ := pmp4_tracks (header.length + 8) us ⟨.waitingTrak, [], none, false, 0⟩ (Or.inl rfl) hw (by
    intro t ht sa hsa
    have := (hat t ht sa hsa).2
    omega)
  have hrne : rts ≠ [] := by
    intro h
    have e1 := congrArg List.length t5
    simp only [List.length_map, h, List.length_nil] at e1
    exact hne (List.eq_nil_of_length_eq_zero (by omega))
  refine ⟨evs, rts, t1, ?_, ?_⟩
  · unfold PMP4.unmarshal
    have hr : readEvents ([.ftyp, .moov, .mvhd] ++ evs ++ [.other]) {} = .ok p' := by
      rw [List.append_assoc, pmp4_readEvents_append]
      have h0 : readEvents [.ftyp, .moov, .mvhd] {} = .ok ⟨.waitingTrak, [], none, false, 0⟩ := rfl
      rw [h0, Res.bind_ok, pmp4_readEvents_append, t2, Res.bind_ok]
      rfl
    rw [hr, Res.bind_ok]
    have ha : p'.all = rts := by rw [t4]; rfl
    rw [if_neg (by rcases t3 with h | h <;> rw [h] <;> simp), ha, if_neg hrne]
  · have e1 : rts.map (seen (header ++ marshalMdat n sorted)) = (rts.map readView).map fun v =>
        (v.1, v.2.1, v.2.2.1, v.2.2.2.map fun sa => (sa.duration, sa.ptsOffset, sa.isNonSync, sa.payloadSize,
          PMP4.getPayload (header ++ marshalMdat n sorted) sa)) := by
      rw [List.map_map]; rfl
    rw [e1, t5, List.map_map]
    apply List.map_congr_left
    intro t ht
    show (t.id, t.timeScale, t.timeOffset, _) = given t
    unfold given
    congr 3
    rw [List.map_map]
    apply List.map_congr_left
    intro sa hsa
    show (sa.duration, sa.ptsOffset, sa.isNonSync, sa.payloadSize, PMP4.getPayload _ (readSample _ sa)) = _
    congr 4
    unfold PMP4.getPayload readSample
    simp only
    have hd : ((header ++ marshalMdat n sorted).drop (sa.offset + (header.length + 8))).take sa.payloadSize = sa.payload := by
      rw [show sa.offset + (header.length + 8) = header.length + (sa.offset + 8) by omega, ← List.drop_drop, List.drop_left]
      exact (hat t ht sa hsa).1
    rw [hd, if_pos ((hw t ht).payload sa hsa)]

/-- The bytes of such a file. -/
theorem shared_file (us : List PMP4File.Track) (header : Bytes) (n : Nat) (sorted : List Sample) (hne : us ≠ []) (hg : ∀ t ∈ us, FileGood t)
    (hat : ∀ t ∈ us, ∀ sa ∈ t.samples, ((marshalMdat n sorted).drop (sa.offset + 8)).take sa.payloadSize = sa.payload ∧
      sa.offset + sa.payloadSize ≤ n) (hn : n = (sorted.flatMap (·.payload)).length) (hsize : header.length + 8 + n < 2 ^ 32)
    (hh : PMP4File.marshalFtypAndMoov us = .ok header) :
    ∃ rts, PMP4File.unmarshal isoFields (header ++ marshalMdat n sorted) = .ok rts ∧
      rts.map (fun x => (seen (header ++ marshalMdat n sorted) x.1, x.2)) = us.map fun t => (given t.toTrack, t.codec.map restoredCodec) := by
  obtain ⟨xs, D, k1, k2, _, k3, k4⟩ := file_header us header (fun t ht => (hg t ht).codec) hh
  have hmem : ∀ x ∈ xs, x.1 ∈ us := fun x hx => by rw [← k1]; exact List.mem_map_of_mem (f := Prod.fst) hx
  have hxs : xs.map (·.1.toTrack) = us.map (·.toTrack) := by rw [← k1, List.map_map]; rfl
  obtain ⟨evs, r', a1, a2, a3, a4, a5⟩ := file_traks_read (header.length + 8) xs ⟨⟨.waitingTrak, [], none, false, 0⟩, none, none, []⟩ k2
    (fun x hx => (hg _ (hmem x hx)).writable) (fun x hx => ⟨(hg _ (hmem x hx)).timeScale, (hg _ (hmem x hx)).duration⟩)
    (fun x hx sa hsa => by
      have := (hat x.1 (hmem x hx) sa hsa).2
      omega) (.inl rfl)
  rw [hxs] at a1
  obtain ⟨evs', rts, c1, c2, c3⟩ := shared_events header (us.map (·.toTrack)) n n sorted (by simpa using hne)
    (fun t ht => by obtain ⟨u, hu, rfl⟩ := List.mem_map.mp ht; exact (hg u hu).writable)
    (fun t ht => by obtain ⟨u, hu, rfl⟩ := List.mem_map.mp ht; exact hat u hu) hsize
  rw [a1] at c1
  cases c1
  have hev : readEvents ([.ftyp, .moov, .mvhd] ++ evs ++ [.other]) {} = .ok r'.base := by
    rw [List.append_assoc, pmp4_readEvents_append]
    have h0 : readEvents [.ftyp, .moov, .mvhd] {} = .ok ⟨.waitingTrak, [], none, false, 0⟩ := rfl
    rw [h0, Res.bind_ok, pmp4_readEvents_append, a2, Res.bind_ok]
    rfl
  unfold PMP4.unmarshal at c2
  rw [hev, Res.bind_ok] at c2
  have hst : ¬(r'.base.state ≠ .waitingTrak ∧ r'.base.state ≠ .waitingSampleProps) := by
    rintro ⟨n1, n2⟩
    rcases a3 with h | h
    · exact n1 h
    · exact n2 h
  rw [if_neg hst] at c2
  by_cases hall : r'.base.all = []
  · rw [if_pos hall] at c2; cases c2
  rw [if_neg hall] at c2
  cases c2
  have hbytes : Reads isoFields PMP4File.handle (header ++ marshalMdat n sorted) 1 {} r' := by
    rw [file_mdat_box _ _ hn (by omega)]
    have hmd : (box [0x6D, 0x64, 0x61, 0x74] (sorted.flatMap (·.payload))).length < 2 ^ 32 := by
      rw [box_length _ _ (by rfl), ← hn]; omega
    refine tree_append (r' := r') ?_ (file_skip _ _ _ _ (by rfl) hmd (by rcases a3 with h | h <;> rw [h] <;> simp) rfl)
    rw [k4]
    generalize fileTraks (fun l => shiftChunks (header.length + 8) (marshalSTCO l)) xs = B at a4 k3 ⊢
    refine tree_append (r' := ⟨⟨.waitingMoov, [], none, false, 0⟩, none, none, []⟩) ?_ ?_
    · refine file_leaf _ _ _ _ _ .ftyp (by rfl) ?_ (by simp) rfl rfl rfl
      rw [box_length _ _ (by rfl), file_ftyp_length]; decide
    · refine file_node _ _ _ _ ⟨⟨.waitingMvhd, [], none, false, 0⟩, none, none, []⟩ _ .moov (by rfl) k3 (fun _ => rfl) (by simp) (fun _ => rfl) rfl rfl ?_
      refine tree_append ?_ a4
      have := tree_node (fields := isoFields) (h := PMP4File.handle) (typ := typMvhd) (fs := PMP4File.encodeMvhd D (us.length + 1))
        (body := []) (depth := 2) (r := (⟨⟨.waitingMvhd, [], none, false, 0⟩, none, none, []⟩ : PMP4File.Reader))
        (r1 := (⟨⟨.waitingTrak, [], none, false, 0⟩, none, none, []⟩ : PMP4File.Reader))
        (r' := (⟨⟨.waitingTrak, [], none, false, 0⟩, none, none, []⟩ : PMP4File.Reader)) (by rfl)
        (by rw [List.append_nil, file_mvhd_length]; decide)
        (by rw [file_mvhd_length]; exact file_mvhd_fields D _ _ (List.append_nil _))
        (fun bi expand e => by
          unfold PMP4File.handle
          rw [if_neg (by simp), e]
          rfl) (tree_nil _ _ _ _)
      rwa [List.append_nil] at this
  refine ⟨r'.base.all.zip r'.allCodecs, ?_, ?_⟩
  · unfold PMP4File.unmarshal
    rw [tree_file hbytes, Res.bind_ok, if_neg hst, if_neg hall]
  · have hcod : r'.allCodecs = us.map fun t => t.codec.map restoredCodec := by
      rw [a5]
      show [] ++ _ = _
      rw [List.nil_append, ← k1, List.map_map]
      refine List.map_congr_left fun x hx => ?_
      show _ = x.1.codec.map restoredCodec
      rw [(k2 x hx).codec]; rfl
    have e2 : ∀ (l : List RTrack) (k : List (Option Codec)) (f : RTrack → Nat × Nat × Int × List (Nat × Int × Bool × Nat × Res Bytes)),
        (l.zip k).map (fun x => (f x.1, x.2)) = (l.map f).zip k := by
      intro l
      induction l with
      | nil => intro k f; rfl
      | cons x l ih =>
        intro k f
        cases k with
        | nil => rfl
        | cons y k => rw [List.zip_cons_cons, List.map_cons, List.map_cons, List.zip_cons_cons, ih]
    rw [e2, c3, hcod, List.map_map]
    exact file_zip_map us _ _

/-! ## Theorems -/

/-- Offsets are not what makes a track good. -/
theorem shared_good {heap heap' : List Sample} (h : heap'.map unplaced = heap.map unplaced) (t : PMP4Heap.Track)
    (hg : FileGood (sharedValue heap t)) : FileGood (sharedValue heap' t) ∧
      given (sharedValue heap' t).toTrack = given (sharedValue heap t).toTrack := by
  have hu : ∀ a, unplaced (sharedAt heap' a) = unplaced (sharedAt heap a) := shared_at_map h
  have hs : (sharedValue heap' t).samples.map unplaced = (sharedValue heap t).samples.map unplaced := by
    unfold sharedValue
    rw [List.map_map, List.map_map]
    exact List.map_congr_left fun a _ => hu a
  have hmem : ∀ sa ∈ (sharedValue heap' t).samples, ∃ sb ∈ (sharedValue heap t).samples, unplaced sb = unplaced sa := by
    intro sa hsa
    have := List.mem_map_of_mem (f := unplaced) hsa
    rw [hs] at this
    exact List.mem_map.mp this
  refine ⟨⟨?_, hg.timeScale, ?_, hg.codec⟩, ?_⟩
  · have := pmp4_writable_layout [(sharedValue heap t).toTrack] ⟨0, [], [(sharedValue heap' t).toTrack]⟩
      (fun u hu => by rw [List.mem_singleton.mp hu]; exact hg.writable) (by
        simp only [List.map_cons, List.map_nil, hs]; rfl)
    exact this _ List.mem_cons_self
  · intro sa hsa
    obtain ⟨sb, hsb, he⟩ := hmem sa hsa
    have : sb.duration = sa.duration := by have := congrArg Sample.duration he; exact this
    rw [← this]; exact hg.duration sb hsb
  · have hgv : ∀ u : PMP4.Track, given u = given { u with samples := u.samples.map unplaced } := by
      intro u; unfold given; simp only [List.map_map]; rfl
    rw [hgv, hgv (sharedValue heap t).toTrack, hs]
    rfl

/-- **C110.** For every memory and all tracks, whose samples may be shared among positions and tracks: the file that is written is read back,
and each position of each track has the sample that was there, payload included. -/
theorem C110_round_trip (heap : List Sample) (ts : List PMP4Heap.Track) (file : Bytes) (heap' : List Sample) (hne : ts ≠ [])
    (hv : SharedValid heap ts) (hg : ∀ t ∈ ts, FileGood (sharedValue heap t)) (h : PMP4Heap.marshal heap ts = .ok (file, heap'))
    (hl : file.length < 2 ^ 32) :
    ∃ rts, PMP4File.unmarshal isoFields file = .ok rts ∧
      rts.map (fun x => (seen file x.1, x.2)) = ts.map fun t => (given (sharedValue heap t).toTrack, t.codec.map restoredCodec) := by
  have hw : ∀ t ∈ ts.map (fun t => (sharedValue heap t).toTrack), Writable t := by
    intro t ht
    obtain ⟨u, hu, rfl⟩ := List.mem_map.1 ht
    exact (hg u hu).writable
  obtain ⟨L, _, hL, _⟩ := pmp4_sortSamples (ts.map fun t => (sharedValue heap t).toTrack) (fun t ht _ => (hw t ht).timeScale)
  obtain ⟨H, sorted, s1, s2, s3, s4, s5⟩ := shared_sort heap ts hv L hL
  have hlenH : H.length = heap.length := by simpa using congrArg List.length s2
  unfold PMP4Heap.marshal at h
  rw [s1, Res.bind_ok] at h
  simp only at h
  rw [shared_loadTracks H ts (fun t ht a ha => by rw [hlenH]; exact hv t ht a ha), Res.bind_ok] at h
  obtain ⟨header, hh, h⟩ := Res.bind_eq_ok.1 h
  rw [shared_loadAll H sorted (fun a ha => by rw [hlenH]; exact s3 a ha), Res.bind_ok] at h
  cases h
  have hpl : marshalMdat L.dataSize (sorted.map (sharedAt heap')) = marshalMdat L.dataSize L.sorted := by
    have e1 : (sorted.map (sharedAt heap')).map unplaced = L.sorted.map unplaced := by
      rw [← s4, List.map_map]
      exact List.map_congr_left fun a _ => shared_at_map s2 a
    have e2 : ∀ l : List Sample, l.flatMap (·.payload) = (l.map unplaced).flatMap (·.payload) := by
      intro l; rw [List.flatMap_map]; rfl
    unfold marshalMdat
    rw [e2, e1, ← e2]
  rw [hpl] at hl ⊢
  have hdata := file_data_length _ hw L hL
  rw [List.length_append, hdata] at hl
  obtain ⟨L', e1, hint, h3, h4, h5⟩ := C48_interleaving (ts.map fun t => (sharedValue heap t).toTrack) (fun t ht _ => (hw t ht).timeScale) (by omega)
  rw [hL] at e1
  cases e1
  have hpay := pmp4_payload_layout L (pmp4_writable_layout _ L hw h3) hint
  have hsum := pmp4_sorted_sum _ L hint h3
  have hflat : L.dataSize = (L.sorted.flatMap (·.payload)).length := by
    rw [h5, hsum, List.length_flatMap]
    congr 1
    exact (List.map_congr_left hpay).symm
  have hat : ∀ sa ∈ L.sorted, ((marshalMdat L.dataSize L.sorted).drop (sa.offset + 8)).take sa.payloadSize = sa.payload ∧
      sa.offset + sa.payloadSize ≤ 0 + (L.sorted.map (·.payloadSize)).sum :=
    fun sa hsa => pmp4_payload_at L.sorted 0 _ (by simp) hpay h4 sa hsa
  obtain ⟨rts, r1, r2⟩ := shared_file (ts.map (sharedValue heap')) header L.dataSize L.sorted (by simpa using hne)
    (fun t ht => by obtain ⟨u, hu, rfl⟩ := List.mem_map.mp ht; exact (shared_good s2 u (hg u hu)).1)
    (fun t ht sa hsa => by
      obtain ⟨u, hu, rfl⟩ := List.mem_map.mp ht
      obtain ⟨a, ha, rfl⟩ := List.mem_map.mp hsa
      obtain ⟨p1, p2⟩ := hat _ (s5 u hu a ha)
      refine ⟨p1, ?_⟩
      rw [h5, hsum]
      omega) hflat (by omega) hh
  refine ⟨rts, r1, ?_⟩
  rw [r2, List.map_map]
  refine List.map_congr_left fun t ht => ?_
  show (given (sharedValue heap' t).toTrack, _) = _
  rw [(shared_good s2 t (hg t ht)).2]
  rfl

/-! ## What remains in memory -/

theorem shared_loop_memory : ∀ (n : Nat) (cs : List PMP4Heap.Cursor) (off : Nat) (H : List Sample) (s : List Nat) (size : Nat) (s' : List Nat)
    (H' : List Sample), PMP4Heap.sortLoop n cs off H s = .ok (size, s', H') →
    H'.map unplaced = H.map unplaced ∧ ∀ b, (∀ c ∈ cs, b ∉ c.left) → H'[b]? = H[b]? := by
  intro n
  induction n with
  | zero =>
    intro cs off H s size s' H' h
    unfold PMP4Heap.sortLoop at h
    obtain ⟨b, _, h⟩ := Res.bind_eq_ok.mp h
    cases b with
    | some x => cases h
    | none => cases h; exact ⟨rfl, fun _ _ => rfl⟩
  | succ n ih =>
    intro cs off H s size s' H' h
    unfold PMP4Heap.sortLoop at h
    obtain ⟨b, _, h⟩ := Res.bind_eq_ok.mp h
    cases b with
    | none => cases h; exact ⟨rfl, fun _ _ => rfl⟩
    | some x =>
      obtain ⟨i, e⟩ := x
      simp only at h
      obtain ⟨c, hc, h⟩ := Res.bind_eq_ok.mp h
      obtain ⟨a, ha, h⟩ := Res.bind_eq_ok.mp h
      obtain ⟨sa, hsa, h⟩ := Res.bind_eq_ok.mp h
      obtain ⟨hi, hc⟩ := shared_idx hc
      obtain ⟨h0, ha⟩ := shared_idx ha
      obtain ⟨haH, hsa⟩ := shared_idx hsa
      subst hsa
      obtain ⟨r1, r2⟩ := ih _ _ _ _ _ _ _ h
      refine ⟨r1.trans (shared_set_map H a haH off), fun b hb => ?_⟩
      have hcm : c ∈ cs := by rw [← hc]; exact List.getElem_mem hi
      have hba : a ≠ b := by
        intro e
        subst e
        exact hb c hcm (by rw [← ha]; exact List.getElem_mem h0)
      rw [r2 b fun d hd => ?_, List.getElem?_set_ne hba]
      rcases List.mem_or_eq_of_mem_set hd with hd | hd
      · exact hb d hd
      · subst hd
        exact fun hm => hb c hcm (List.mem_of_mem_drop hm)

/-- Two memories with the same samples, apart from offsets. -/
theorem shared_loop_again : ∀ (n : Nat) (cs : List PMP4Heap.Cursor) (off : Nat) (H K : List Sample) (s : List Nat) (size : Nat) (s' : List Nat)
    (H' : List Sample), H.map unplaced = K.map unplaced → (∀ b, (b ∈ s ∨ ∀ c ∈ cs, b ∉ c.left) → H[b]? = K[b]?) →
    PMP4Heap.sortLoop n cs off H s = .ok (size, s', H') → PMP4Heap.sortLoop n cs off K s = .ok (size, s', H') := by
  have hdone : ∀ (cs : List PMP4Heap.Cursor) (H K : List Sample) (s : List Nat), PMP4Heap.bestTrack 0 cs none = .ok none →
      (∀ b, (b ∈ s ∨ ∀ c ∈ cs, b ∉ c.left) → H[b]? = K[b]?) → H = K := by
    intro cs H K s hb h
    refine List.ext_getElem? fun b => h b (.inr fun c hc hm => ?_)
    rw [shared_best_none cs 0 hb c hc] at hm
    cases hm
  intro n
  induction n with
  | zero =>
    intro cs off H K s size s' H' h1 h2 h
    unfold PMP4Heap.sortLoop at h ⊢
    obtain ⟨b, hb, h⟩ := Res.bind_eq_ok.mp h
    cases b with
    | some x => cases h
    | none => rw [hb, Res.bind_ok, ← hdone cs H K s hb h2]; exact h
  | succ n ih =>
    intro cs off H K s size s' H' h1 h2 h
    unfold PMP4Heap.sortLoop at h ⊢
    obtain ⟨b, hb, h⟩ := Res.bind_eq_ok.mp h
    cases b with
    | none => rw [hb, Res.bind_ok, ← hdone cs H K s hb h2]; exact h
    | some x =>
      obtain ⟨i, e⟩ := x
      simp only at h
      obtain ⟨c, hc, h⟩ := Res.bind_eq_ok.mp h
      obtain ⟨a, ha, h⟩ := Res.bind_eq_ok.mp h
      obtain ⟨sa, hsa, h⟩ := Res.bind_eq_ok.mp h
      obtain ⟨haH, hsa⟩ := shared_idx hsa
      have hlen : H.length = K.length := by simpa using congrArg List.length h1
      have haK : a < K.length := by omega
      have hun : unplaced sa = unplaced K[a] := by
        rw [← hsa, ← shared_at_lt haH, ← shared_at_lt haK]; exact shared_at_map h1 a
      have hd : K[a].duration = sa.duration := by have := congrArg Sample.duration hun; exact this.symm
      have hz : K[a].payloadSize = sa.payloadSize := by have := congrArg Sample.payloadSize hun; exact this.symm
      rw [hb, Res.bind_ok]
      simp only
      rw [hc, Res.bind_ok, ha, Res.bind_ok, idx_of_lt haK, Res.bind_ok, ← shared_unplaced hun off, hd, hz]
      refine ih _ _ _ _ _ _ _ _ ?_ (fun b hb => ?_) h
      · rw [← hsa, shared_set_map H a haH, h1, List.map_set]
        have : unplaced { H[a] with offset := off } = (K.map unplaced)[a]'(by simpa using haK) := by
          rw [List.getElem_map, ← hun, ← hsa]; rfl
        rw [this, List.set_getElem_self]
      · by_cases hba : a = b
        · subst hba
          rw [List.getElem?_set_self haH, List.getElem?_set_self haK]
        · rw [List.getElem?_set_ne hba, List.getElem?_set_ne hba]
          refine h2 b ?_
          rcases hb with hb | hb
          · rcases List.mem_cons.mp hb with hb | hb
            · exact absurd hb.symm hba
            · exact .inl hb
          · right
            intro d hd hm
            obtain ⟨hi, hc⟩ := shared_idx hc
            obtain ⟨h0, ha⟩ := shared_idx ha
            obtain ⟨j, hj, hdj⟩ := List.mem_iff_getElem.mp hd
            by_cases hji : j = i
            · subst hji
              rw [hc] at hdj
              subst hdj
              cases hl : c.left with
              | nil => rw [hl] at hm; cases hm
              | cons y l =>
                rw [hl] at hm
                simp only [hl, List.getElem_cons_zero] at ha
                rcases List.mem_cons.mp hm with e | e
                · exact hba (by rw [e, ha])
                · refine hb _ (List.mem_iff_getElem.mpr ⟨j, by simpa using hj, List.getElem_set_self (by simpa using hj)⟩) ?_
                  simp only [hl, List.drop_succ_cons, List.drop_zero]
                  exact e
            · refine hb d (List.mem_iff_getElem.mpr ⟨j, by simpa using hj, ?_⟩) hm
              rw [List.getElem_set_ne (fun e => hji e.symm)]
              exact hdj

theorem shared_marshal {heap : List Sample} {ts : List PMP4Heap.Track} {file : Bytes} {heap' : List Sample}
    (h : PMP4Heap.marshal heap ts = .ok (file, heap')) :
    ∃ size sorted, PMP4Heap.sortLoop ((ts.map (·.samples.length)).sum) (ts.map fun t => (⟨t.timeScale, t.timeOffset, t.samples⟩ : PMP4Heap.Cursor)) 0
      heap [] = .ok (size, sorted, heap') := by
  unfold PMP4Heap.marshal PMP4Heap.sortSamples at h
  obtain ⟨⟨size, sorted, H⟩, h0, h⟩ := Res.bind_eq_ok.mp h
  obtain ⟨⟨size', sorted', H'⟩, h1, h2⟩ := Res.bind_eq_ok.mp h0
  cases h2
  simp only at h
  obtain ⟨tracks, _, h⟩ := Res.bind_eq_ok.mp h
  obtain ⟨header, _, h⟩ := Res.bind_eq_ok.mp h
  obtain ⟨data, _, h⟩ := Res.bind_eq_ok.mp h
  cases h
  exact ⟨_, _, h1⟩

/-- **C110.** Of the samples that are given, only the offset is written; other samples are not written to. -/
theorem C110_memory (heap : List Sample) (ts : List PMP4Heap.Track) (file : Bytes) (heap' : List Sample)
    (h : PMP4Heap.marshal heap ts = .ok (file, heap')) :
    heap'.map unplaced = heap.map unplaced ∧ ∀ b, (∀ t ∈ ts, b ∉ t.samples) → heap'[b]? = heap[b]? := by
  obtain ⟨size, sorted, h⟩ := shared_marshal h
  obtain ⟨r1, r2⟩ := shared_loop_memory _ _ _ _ _ _ _ _ h
  refine ⟨r1, fun b hb => r2 b fun c hc => ?_⟩
  obtain ⟨t, ht, rfl⟩ := List.mem_map.mp hc
  exact hb t ht

/-- **C110.** Writing does not depend on the offsets that are in the samples: when the same presentation is written again, the file is the same, and
memory does not change anymore. -/
theorem C110_again (heap : List Sample) (ts : List PMP4Heap.Track) (file : Bytes) (heap' : List Sample)
    (h : PMP4Heap.marshal heap ts = .ok (file, heap')) : PMP4Heap.marshal heap' ts = .ok (file, heap') := by
  obtain ⟨size, sorted, hs⟩ := shared_marshal h
  obtain ⟨r1, r2⟩ := shared_loop_memory _ _ _ _ _ _ _ _ hs
  have hs' := shared_loop_again _ _ _ _ heap' _ _ _ _ r1.symm (fun b hb => by
    rcases hb with hb | hb
    · cases hb
    · exact (r2 b hb).symm) hs
  have e : PMP4Heap.sortSamples heap' ts = PMP4Heap.sortSamples heap ts := by
    unfold PMP4Heap.sortSamples
    simp only
    rw [hs, hs']
  unfold PMP4Heap.marshal at h ⊢
  rw [e]; exact h

/-! ## Without sharing -/

/-- No sample is present twice. -/
structure Unshared (ts : List PMP4Heap.Track) : Prop where
  inside : ∀ t ∈ ts, t.samples.Nodup
  across : ∀ (i j : Nat) (t u : PMP4Heap.Track), ts[i]? = some t → ts[j]? = some u → i ≠ j → ∀ a ∈ t.samples, a ∉ u.samples

def sharedFull (c : PMP4.Cursor) : Nat × Int × List Sample × List Sample := (c.timeScale, c.elapsed, c.done, c.left)

/-- A cursor and the addresses that were laid out. -/
def sharedFullH (heap : List Sample) (x : PMP4Heap.Cursor × List Nat) : Nat × Int × List Sample × List Sample :=
  (x.1.timeScale, x.1.elapsed, x.2.map (sharedAt heap), x.1.left.map (sharedAt heap))

theorem shared_map_set (H : List Sample) (a : Nat) (ha : a < H.length) (sa : Sample) (l : List Nat) (h : a ∉ l) :
    l.map (sharedAt (H.set a sa)) = l.map (sharedAt H) := by
  refine List.map_congr_left fun b hb => ?_
  rw [shared_at_set H a b ha, if_neg]
  intro e; subst e; exact h hb

theorem shared_loop_distinct : ∀ (n : Nat) (cs : List PMP4.Cursor) (xs : List (PMP4Heap.Cursor × List Nat)) (off : Nat) (sorted : List Sample)
    (H : List Sample) (sortedH : List Nat) (size : Nat) (sorted' : List Sample) (cs' : List PMP4.Cursor),
    cs.map sharedFull = xs.map (sharedFullH H) → (∀ x ∈ xs, ∀ a ∈ x.1.left, a < H.length) →
    (∀ x ∈ xs, x.1.left.Nodup) → (∀ (i j : Nat) (x y : PMP4Heap.Cursor × List Nat), xs[i]? = some x → xs[j]? = some y → i ≠ j → ∀ a ∈ x.1.left, a ∉ y.1.left) →
    (∀ x ∈ xs, ∀ y ∈ xs, ∀ a ∈ x.2, a ∉ y.1.left) → (∀ a ∈ sortedH, ∀ y ∈ xs, a ∉ y.1.left) → (∀ a ∈ sortedH, a < H.length) →
    sorted = sortedH.map (sharedAt H) → PMP4.sortLoop n cs off sorted = .ok (size, sorted', cs') →
    ∃ (H' : List Sample) (sortedH' : List Nat) (xs' : List (PMP4Heap.Cursor × List Nat)), PMP4Heap.sortLoop n (xs.map (·.1)) off H sortedH = .ok (size, sortedH', H') ∧ H'.length = H.length ∧
      (∀ a ∈ sortedH', a < H.length) ∧ sorted' = sortedH'.map (sharedAt H') ∧ cs'.map sharedFull = xs'.map (sharedFullH H') ∧
      xs'.map (fun x => x.2.reverse ++ x.1.left) = xs.map fun x => x.2.reverse ++ x.1.left := by
  have hcore : ∀ (cs : List PMP4.Cursor) (xs : List (PMP4Heap.Cursor × List Nat)) (H : List Sample), cs.map sharedFull = xs.map (sharedFullH H) →
      cs.map sharedCore = (xs.map (·.1)).map (sharedCoreH H) := by
    intro cs xs H h
    have := congrArg (List.map fun v : Nat × Int × List Sample × List Sample => (v.1, v.2.1, v.2.2.2)) h
    rw [List.map_map, List.map_map] at this
    rw [List.map_map]
    exact this
  intro n
  induction n with
  | zero =>
    intro cs xs off sorted H sortedH size sorted' cs' h1 h2 h3 h4 h5 h6 h7 h8 h
    unfold PMP4.sortLoop at h
    obtain ⟨b, hb, h⟩ := Res.bind_eq_ok.mp h
    cases b with
    | some x => cases h
    | none =>
      cases h
      refine ⟨H, sortedH, xs, ?_, rfl, h7, h8, h1, rfl⟩
      unfold PMP4Heap.sortLoop
      rw [shared_best H _ cs 0 none (hcore cs xs H h1), hb, Res.bind_ok]
  | succ n ih =>
    intro cs xs off sorted H sortedH size sorted' cs' h1 h2 h3 h4 h5 h6 h7 h8 h
    unfold PMP4.sortLoop at h
    obtain ⟨b, hb, h⟩ := Res.bind_eq_ok.mp h
    have hbH := (shared_best H _ cs 0 none (hcore cs xs H h1)).trans hb
    cases b with
    | none =>
      cases h
      refine ⟨H, sortedH, xs, ?_, rfl, h7, h8, h1, rfl⟩
      unfold PMP4Heap.sortLoop
      rw [hbH, Res.bind_ok]
    | some x =>
      obtain ⟨i, e⟩ := x
      simp only at h
      obtain ⟨c, hc, h⟩ := Res.bind_eq_ok.mp h
      obtain ⟨sa, hsa, h⟩ := Res.bind_eq_ok.mp h
      obtain ⟨hi, hc⟩ := shared_idx hc
      have hlen : cs.length = xs.length := by simpa using congrArg List.length h1
      have hix : i < xs.length := by omega
      have hfull : sharedFull c = sharedFullH H xs[i] := by
        have e1 : (cs.map sharedFull)[i]? = (xs.map (sharedFullH H))[i]? := by rw [h1]
        rw [List.getElem?_map, List.getElem?_map, List.getElem?_eq_getElem hi, List.getElem?_eq_getElem hix, hc] at e1
        exact Option.some.inj e1
      have hxi : xs[i]? = some xs[i] := List.getElem?_eq_getElem hix
      generalize hx : xs[i] = x at hfull hxi
      simp only [sharedFull, sharedFullH, Prod.mk.injEq] at hfull
      obtain ⟨q1, q2, q3, q4⟩ := hfull
      have hmem : x ∈ xs := by rw [← hx]; exact List.getElem_mem hix
      cases hl : x.1.left with
      | nil => rw [q4, hl] at hsa; cases hsa
      | cons a l =>
        have ham : a ∈ x.1.left := by rw [hl]; exact List.mem_cons_self
        have haH : a < H.length := h2 x hmem a ham
        have hal : a ∉ l := by have := h3 x hmem; rw [hl] at this; exact (List.nodup_cons.mp this).1
        rw [q4, hl, List.map_cons, idx_zero_cons] at hsa
        cases hsa
        rw [shared_at_lt haH] at h
        let x' : PMP4Heap.Cursor × List Nat := (⟨x.1.timeScale, TS.wrap64 (x.1.elapsed + H[a].duration), l⟩, a :: x.2)
        have hxs' : ∀ y ∈ xs.set i x', y ∈ xs ∨ y = x' := fun y hy => List.mem_or_eq_of_mem_set hy
        have hleft : ∀ y ∈ xs.set i x', ∃ z ∈ xs, ∀ b ∈ y.1.left, b ∈ z.1.left := by
          intro y hy
          rcases hxs' y hy with hy | hy
          · exact ⟨y, hy, fun b hb => hb⟩
          · subst hy
            exact ⟨x, hmem, fun b hb => by rw [hl]; exact List.mem_cons_of_mem _ hb⟩
        have haleft : ∀ y ∈ xs.set i x', a ∉ y.1.left := by
          intro y hy
          obtain ⟨j, hj⟩ := List.mem_iff_getElem?.mp hy
          by_cases hji : i = j
          · subst hji
            rw [List.getElem?_set_self hix] at hj
            cases hj
            exact hal
          · rw [List.getElem?_set_ne hji] at hj
            exact h4 i j x y hxi hj hji a ham
        obtain ⟨H', sortedH', xs', r1, r2, r3, r4, r5, r6⟩ := ih _ (xs.set i x') _ _ (H.set a { H[a] with offset := off }) (a :: sortedH)
          size sorted' cs' (by
            refine List.ext_getElem? fun j => ?_
            rw [List.getElem?_map, List.getElem?_map]
            by_cases hji : i = j
            · subst hji
              rw [List.getElem?_set_self hi, List.getElem?_set_self hix, Option.map_some, Option.map_some]
              congr 1
              simp only [sharedFull, sharedFullH, x', Prod.mk.injEq, List.map_cons]
              refine ⟨q1, by rw [q2], ?_, ?_⟩
              · rw [shared_at_set H a a haH, if_pos rfl, shared_map_set H a haH _ _ (fun hm => h5 x hmem x hmem a hm ham), q3]
              · rw [shared_map_set H a haH _ _ hal, q4, hl]; rfl
            · rw [List.getElem?_set_ne hji, List.getElem?_set_ne hji]
              have e1 : (cs.map sharedFull)[j]? = (xs.map (sharedFullH H))[j]? := by rw [h1]
              rw [List.getElem?_map, List.getElem?_map] at e1
              rw [e1]
              cases hy : xs[j]? with
              | none => rfl
              | some y =>
                rw [Option.map_some, Option.map_some]
                congr 1
                simp only [sharedFullH, Prod.mk.injEq, true_and]
                have hym : y ∈ xs := List.mem_iff_getElem?.mpr ⟨j, hy⟩
                exact ⟨(shared_map_set H a haH _ _ (fun hm => h5 y hym x hmem a hm ham)).symm,
                  (shared_map_set H a haH _ _ (h4 i j x y hxi hy hji a ham)).symm⟩)
          (by
            intro y hy b hb
            obtain ⟨z, hz, hzl⟩ := hleft y hy
            rw [List.length_set]
            exact h2 z hz b (hzl b hb))
          (by
            intro y hy
            rcases hxs' y hy with hy | hy
            · exact h3 y hy
            · subst hy
              have := h3 x hmem
              rw [hl] at this
              exact (List.nodup_cons.mp this).2)
          (by
            have hget : ∀ (j : Nat) (y : PMP4Heap.Cursor × List Nat), (xs.set i x')[j]? = some y → ∃ z : PMP4Heap.Cursor × List Nat, xs[j]? = some z ∧ ∀ b ∈ y.1.left, b ∈ z.1.left := by
              intro j y hy
              by_cases hji : i = j
              · subst hji
                rw [List.getElem?_set_self hix] at hy
                cases hy
                exact ⟨x, hxi, fun b hb => by rw [hl]; exact List.mem_cons_of_mem _ hb⟩
              · rw [List.getElem?_set_ne hji] at hy
                exact ⟨y, hy, fun b hb => hb⟩
            intro j k y z hy hz hjk b hb hbz
            obtain ⟨y', hy', s1⟩ := hget j y hy
            obtain ⟨z', hz', s2⟩ := hget k z hz
            exact h4 j k y' z' hy' hz' hjk b (s1 b hb) (s2 b hbz))
          (by
            intro y hy z hz b hb hbz
            obtain ⟨z', hz', s⟩ := hleft z hz
            rcases hxs' y hy with hy | hy
            · exact h5 y hy z' hz' b hb (s b hbz)
            · subst hy
              rcases List.mem_cons.mp hb with e | e
              · subst e; exact haleft z hz hbz
              · exact h5 x hmem z' hz' b e (s b hbz))
          (by
            intro b hb z hz hbz
            rcases List.mem_cons.mp hb with e | e
            · subst e; exact haleft z hz hbz
            · obtain ⟨z', hz', s⟩ := hleft z hz
              exact h6 b e z' hz' (s b hbz))
          (by
            intro b hb
            rw [List.length_set]
            rcases List.mem_cons.mp hb with e | e
            · subst e; exact haH
            · exact h7 b e)
          (by
            rw [List.map_cons, shared_at_set H a a haH, if_pos rfl, shared_map_set H a haH _ _ (fun hm => h6 a hm x hmem ham), h8]) h
        refine ⟨H', sortedH', xs', ?_, by rw [r2, List.length_set], fun b hb => by have := r3 b hb; rwa [List.length_set] at this, r4, r5, ?_⟩
        · unfold PMP4Heap.sortLoop
          rw [hbH, Res.bind_ok]
          simp only
          rw [idx_of_lt (by simpa using hix), List.getElem_map, hx, Res.bind_ok, hl, idx_zero_cons, Res.bind_ok, idx_of_lt haH, Res.bind_ok]
          rw [List.map_set] at r1
          exact r1
        · rw [r6, List.map_set]
          have : x'.2.reverse ++ x'.1.left = (xs.map fun x => x.2.reverse ++ x.1.left)[i]'(by simpa using hix) := by
            rw [List.getElem_map, hx, hl]
            simp [x']
          rw [this, List.set_getElem_self]

/-- **C110.** Without sharing, the file is the one that is written when samples are values (C81). -/
theorem C110_distinct (heap : List Sample) (ts : List PMP4Heap.Track) (hv : SharedValid heap ts) (hu : Unshared ts)
    (hts : ∀ t ∈ ts, t.timeScale ≠ 0) :
    ∃ heap', PMP4Heap.marshal heap ts = (PMP4File.marshal (ts.map (sharedValue heap))).bind fun file => .ok (file, heap') := by
  obtain ⟨L, _, hL, _⟩ := pmp4_sortSamples (ts.map fun t => (sharedValue heap t).toTrack) (fun t ht _ => by
    obtain ⟨u, hu, rfl⟩ := List.mem_map.mp ht
    exact hts u hu)
  have hL' := hL
  unfold PMP4.sortSamples at hL
  obtain ⟨⟨size, sorted, cs⟩, h0, h⟩ := Res.bind_eq_ok.mp hL
  simp only at h
  obtain ⟨H, sortedH, xs', r1, r2, r3, r4, r5, r6⟩ := shared_loop_distinct _ _
    (ts.map fun t => ((⟨t.timeScale, t.timeOffset, t.samples⟩, []) : PMP4Heap.Cursor × List Nat)) 0 [] heap [] size sorted cs
    (by rw [List.map_map, List.map_map, List.map_map]; rfl)
    (by
      intro x hx a ha
      obtain ⟨t, ht, rfl⟩ := List.mem_map.mp hx
      exact hv t ht a ha)
    (by
      intro x hx
      obtain ⟨t, ht, rfl⟩ := List.mem_map.mp hx
      exact hu.inside t ht)
    (by
      intro i j x y hx hy hij
      rw [List.getElem?_map] at hx hy
      obtain ⟨t, ht, rfl⟩ := Option.map_eq_some_iff.mp hx
      obtain ⟨u, hu', rfl⟩ := Option.map_eq_some_iff.mp hy
      exact hu.across i j t u ht hu' hij)
    (by
      intro x hx y _ a ha
      obtain ⟨t, ht, rfl⟩ := List.mem_map.mp hx
      cases ha)
    (fun a ha => (by cases ha)) (fun a ha => (by cases ha)) rfl h0
  have e : (ts.map fun t => (sharedValue heap t).toTrack).map (fun t => t.samples.length) = ts.map fun t => t.samples.length := by
    rw [List.map_map]
    refine List.map_congr_left fun t _ => ?_
    simp [sharedValue]
  rw [e, List.map_map] at r1
  have hsort : PMP4Heap.sortSamples heap ts = .ok (size, sortedH.reverse, H) := by
    unfold PMP4Heap.sortSamples
    simp only
    have e2 : (ts.map fun t => (⟨t.timeScale, t.timeOffset, t.samples⟩ : PMP4Heap.Cursor)) =
        ts.map ((·.1) ∘ fun t => ((⟨t.timeScale, t.timeOffset, t.samples⟩, []) : PMP4Heap.Cursor × List Nat)) := rfl
    rw [e2, r1, Res.bind_ok]
  have hlast : cs.map (fun c => c.done.reverse ++ c.left) = ts.map fun t => t.samples.map (sharedAt H) := by
    have e1 : cs.map (fun c => c.done.reverse ++ c.left) = (cs.map sharedFull).map fun v => v.2.2.1.reverse ++ v.2.2.2 := by
      rw [List.map_map]; rfl
    rw [e1, r5, List.map_map]
    have e2 : xs'.map ((fun v : Nat × Int × List Sample × List Sample => v.2.2.1.reverse ++ v.2.2.2) ∘ sharedFullH H) =
        (xs'.map fun x => x.2.reverse ++ x.1.left).map (List.map (sharedAt H)) := by
      rw [List.map_map]
      refine List.map_congr_left fun x _ => ?_
      simp [sharedFullH]
    rw [e2, r6, List.map_map, List.map_map]
    refine List.map_congr_left fun t _ => ?_
    simp
  have hpl : placed (ts.map (sharedValue heap)) L.tracks = ts.map (sharedValue H) := by
    cases h
    unfold placed
    refine List.ext_getElem? fun j => ?_
    have e1 : (cs.map (fun c => c.done.reverse ++ c.left))[j]? = (ts.map fun t => t.samples.map (sharedAt H))[j]? := by rw [hlast]
    rw [List.getElem?_map, List.getElem?_map] at e1
    simp only [List.getElem?_zipWith, List.getElem?_map]
    cases hj : ts[j]? with
    | none => rfl
    | some t =>
      rw [hj, Option.map_some] at e1
      obtain ⟨c, hc, e1⟩ := Option.map_eq_some_iff.mp e1
      rw [hc]
      simp only [Option.map_some]
      rw [e1]
      rfl
  have hLd : L.dataSize = size ∧ L.sorted = sorted.reverse := by cases h; exact ⟨rfl, rfl⟩
  refine ⟨H, ?_⟩
  unfold PMP4Heap.marshal PMP4File.marshal
  rw [hsort, Res.bind_ok]
  simp only
  rw [shared_loadTracks H ts (fun t ht a ha => by rw [r2]; exact hv t ht a ha), Res.bind_ok, List.map_map]
  have e3 : ts.map ((·.toTrack) ∘ sharedValue heap) = ts.map fun t => (sharedValue heap t).toTrack := rfl
  rw [e3, hL', Res.bind_ok, hpl, hLd.1, hLd.2, r4]
  cases hh : PMP4File.marshalFtypAndMoov (ts.map (sharedValue H)) with
  | ok header =>
    rw [Res.bind_ok, Res.bind_ok, shared_loadAll H _ (fun a ha => by rw [r2]; exact r3 a (List.mem_reverse.mp ha)), Res.bind_ok, List.map_reverse]
    rfl
  | err m => rfl
  | panic => rfl

/-! ## Examples -/

/-- Three samples. -/
def sharedHeap : List Sample :=
  [⟨90000, 45000, false, 2, [1, 2], 0⟩, ⟨90000, -45000, true, 3, [3, 4, 5], 0⟩, ⟨90000, 0, false, 0, [], 7⟩]

/-- The first sample is present three times, in both tracks; the third one is not present. -/
def sharedTracks : List PMP4Heap.Track :=
  [⟨1, 90000, -90000, some (.mjpeg 640 480), [0, 1, 0]⟩, ⟨2, 90000, 0, some (.opus 2), [0, 1]⟩]

example : sharedTracks ≠ [] ∧ SharedValid sharedHeap sharedTracks ∧ ∀ t ∈ sharedTracks, FileGood (sharedValue sharedHeap t) := by
  have hm : 2 ≤ PMP4.maxSamples ∧ 3 ≤ PMP4.maxSamples := by decide
  refine ⟨List.cons_ne_nil _ _, by unfold SharedValid; decide, ?_⟩
  intro t ht
  simp only [sharedTracks, List.mem_cons, List.not_mem_nil, or_false] at ht
  rcases ht with rfl | rfl
  · exact ⟨⟨by decide, by decide, by decide, hm.2, by decide, by decide⟩, by decide, by decide, fun c hc => by cases hc; exact ⟨by decide, by decide⟩⟩
  · exact ⟨⟨by decide, by decide, by decide, hm.1, by decide, by decide⟩, by decide, by decide, fun c hc => by cases hc; exact ⟨by decide, by decide⟩⟩

/-- What is written has the payload of the first sample three times; in memory it has the last offset. -/
example : (PMP4Heap.marshal sharedHeap sharedTracks).bind (fun x => .ok (x.1.drop (x.1.length - 20), x.2.map (·.offset), decide (x.1.length < 2 ^ 32))) =
    .ok ([0, 0, 0, 20, 0x6D, 0x64, 0x61, 0x74, 1, 2, 3, 4, 5, 1, 2, 1, 2, 3, 4, 5], [7, 9, 7], true) := by decide +kernel

/-- Tracks that satisfy the hypotheses of `C110_distinct`. -/
def sharedApart : List PMP4Heap.Track :=
  [⟨1, 90000, -90000, some (.mjpeg 640 480), [1, 0]⟩, ⟨2, 90000, 0, some (.opus 2), [2]⟩]

example : SharedValid sharedHeap sharedApart ∧ Unshared sharedApart ∧ ∀ t ∈ sharedApart, t.timeScale ≠ 0 := by
  refine ⟨by unfold SharedValid; decide, ⟨by decide, ?_⟩, by decide⟩
  intro i j t u hi hj hij
  match i, j with
  | 0, 0 => exact absurd rfl hij
  | 1, 1 => exact absurd rfl hij
  | 0, 1 => cases hi; cases hj; decide
  | 1, 0 => cases hi; cases hj; decide
  | n + 2, _ => cases hi
  | _, n + 2 => cases hj

/-- **C110.** With sharing, the file may be another one than that of the same samples as values: chunks are different. Here a track has the same
sample twice. -/
theorem C110_sharing_changes_file : ¬∀ (heap : List Sample) (ts : List PMP4Heap.Track), SharedValid heap ts → (∀ t ∈ ts, t.timeScale ≠ 0) →
    ∃ heap', PMP4Heap.marshal heap ts = (PMP4File.marshal (ts.map (sharedValue heap))).bind fun file => .ok (file, heap') := by
  intro h
  obtain ⟨heap', h⟩ := h sharedHeap [⟨1, 90000, 0, some (.opus 2), [0, 0]⟩] (by unfold SharedValid; decide) (by decide)
  have h' := congrArg (fun r : Res (Bytes × List Sample) => r.bind fun x => .ok x.1.length) h
  have e1 : (PMP4Heap.marshal sharedHeap [⟨1, 90000, 0, some (.opus 2), [0, 0]⟩]).bind (fun x => .ok x.1.length) = .ok (648 : Nat) := by decide +kernel
  have e2 : (PMP4File.marshal ([⟨1, 90000, 0, some (.opus 2), [0, 0]⟩].map (sharedValue sharedHeap))).bind (fun f => .ok f.length) = .ok (644 : Nat) := by
    decide +kernel
  obtain ⟨f, hf, e2⟩ := Res.bind_eq_ok.1 e2
  have e3 : f.length = 644 := by injection e2
  rw [hf] at h'
  have h'' : Res.ok 648 = Res.ok f.length := e1.symm.trans h'
  rw [e3] at h''
  cases h''

/-- A nil pointer. -/
example : PMP4Heap.marshal sharedHeap [⟨1, 90000, 0, some (.opus 2), [0, 3]⟩] = .panic := by decide +kernel

end Verif.Props
