import Verif.Model.PMP4
import Verif.Spec.SampleTables

/-!
# C46: MP4 chunk tables locate every sample
-/

namespace Verif.Props
open PMP4 SampleTables

def stscPairs (l : List StscEntry) : List (Nat × Nat) := l.map fun e => (e.firstChunk, e.samplesPerChunk)

/-- Numbers of samples of the chunks: `k` samples are in the current one, that ends at `off`. -/
def groupSizes : Nat → List Sample → Nat → List Nat
  | k, [], _ => [k]
  | k, sa :: l, off => if sa.offset = off then groupSizes (k + 1) l sa.end else k :: groupSizes 1 l sa.end

/-- Offsets of the chunks after the current one. -/
def groupOffsets : List Sample → Nat → List Nat
  | [], _ => []
  | sa :: l, off => if sa.offset = off then groupOffsets l sa.end else sa.offset :: groupOffsets l sa.end

/-- One entry for each chunk, the first being number `f`. -/
def enumChunks : Nat → List Nat → List StscEntry
  | _, [] => []
  | f, c :: l => ⟨f, c⟩ :: enumChunks (f + 1) l

theorem pmp4_enum_append (a b : List Nat) : ∀ f, enumChunks f (a ++ b) = enumChunks f a ++ enumChunks (f + a.length) b := by
  induction a with
  | nil => intro f; simp [enumChunks]
  | cons x a ih =>
    intro f
    simp only [List.cons_append, enumChunks, ih, List.length_cons]
    congr 3; omega

theorem pmp4_enum_length (a : List Nat) : ∀ f, (enumChunks f a).length = a.length := by
  induction a with
  | nil => intro f; rfl
  | cons x a ih => intro f; simp [enumChunks, ih]

theorem pmp4_stscLoop (l : List Sample) :
    ∀ (p : List Nat) (k off : Nat), p.length + 1 + l.length < 2 ^ 32 → k + l.length < 2 ^ 32 →
      stscLoop l off (enumChunks 1 (p ++ [k])) = .ok (enumChunks 1 (p ++ groupSizes k l off)) := by
  induction l with
  | nil => intro p k off _ _; rfl
  | cons sa l ih =>
    intro p k off h1 h2
    simp only [List.length_cons] at h1 h2
    unfold stscLoop groupSizes
    by_cases ho : sa.offset = off
    · rw [if_pos ho, if_pos ho]
      have hlen : (enumChunks 1 (p ++ [k])).length - 1 = p.length := by simp [pmp4_enum_length]
      have hidx : idx (enumChunks 1 (p ++ [k])) p.length = .ok ⟨p.length + 1, k⟩ := by
        rw [pmp4_enum_append]
        unfold idx
        rw [List.getElem?_append_right (by rw [pmp4_enum_length]; exact Nat.le_refl _), pmp4_enum_length, Nat.sub_self]
        simp [enumChunks, Nat.add_comm]
      rw [hlen, hidx, Res.bind_ok]
      have hset : (enumChunks 1 (p ++ [k])).set p.length ⟨p.length + 1, (k + 1) % 2 ^ 32⟩ = enumChunks 1 (p ++ [k + 1]) := by
        rw [pmp4_enum_append, pmp4_enum_append, List.set_append_right _ _ (by rw [pmp4_enum_length]; exact Nat.le_refl _),
          pmp4_enum_length, Nat.sub_self, Nat.mod_eq_of_lt (by omega)]
        simp [enumChunks, Nat.add_comm]
      simp only [hset]
      exact ih p (k + 1) _ (by omega) (by omega)
    · rw [if_neg ho, if_neg ho]
      have : enumChunks 1 (p ++ [k]) ++ [⟨((enumChunks 1 (p ++ [k])).length + 1) % 2 ^ 32, 1⟩] = enumChunks 1 ((p ++ [k]) ++ [1]) := by
        rw [pmp4_enum_append (p ++ [k]) [1], pmp4_enum_length, Nat.mod_eq_of_lt (by simp; omega)]
        simp [enumChunks, Nat.add_comm]
      rw [this, ih (p ++ [k]) 1 _ (by simp; omega) (by omega)]
      simp

theorem pmp4_stcoLoop (l : List Sample) : ∀ off e, stcoLoop l off e = e ++ groupOffsets l off := by
  induction l with
  | nil => intro off e; simp [stcoLoop, groupOffsets]
  | cons sa l ih =>
    intro off e
    unfold stcoLoop groupOffsets
    rw [ih]
    by_cases ho : sa.offset = off <;> simp [ho]

theorem pmp4_groupSizes_length (l : List Sample) : ∀ k off, (groupSizes k l off).length = (groupOffsets l off).length + 1 := by
  induction l with
  | nil => intro k off; rfl
  | cons sa l ih =>
    intro k off
    unfold groupSizes groupOffsets
    by_cases ho : sa.offset = off
    · rw [if_pos ho, if_pos ho, ih]
    · rw [if_neg ho, if_neg ho, List.length_cons, List.length_cons, ih]

theorem pmp4_groupSizes_sum (l : List Sample) : ∀ k off, (groupSizes k l off).sum = k + l.length := by
  induction l with
  | nil => intro k off; simp [groupSizes]
  | cons sa l ih =>
    intro k off
    unfold groupSizes
    by_cases ho : sa.offset = off
    · rw [if_pos ho, ih]; simp; omega
    · rw [if_neg ho, List.sum_cons, ih]; simp; omega

theorem pmp4_groupSizes_pos (l : List Sample) : ∀ k off, 0 < k → ∀ c ∈ groupSizes k l off, 0 < c := by
  induction l with
  | nil => intro k off hk c hc; simp [groupSizes] at hc; omega
  | cons sa l ih =>
    intro k off hk c hc
    unfold groupSizes at hc
    by_cases ho : sa.offset = off
    · rw [if_pos ho] at hc; exact ih _ _ (by omega) c hc
    · rw [if_neg ho] at hc
      rcases List.mem_cons.mp hc with h | h
      · omega
      · exact ih _ _ (by omega) c h

/-! ## Compression -/

/-- The entries describe the chunks `c`, the first being number `f`. -/
inductive Describes : Nat → List StscEntry → List Nat → Prop
  | nil (f : Nat) : Describes f [] []
  | cons {f k s : Nat} {l : List StscEntry} {c : List Nat} :
      0 < k → Describes (f + k) l c → Describes f (⟨f, s⟩ :: l) (List.replicate k s ++ c)

theorem pmp4_describes_enum (c : List Nat) : ∀ f, Describes f (enumChunks f c) c := by
  induction c with
  | nil => intro f; exact .nil f
  | cons x c ih => intro f; exact .cons (k := 1) (by omega) (ih (f + 1))

theorem pmp4_describes_erase {a b : StscEntry} {l2 : List StscEntry} (hab : b.samplesPerChunk = a.samplesPerChunk) :
    ∀ (l1 : List StscEntry) (f : Nat) (c : List Nat), Describes f (l1 ++ a :: b :: l2) c → Describes f (l1 ++ a :: l2) c := by
  intro l1
  induction l1 with
  | nil =>
    intro f c h
    rw [List.nil_append] at h ⊢
    cases h with
    | cons hk h =>
      cases h with
      | cons hk2 h =>
        simp only at hab
        subst hab
        rw [← List.append_assoc, List.replicate_append_replicate]
        exact .cons (by omega) (by rw [← Nat.add_assoc]; exact h)
  | cons x l1 ih =>
    intro f c h
    rw [List.cons_append] at h ⊢
    cases h with
    | cons hk h => exact .cons hk (ih _ _ h)

theorem pmp4_compress (i : Nat) :
    ∀ (e : List StscEntry) (c : List Nat), i < e.length → Describes 1 e c →
      (∀ j, i ≤ j → (h : j + 1 < e.length) → e[j].samplesPerChunk ≠ e[j + 1].samplesPerChunk) →
      ∃ r, stscCompress i e = .ok r ∧ Describes 1 r c ∧
        ∀ j, (h : j + 1 < r.length) → r[j].samplesPerChunk ≠ r[j + 1].samplesPerChunk := by
  induction i with
  | zero => intro e c _ hd hne; exact ⟨e, rfl, hd, fun j h => hne j (Nat.zero_le _) h⟩
  | succ i ih =>
    intro e c hi hd hne
    unfold stscCompress
    rw [idx_of_lt hi, Res.bind_ok, idx_of_lt (show i < e.length by omega), Res.bind_ok]
    split
    · rename_i heq
      have hsplit : e = e.take i ++ e[i] :: e[i + 1] :: e.drop (i + 2) := by
        rw [← List.drop_eq_getElem_cons hi, ← List.drop_eq_getElem_cons (show i < e.length by omega), List.take_append_drop]
      have herase : e.eraseIdx (i + 1) = e.take i ++ e[i] :: e.drop (i + 2) := by
        rw [List.eraseIdx_eq_take_drop_succ, ← List.take_append_getElem (show i < e.length by omega), List.append_assoc]
        rfl
      refine ih (e.eraseIdx (i + 1)) c ?_ ?_ ?_
      · rw [List.length_eraseIdx_of_lt hi]; omega
      · rw [herase]
        rw [hsplit] at hd
        exact pmp4_describes_erase heq _ _ _ hd
      · intro j hj hlt
        rw [List.length_eraseIdx_of_lt hi] at hlt
        by_cases hji : j = i
        · subst hji
          rw [List.getElem_eraseIdx_of_lt (h' := by omega), List.getElem_eraseIdx_of_ge (h' := by omega), ← heq]
          exact hne (j + 1) (by omega) (by omega)
        · rw [List.getElem_eraseIdx_of_ge (h' := by omega), List.getElem_eraseIdx_of_ge (h' := by omega)]
          exact hne (j + 1) (by omega) (by omega)
    · rename_i heq
      refine ih e c (by omega) hd ?_
      intro j hj hlt
      by_cases hji : j = i
      · subst hji; exact fun h => heq h.symm
      · exact hne j (by omega) hlt

/-- What `marshalSTSC` writes: it describes the groups of contiguous samples, and entries are as few as possible. -/
theorem pmp4_marshalSTSC (first : Sample) (l : List Sample) (h : (first :: l).length < 2 ^ 32) :
    ∃ r, marshalSTSC (first :: l) = .ok r ∧ Describes 1 r (groupSizes 1 l first.end) ∧
      ∀ j, (h : j + 1 < r.length) → r[j].samplesPerChunk ≠ r[j + 1].samplesPerChunk := by
  simp only [List.length_cons] at h
  unfold marshalSTSC
  have := pmp4_stscLoop l [] 1 first.end (by simp; omega) (by omega)
  simp only [List.nil_append, enumChunks] at this
  simp only [this, Res.bind_ok]
  have hpos : 0 < (groupSizes 1 l first.end).length := by rw [pmp4_groupSizes_length]; omega
  apply pmp4_compress
  · rw [pmp4_enum_length]; omega
  · exact pmp4_describes_enum _ _
  · intro j hj hlt; omega

/-! ## Expansion -/

theorem pmp4_foldl_after (n : Nat) (l : List StscEntry) :
    ∀ (f : Nat) (c : List Nat) (cur : Nat), Describes f l c → n < f →
      (stscPairs l).foldl (fun cur e => if e.1 ≤ n then e.2 else cur) cur = cur := by
  induction l with
  | nil => intro f c cur _ _; rfl
  | cons e l ih =>
    intro f c cur h hn
    cases h with
    | cons hk h =>
      simp only [stscPairs, List.map_cons, List.foldl_cons]
      rw [if_neg (by omega)]
      exact ih _ _ _ h (by omega)

theorem pmp4_samplesInChunk (l : List StscEntry) :
    ∀ (f : Nat) (c : List Nat) (cur i : Nat), Describes f l c → (hi : i < c.length) →
      (stscPairs l).foldl (fun cur e => if e.1 ≤ f + i then e.2 else cur) cur = c[i] := by
  induction l with
  | nil => intro f c cur i h hi; cases h; simp at hi
  | cons e l ih =>
    intro f c cur i h hi
    cases h with
    | @cons _ k s _ c hk h =>
      simp only [stscPairs, List.map_cons, List.foldl_cons]
      rw [if_pos (by omega)]
      by_cases hik : i < k
      · rw [List.getElem_append_left (by simpa using hik), List.getElem_replicate]
        exact pmp4_foldl_after _ _ _ _ _ h (by omega)
      · rw [List.getElem_append_right (by simp; omega)]
        have := ih (f + k) c s (i - k) h (by simp at hi; omega)
        rw [show f + k + (i - k) = f + i by omega] at this
        simpa [stscPairs] using this

theorem pmp4_samplesInChunk_list (l : List StscEntry) (c : List Nat) (h : Describes 1 l c) :
    (List.range c.length).map (fun i => samplesInChunk (stscPairs l) (i + 1)) = c := by
  apply List.ext_getElem
  · simp
  · intro i h1 h2
    rw [List.getElem_map, List.getElem_range, Nat.add_comm i 1]
    exact pmp4_samplesInChunk l 1 c 0 i h h2

/-- Samples at consecutive offsets. -/
def Contiguous : Nat → List Sample → Prop
  | _, [] => True
  | off, sa :: l => sa.offset = off ∧ Contiguous (off + sa.payloadSize) l

theorem pmp4_contiguous_append (p : List Sample) (sa : Sample) :
    ∀ o, Contiguous o p → sa.offset = o + (p.map (·.payloadSize)).sum → Contiguous o (p ++ [sa]) := by
  induction p with
  | nil => intro o _ h; exact ⟨by simpa using h, trivial⟩
  | cons x p ih => intro o h1 h2; exact ⟨h1.1, ih _ h1.2 (by simp at h2; omega)⟩

theorem pmp4_chunkLocations (p : List Sample) :
    ∀ o, Contiguous o p → chunkLocations o (p.map (·.payloadSize)) = p.map fun sa => (sa.offset, sa.payloadSize) := by
  induction p with
  | nil => intro o _; rfl
  | cons x p ih =>
    intro o h
    simp only [List.map_cons, chunkLocations]
    rw [ih _ h.2, h.1]

theorem pmp4_locations (l : List Sample) :
    ∀ (p : List Sample) (o off : Nat), Contiguous o p → off = o + (p.map (·.payloadSize)).sum →
      (∀ sa ∈ l, sa.offset + sa.payloadSize < 2 ^ 32) →
      locations (List.zip (groupSizes p.length l off) (o :: groupOffsets l off)) ((p ++ l).map (·.payloadSize)) =
        (p ++ l).map fun sa => (sa.offset, sa.payloadSize) := by
  induction l with
  | nil =>
    intro p o off hc ho _
    simp only [groupSizes, groupOffsets, List.zip_cons_cons, List.zip_nil_left, locations, List.append_nil]
    rw [List.take_of_length_le (by simp), pmp4_chunkLocations p o hc]
  | cons sa l ih =>
    intro p o off hc ho hb
    have hsa : sa.end = sa.offset + sa.payloadSize := Nat.mod_eq_of_lt (hb sa List.mem_cons_self)
    unfold groupSizes groupOffsets
    by_cases hoff : sa.offset = off
    · rw [if_pos hoff, if_pos hoff]
      have := ih (p ++ [sa]) o sa.end (pmp4_contiguous_append p sa o hc (by omega)) (by simp; omega)
        (fun x hx => hb x (List.mem_cons_of_mem _ hx))
      simpa using this
    · rw [if_neg hoff, if_neg hoff, List.zip_cons_cons]
      have := ih [sa] sa.offset sa.end ⟨rfl, trivial⟩ (by simpa using hsa) (fun x hx => hb x (List.mem_cons_of_mem _ hx))
      simp only [locations, List.map_append]
      rw [List.take_left' (by simp), List.drop_left' (by simp), pmp4_chunkLocations p o hc]
      simp only [List.singleton_append, List.length_cons, List.length_nil] at this
      rw [this]

/-- **C46.** For all samples, at any offsets below 4 GiB, the tables that are written for chunks and sizes give back the offset and the
size of every sample, in order. -/
theorem C46_tables (samples : List Sample) (hlen : samples.length < 2 ^ 32)
    (hb : ∀ sa ∈ samples, sa.offset + sa.payloadSize < 2 ^ 32) :
    ∃ stsc, marshalSTSC samples = .ok stsc ∧
      tableLocations (stscPairs stsc) (marshalSTCO samples) (marshalSTSZ samples) =
        samples.map fun sa => (sa.offset, sa.payloadSize) := by
  cases samples with
  | nil => exact ⟨[], rfl, rfl⟩
  | cons first l =>
    obtain ⟨r, h1, h2, _⟩ := pmp4_marshalSTSC first l hlen
    refine ⟨r, h1, ?_⟩
    have hstco : marshalSTCO (first :: l) = first.offset :: groupOffsets l first.end := by
      show stcoLoop l first.end [first.offset] = _
      rw [pmp4_stcoLoop]; rfl
    unfold tableLocations
    rw [hstco, List.length_cons, ← pmp4_groupSizes_length l 1, pmp4_samplesInChunk_list _ _ h2]
    have hfirst : first.end = first.offset + first.payloadSize := Nat.mod_eq_of_lt (hb first List.mem_cons_self)
    have := pmp4_locations l [first] first.offset first.end ⟨rfl, trivial⟩ (by simpa using hfirst)
      (fun x hx => hb x (List.mem_cons_of_mem _ hx))
    simpa [marshalSTSZ] using this

/-- Adjacent entries of the sample-to-chunk table differ. -/
theorem C46_stsc_minimal (samples : List Sample) (hlen : samples.length < 2 ^ 32) (stsc : List StscEntry)
    (h : marshalSTSC samples = .ok stsc) (j : Nat) (hj : j + 1 < stsc.length) :
    stsc[j].samplesPerChunk ≠ stsc[j + 1].samplesPerChunk := by
  cases samples with
  | nil => cases h; simp at hj
  | cons first l =>
    obtain ⟨r, h1, _, h3⟩ := pmp4_marshalSTSC first l hlen
    rw [h1] at h; cases h
    exact h3 j hj

example : marshalSTSC [{ offset := 0, payloadSize := 2 }, { offset := 2, payloadSize := 3 }, { offset := 9, payloadSize := 1 },
    { offset := 10, payloadSize := 1 }, { offset := 30, payloadSize := 4 }] = .ok [⟨1, 2⟩, ⟨3, 1⟩] := by decide

example : marshalSTCO [{ offset := 0, payloadSize := 2 }, { offset := 2, payloadSize := 3 }, { offset := 9, payloadSize := 1 },
    { offset := 10, payloadSize := 1 }, { offset := 30, payloadSize := 4 }] = [0, 9, 30] := by decide

end Verif.Props
