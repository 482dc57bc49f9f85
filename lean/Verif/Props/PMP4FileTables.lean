import Verif.Model.PMP4File
import Verif.Props.MP4BoxesRead
import Verif.Props.PMP4RoundTrip

/-!
# Sample tables as bytes
-/

namespace Verif.Props
open PMP4File MP4Box
open PMP4 (Run StscEntry Event Sample marshalSTTS marshalCTTS marshalSTSS marshalSTSC marshalSTSZ marshalSTCO stssNumbers)
open FMP4 (u32)
open Bits (toInt32)
open SampleTables (expand)

theorem mp4t_entries (ws : List Nat) (l : List (List (Nat × Nat))) (rest : Bytes) (hw : ∀ e ∈ l, widths e = ws) (h8 : ws.sum % 8 = 0) :
    decodeEntries ws l.length (encodeEntries l ++ rest) = .ok (l.map fun e => e.map fun f => f.2 % 2 ^ f.1) := by
  induction l with
  | nil => rfl
  | cons e l ih =>
    have he := hw e List.mem_cons_self
    show (unpack ws (encodeEntries (e :: l) ++ rest) >>= _) = _
    have : encodeEntries (e :: l) ++ rest = pack e ++ (encodeEntries l ++ rest) := by
      unfold encodeEntries; rw [List.flatMap_cons, List.append_assoc]
    rw [this, pack_read e ws _ he (by rw [he]; exact h8), Res.bind_ok]
    dsimp only
    rw [ih fun e h => hw e (List.mem_cons_of_mem _ h), Res.bind_ok]
    rfl

theorem mp4t_table (v : Nat) (ws : List Nat) (l : List (List (Nat × Nat))) (hw : ∀ e ∈ l, widths e = ws) (h8 : ws.sum % 8 = 0)
    (hl : l.length < 2 ^ 32) :
    decodeTable ws (encodeTable v l) = .ok (v % 2 ^ 8, l.map fun e => e.map fun f => f.2 % 2 ^ f.1) := by
  unfold decodeTable encodeTable
  rw [pack_read _ _ _ (by rfl) (by simp [widths]), Res.bind_ok]
  show (decodeEntries ws (l.length % 2 ^ 32) (encodeEntries l) >>= _) = _
  have := mp4t_entries ws l [] hw h8
  rw [List.append_nil] at this
  rw [Nat.mod_eq_of_lt hl, this, Res.bind_ok]
  rfl

theorem mp4t_stts (l : List (Run Nat)) (hl : l.length < 2 ^ 32) (h : ∀ e ∈ l, e.count < 2 ^ 32 ∧ e.value < 2 ^ 32) :
    decodeStts (encodeStts l) = .ok l := by
  unfold decodeStts encodeStts
  rw [mp4t_table 0 [32, 32] _ (by
    intro e he
    obtain ⟨x, _, rfl⟩ := List.mem_map.1 he
    rfl) (by decide) (by rwa [List.length_map]), Res.bind_ok]
  dsimp only
  rw [List.map_map, List.map_map]
  conv => rhs; rw [← List.map_id l]
  congr 1
  refine List.map_congr_left fun e he => ?_
  obtain ⟨h1, h2⟩ := h e he
  show (⟨e.count % 2 ^ 32, e.value % 2 ^ 32⟩ : Run Nat) = e
  rw [Nat.mod_eq_of_lt h1, Nat.mod_eq_of_lt h2]

theorem mp4t_ctts (l : List (Run Int)) (hl : l.length < 2 ^ 32)
    (h : ∀ e ∈ l, e.count < 2 ^ 32 ∧ -(2 ^ 31) ≤ e.value ∧ e.value < 2 ^ 31) : decodeCtts (encodeCtts l) = .ok l := by
  unfold decodeCtts encodeCtts
  rw [mp4t_table 1 [32, 32] _ (by
    intro e he
    obtain ⟨x, _, rfl⟩ := List.mem_map.1 he
    rfl) (by decide) (by rwa [List.length_map]), Res.bind_ok]
  dsimp only
  rw [List.map_map, List.map_map]
  conv => rhs; rw [← List.map_id l]
  congr 1
  refine List.map_congr_left fun e he => ?_
  obtain ⟨h1, h2, h3⟩ := h e he
  show (⟨e.count % 2 ^ 32, toInt32 (u32 e.value % 2 ^ 32)⟩ : Run Int) = e
  rw [Nat.mod_eq_of_lt h1]
  have : toInt32 (u32 e.value % 2 ^ 32) = e.value := by unfold toInt32 u32; omega
  rw [this]

theorem mp4t_words (l : List Nat) (hl : l.length < 2 ^ 32) (h : ∀ n ∈ l, n < 2 ^ 32) :
    decodeWords (encodeTable 0 (l.map fun n => [(32, n)])) = .ok l := by
  unfold decodeWords
  rw [mp4t_table 0 [32] _ (by
    intro e he
    obtain ⟨x, _, rfl⟩ := List.mem_map.1 he
    rfl) (by decide) (by rwa [List.length_map]), Res.bind_ok]
  dsimp only
  rw [List.map_map, List.map_map]
  conv => rhs; rw [← List.map_id l]
  congr 1
  refine List.map_congr_left fun e he => ?_
  show e % 2 ^ 32 = e
  exact Nat.mod_eq_of_lt (h e he)

theorem mp4t_stsc (l : List StscEntry) (hl : l.length < 2 ^ 32) (h : ∀ e ∈ l, e.firstChunk < 2 ^ 32 ∧ e.samplesPerChunk < 2 ^ 32) :
    decodeStsc (encodeStsc l) = .ok l := by
  unfold decodeStsc encodeStsc
  rw [mp4t_table 0 [32, 32, 32] _ (by
    intro e he
    obtain ⟨x, _, rfl⟩ := List.mem_map.1 he
    rfl) (by decide) (by rwa [List.length_map]), Res.bind_ok]
  dsimp only
  rw [List.map_map, List.map_map]
  conv => rhs; rw [← List.map_id l]
  congr 1
  refine List.map_congr_left fun e he => ?_
  obtain ⟨h1, h2⟩ := h e he
  show (⟨e.firstChunk % 2 ^ 32, e.samplesPerChunk % 2 ^ 32⟩ : StscEntry) = e
  rw [Nat.mod_eq_of_lt h1, Nat.mod_eq_of_lt h2]

theorem mp4t_stsz (l : List Nat) (hl : l.length < 2 ^ 32) (h : ∀ n ∈ l, n < 2 ^ 32) : decodeStsz (PMP4File.encodeStsz l) = .ok l := by
  unfold decodeStsz PMP4File.encodeStsz
  rw [pack_read _ _ _ (by rfl) (by simp [widths]), Res.bind_ok]
  show (decodeEntries [32] (l.length % 2 ^ 32) (encodeEntries (l.map fun n => [(32, n)])) >>= _) = _
  have := mp4t_entries [32] (l.map fun n => [(32, n)]) [] (by
    intro e he
    obtain ⟨x, _, rfl⟩ := List.mem_map.1 he
    rfl) (by decide)
  rw [List.append_nil, List.length_map] at this
  rw [Nat.mod_eq_of_lt hl, this, Res.bind_ok]
  rw [List.map_map, List.map_map]
  conv => rhs; rw [← List.map_id l]
  congr 1
  refine List.map_congr_left fun e he => ?_
  show e % 2 ^ 32 = e
  exact Nat.mod_eq_of_lt (h e he)

theorem mp4t_mdhd (ts d : Nat) (h1 : ts < 2 ^ 32) (h2 : d < 2 ^ 32) : PMP4File.decodeMdhd (PMP4File.encodeMdhd ts d) = .ok (ts, d) := by
  have ht : timeWidth (PMP4File.encodeMdhd ts d) = 32 := by
    unfold timeWidth PMP4File.encodeMdhd
    rw [if_pos]
    exact pack_head 0 _ (by simp [widths]) (by decide)
  unfold PMP4File.decodeMdhd
  rw [ht]
  unfold PMP4File.encodeMdhd
  dsimp only
  rw [pack_read_all _ _ (by rfl) (by simp [widths]), Res.bind_ok]
  show Res.ok (ts % 2 ^ 32, d % 2 ^ 32) = _
  rw [Nat.mod_eq_of_lt h1, Nat.mod_eq_of_lt h2]

theorem mp4t_tkhd (id d : Nat) (g v w h : Nat) : decodeTkhd (PMP4File.encodeTkhd id d g v w h) = .ok (id % 2 ^ 32) := by
  have ht : timeWidth (PMP4File.encodeTkhd id d g v w h) = 32 := by
    unfold timeWidth PMP4File.encodeTkhd
    rw [if_pos]
    exact pack_head 0 _ (by simp [widths, unity]) (by decide)
  unfold decodeTkhd
  rw [ht]
  unfold PMP4File.encodeTkhd
  dsimp only
  rw [List.append_assoc, pack_group]
  rw [pack_read_all _ _ (by simp [widths, unity]) (by simp [widths, unity]), Res.bind_ok]
  rfl

/-! ## The tables that are written fit -/

theorem mp4t_runs {α : Type} (r : List (Run α)) (hp : ∀ e ∈ r, 0 < e.count) :
    r.length ≤ (expand (runPairs r)).length ∧ ∀ e ∈ r, e.count ≤ (expand (runPairs r)).length ∧ e.value ∈ expand (runPairs r) := by
  induction r with
  | nil => exact ⟨by simp, fun e h => by cases h⟩
  | cons x r ih =>
    obtain ⟨h1, h2⟩ := ih fun e h => hp e (List.mem_cons_of_mem _ h)
    have hx := hp x List.mem_cons_self
    have he : expand (runPairs (x :: r)) = List.replicate x.count x.value ++ expand (runPairs r) := rfl
    rw [he, List.length_append, List.length_replicate]
    refine ⟨by rw [List.length_cons]; omega, fun e h => ?_⟩
    rcases List.mem_cons.1 h with rfl | h
    · exact ⟨by omega, List.mem_append_left _ (List.mem_replicate.2 ⟨by omega, rfl⟩)⟩
    · obtain ⟨g1, g2⟩ := h2 e h
      exact ⟨by omega, List.mem_append_right _ g2⟩

theorem mp4t_describes {f : Nat} {l : List StscEntry} {c : List Nat} (h : Describes f l c) :
    l.length ≤ c.length ∧ ∀ e ∈ l, e.firstChunk < f + c.length ∧ e.samplesPerChunk ∈ c := by
  induction h with
  | nil f => exact ⟨by simp, fun e h => by cases h⟩
  | @cons f k n l c hk _ ih =>
    obtain ⟨h1, h2⟩ := ih
    rw [List.length_append, List.length_replicate]
    refine ⟨by rw [List.length_cons]; omega, fun e h => ?_⟩
    rcases List.mem_cons.1 h with rfl | h
    · exact ⟨by dsimp only; omega, List.mem_append_left _ (List.mem_replicate.2 ⟨by omega, rfl⟩)⟩
    · obtain ⟨g1, g2⟩ := h2 e h
      exact ⟨by omega, List.mem_append_right _ g2⟩

theorem mp4t_stss_bound (samples : List Sample) : ∀ i, i + samples.length < 2 ^ 32 →
    (stssNumbers i samples).length ≤ samples.length ∧ ∀ n ∈ stssNumbers i samples, n < 2 ^ 32 := by
  induction samples with
  | nil => intro i _; exact ⟨by simp [stssNumbers], fun n h => by cases h⟩
  | cons sa l ih =>
    intro i h
    rw [List.length_cons] at h ⊢
    obtain ⟨h1, h2⟩ := ih (i + 1) (by omega)
    unfold stssNumbers
    split
    · exact ⟨by omega, h2⟩
    · refine ⟨by rw [List.length_cons]; omega, fun n hn => ?_⟩
      rcases List.mem_cons.1 hn with rfl | hn
      · omega
      · exact h2 n hn

theorem mp4t_mem_le_sum (c : List Nat) : ∀ x ∈ c, x ≤ c.sum := by
  induction c with
  | nil => intro x h; cases h
  | cons y c ih =>
    intro x h
    rw [List.sum_cons]
    rcases List.mem_cons.1 h with rfl | h
    · omega
    · have := ih x h; omega

theorem mp4t_stsc_bound (samples : List Sample) (stsc : List StscEntry) (hlen : samples.length + 1 < 2 ^ 32)
    (h : marshalSTSC samples = .ok stsc) :
    stsc.length ≤ samples.length ∧ ∀ e ∈ stsc, e.firstChunk < 2 ^ 32 ∧ e.samplesPerChunk < 2 ^ 32 := by
  cases samples with
  | nil => cases h; exact ⟨by simp, fun e h => by cases h⟩
  | cons first l =>
    obtain ⟨r, h1, h2, _⟩ := pmp4_marshalSTSC first l (by omega)
    rw [h] at h1
    cases h1
    obtain ⟨g1, g2⟩ := mp4t_describes h2
    have hs := pmp4_groupSizes_sum l 1 first.end
    have hn := pmp4_length_le_sum _ (pmp4_groupSizes_pos l 1 first.end (by omega))
    rw [List.length_cons] at hlen ⊢
    refine ⟨by omega, fun e he => ?_⟩
    obtain ⟨k1, k2⟩ := g2 e he
    have := mp4t_mem_le_sum _ _ k2
    exact ⟨by omega, by omega⟩

theorem mp4t_stco_length (samples : List Sample) : (marshalSTCO samples).length ≤ samples.length := by
  cases samples with
  | nil => exact Nat.le_refl _
  | cons first l =>
    show (PMP4.stcoLoop l first.end [first.offset]).length ≤ _
    rw [pmp4_stcoLoop, List.length_append]
    have : ∀ (l : List Sample) off, (groupOffsets l off).length ≤ l.length := by
      intro l
      induction l with
      | nil => intro off; exact Nat.le_refl _
      | cons x l ih =>
        intro off
        unfold groupOffsets
        split
        · have := ih x.end; rw [List.length_cons]; omega
        · have := ih x.end; rw [List.length_cons, List.length_cons]; omega
    have := this l first.end
    simp only [List.length_cons, List.length_nil]
    omega

end Verif.Props
