import Verif.Model.JPEG
import Verif.Spec.JPEG
import Verif.Lemmas.BE

/-!
# Property C33: JPEG segments
-/

namespace Verif.Props
open Verif.Spec Verif.JPEG

/-- The tables the decoder can return and the encoder can express: 8-bit precision, 4-bit destination, 64 values. -/
def TableInRange (t : QuantizationTable) : Prop := t.id.toNat < 16 ∧ t.precision = 0 ∧ t.data.length = 64

theorem dqtSize_eq (tables : List QuantizationTable) (h : ∀ t ∈ tables, TableInRange t) (s : Nat) :
    tables.foldl (fun s t => s + (1 + t.data.length)) s = s + 65 * tables.length := by
  induction tables generalizing s with
  | nil => simp
  | cons t l ih =>
    rw [List.foldl_cons, ih (fun x hx => h x (by simp [hx])), (h t (by simp)).2.2, List.length_cons]; omega

theorem dqtBody_length (tables : List QuantizationTable) (h : ∀ t ∈ tables, TableInRange t) :
    (dqtBody (tables.map fun t => (t.id.toNat, t.data))).length = 65 * tables.length := by
  induction tables with
  | nil => simp [dqtBody]
  | cons t l ih =>
    have := ih (fun x hx => h x (by simp [hx]))
    simp only [dqtBody, List.map_cons, List.flatMap_cons, List.length_append, List.length_cons] at this ⊢
    rw [this, (h t (by simp)).2.2]; omega

theorem seg_len (n : Nat) (h : n < 2 ^ 16) :
    (UInt8.ofNat (n >>> 8)).toNat * 256 + (UInt8.ofNat n).toNat = n := by
  simp only [UInt8.toNat_ofNat', Nat.shiftRight_eq_div_pow]; omega

/-- C33: an encoded DQT is a well-formed segment with the T.81 body. Up to 1008 tables fit the length field. -/
theorem C33_dqt_segment (tables : List QuantizationTable) (h : ∀ t ∈ tables, TableInRange t)
    (hn : tables.length ≤ 1008) :
    IsSegment 0xDB (dqtBody (tables.map fun t => (t.id.toNat, t.data))) (dqtMarshal tables) := by
  refine ⟨UInt8.ofNat (dqtSize tables >>> 8), UInt8.ofNat (dqtSize tables), ?_, ?_⟩
  · unfold dqtMarshal dqtBody
    simp only [List.cons_append, List.nil_append, List.flatMap_map, Nat.zero_mul, Nat.zero_add, UInt8.ofNat_toNat]
  · rw [dqtBody_length _ h, seg_len, dqtSize, dqtSize_eq _ h]
    rw [dqtSize, dqtSize_eq _ h]; omega

theorem dqtUnmarshal_nil (acc : List QuantizationTable) : dqtUnmarshal [] acc = .ok acc := by
  rw [dqtUnmarshal]; simp

theorem dqtUnmarshal_cons (b : UInt8) (rest : Bytes) (acc : List QuantizationTable) :
    dqtUnmarshal (b :: rest) acc =
      if b >>> 4 ≠ 0 then .err "precision is not supported"
      else if rest.length < 64 then .err "image is too short"
      else dqtUnmarshal (rest.drop 64) (acc ++ [⟨b &&& 0x0F, b >>> 4, rest.take 64⟩]) := by
  rw [dqtUnmarshal]; simp

theorem dqt_id : ∀ b : UInt8, (b.toNat < 16 → b >>> 4 = 0 ∧ b &&& 0x0F = b) ∧ (b >>> 4 = 0 → b.toNat < 16) :=
  forall_u8 (by decide +kernel)

/-- C33: decoding the body of a DQT segment returns its tables (after those already present). -/
theorem C33_dqt_decode (tables acc : List QuantizationTable) (h : ∀ t ∈ tables, TableInRange t) :
    dqtUnmarshal (dqtBody (tables.map fun t => (t.id.toNat, t.data))) acc = .ok (acc ++ tables) := by
  induction tables generalizing acc with
  | nil => simp [dqtBody, dqtUnmarshal_nil]
  | cons t l ih =>
    obtain ⟨h1, h2, h3⟩ := h t (by simp)
    obtain ⟨e1, e2⟩ := (dqt_id t.id).1 h1
    have hih := ih (acc ++ [t]) (fun x hx => h x (by simp [hx]))
    simp only [dqtBody, List.map_cons, List.flatMap_cons, Nat.zero_mul, Nat.zero_add, UInt8.ofNat_toNat,
      List.cons_append] at hih ⊢
    rw [dqtUnmarshal_cons, if_neg (by simp [e1]), if_neg (by simp; omega), List.drop_left' h3, List.take_left' h3, e1, e2]
    rw [show (⟨t.id, 0, t.data⟩ : QuantizationTable) = t by cases t; simp_all]
    rw [hih]
    simp

/-- C33: decoding a DQT body never panics; what it accepts is exactly a T.81 body. -/
theorem C33_dqt_sound (buf : Bytes) (acc : List QuantizationTable) :
    (dqtUnmarshal buf acc).NoPanic ∧
    ∀ out, dqtUnmarshal buf acc = .ok out → ∃ tables, out = acc ++ tables ∧ (∀ t ∈ tables, TableInRange t) ∧
      buf = dqtBody (tables.map fun t => (t.id.toNat, t.data)) := by
  induction hn : buf.length using Nat.strongRecOn generalizing buf acc with
  | _ n ih =>
    cases buf with
    | nil =>
      rw [dqtUnmarshal_nil]
      refine ⟨by simp, ?_⟩
      intro out ho
      cases ho
      exact ⟨[], by simp, by simp, by simp [dqtBody]⟩
    | cons b rest =>
      rw [dqtUnmarshal_cons]
      by_cases h1 : b >>> 4 ≠ 0
      · rw [if_pos h1]; exact ⟨by simp, by simp⟩
      rw [if_neg h1]
      by_cases h2 : rest.length < 64
      · rw [if_pos h2]; exact ⟨by simp, by simp⟩
      rw [if_neg h2]
      simp only [ne_eq, Decidable.not_not] at h1
      obtain ⟨g1, g2⟩ := ih (rest.drop 64).length (by simp at hn ⊢; omega) (rest.drop 64)
        (acc ++ [⟨b &&& 0x0F, b >>> 4, rest.take 64⟩]) rfl
      refine ⟨g1, ?_⟩
      intro out ho
      obtain ⟨tables, e1, e2, e3⟩ := g2 out ho
      have hb := (dqt_id b).2 h1
      have hb' := ((dqt_id b).1 hb).2
      refine ⟨⟨b &&& 0x0F, b >>> 4, rest.take 64⟩ :: tables, by simp [e1], ?_, ?_⟩
      · intro t ht
        rcases List.mem_cons.1 ht with rfl | ht
        · exact ⟨by simp only [hb']; exact hb, h1, by simp; omega⟩
        · exact e2 t ht
      · simp only [dqtBody, List.map_cons, List.flatMap_cons, Nat.zero_mul, Nat.zero_add, UInt8.ofNat_toNat,
          List.cons_append, hb'] at e3 ⊢
        rw [← e3, List.take_append_drop]

/-- C33: DRI decoding returns the big-endian interval of every two-byte body and rejects all other sizes. -/
theorem C33_dri (interval : Nat) (h : interval < 2 ^ 16) :
    driUnmarshal [UInt8.ofNat (interval / 256), UInt8.ofNat interval] = .ok interval := by
  unfold driUnmarshal
  simp only [List.length_cons, List.length_nil, Nat.zero_add, ne_eq, not_true_eq_false, if_false, idx_zero_cons,
    idx_succ_cons, Res.bind_ok, or2, UInt8.toNat_ofNat', Res.ok.injEq]
  omega

theorem C33_dri_no_panic (buf : Bytes) : (driUnmarshal buf).NoPanic ∧
    (∀ i, driUnmarshal buf = .ok i → i < 2 ^ 16 ∧ buf = [UInt8.ofNat (i / 256), UInt8.ofNat i]) := by
  unfold driUnmarshal
  by_cases h : buf.length ≠ 2
  · rw [if_pos h]; exact ⟨by simp, by simp⟩
  rw [if_neg h]
  match buf, h with
  | [a, b], _ =>
    simp only [idx_zero_cons, idx_succ_cons, Res.bind_ok, or2]
    refine ⟨by simp, ?_⟩
    intro i hi
    cases hi
    have := a.toNat_lt
    have := b.toNat_lt
    refine ⟨by omega, ?_⟩
    congr 1
    · apply UInt8.toNat_inj.1; rw [UInt8.toNat_ofNat']; omega
    · congr 1; apply UInt8.toNat_inj.1; rw [UInt8.toNat_ofNat']; omega
  | [], h => simp at h
  | [_], h => simp at h
  | _ :: _ :: _ :: _, h => simp at h

/-- Vertical factor of the luminance component: type 0 is 4:2:2, type 1 is 4:2:0 (RFC 2435). -/
def vFactor (type : UInt8) : Nat := if type = 0 then 1 else 2

/-- C33: an encoded SOF is a well-formed segment with the T.81 body, the second quantization table being used when two
are announced. -/
theorem C33_sof_segment (m : StartOfFrame1) (ht : m.type = 0 ∨ m.type = 1) :
    IsSegment 0xC0 (sofBody m.height m.width 2 (vFactor m.type) (if m.quantizationTableCount = 2 then 1 else 0))
      (sofMarshal m) := by
  refine ⟨0, 17, ?_, by simp [sofBody]⟩
  unfold sofMarshal sofBody
  rw [show m.height >>> 8 = m.height / 256 from Nat.shiftRight_eq_div_pow _ 8,
    show m.width >>> 8 = m.width / 256 from Nat.shiftRight_eq_div_pow _ 8]
  have hq : UInt8.ofNat (if m.quantizationTableCount = 2 then 1 else 0) = if m.quantizationTableCount = 2 then 1 else 0 := by
    split <;> rfl
  rw [hq]
  rcases ht with h | h <;> rw [h] <;> rfl

theorem h16 (n : Nat) (hn : n < 2 ^ 16) : (n / 256 % 256) <<< 8 ||| n % 256 = n := by
  have e := shiftLeft_or (n / 256 % 256) (n % 256) 8 (by omega)
  rw [e]
  omega

/-- C33: decoding the body of an encoded SOF returns the type and the size; the table count is write-only. -/
theorem C33_sof_round_trip (m : StartOfFrame1) (ht : m.type = 0 ∨ m.type = 1) (hh : m.height < 2 ^ 16)
    (hw : m.width < 2 ^ 16) :
    sofUnmarshal ((sofMarshal m).drop 4) = .ok { m with quantizationTableCount := 0 } := by
  obtain ⟨hi, lo, hs, _⟩ := C33_sof_segment m ht
  rw [hs]
  simp only [List.drop_succ_cons, List.drop_zero]
  unfold sofBody sofUnmarshal
  obtain ⟨t, w, h, q⟩ := m
  simp only at ht hh hw ⊢
  rcases ht with rfl | rfl <;> simp [h16 _ hh, h16 _ hw, vFactor]

/-- C33: decoding a SOF body never panics, accepts only 15 bytes, and returns 16-bit sizes and type 0 or 1; the
result agrees with the bytes at the T.81 positions. -/
theorem C33_sof_sound (buf : Bytes) : (sofUnmarshal buf).NoPanic ∧
    ∀ m, sofUnmarshal buf = .ok m → buf.length = 15 ∧ (m.type = 0 ∨ m.type = 1) ∧ m.height < 2 ^ 16 ∧ m.width < 2 ^ 16 ∧
      ∃ c0 q0 c1 q1 c2 q2, buf = [8, UInt8.ofNat (m.height / 256), UInt8.ofNat m.height, UInt8.ofNat (m.width / 256),
        UInt8.ofNat m.width, 3, c0, UInt8.ofNat (2 * 16 + vFactor m.type), q0, c1, 0x11, q1, c2, 0x11, q2] := by
  unfold sofUnmarshal
  by_cases hl : buf.length ≠ 15
  · rw [if_pos hl]; exact ⟨by simp, by simp⟩
  rw [if_neg hl]
  simp only [ne_eq, Decidable.not_not] at hl
  have hle : 15 ≤ buf.length := by omega
  obtain ⟨b0, buf, rfl, hl0⟩ := exists_cons hle
  obtain ⟨b1, buf, rfl, hl1⟩ := exists_cons hl0
  obtain ⟨b2, buf, rfl, hl2⟩ := exists_cons hl1
  obtain ⟨b3, buf, rfl, hl3⟩ := exists_cons hl2
  obtain ⟨b4, buf, rfl, hl4⟩ := exists_cons hl3
  obtain ⟨b5, buf, rfl, hl5⟩ := exists_cons hl4
  obtain ⟨b6, buf, rfl, hl6⟩ := exists_cons hl5
  obtain ⟨b7, buf, rfl, hl7⟩ := exists_cons hl6
  obtain ⟨b8, buf, rfl, hl8⟩ := exists_cons hl7
  obtain ⟨b9, buf, rfl, hl9⟩ := exists_cons hl8
  obtain ⟨b10, buf, rfl, hl10⟩ := exists_cons hl9
  obtain ⟨b11, buf, rfl, hl11⟩ := exists_cons hl10
  obtain ⟨b12, buf, rfl, hl12⟩ := exists_cons hl11
  obtain ⟨b13, buf, rfl, hl13⟩ := exists_cons hl12
  obtain ⟨b14, buf, rfl, hl14⟩ := exists_cons hl13
  have hnil : buf = [] := List.length_eq_zero_iff.1 (by simp only [List.length_cons] at hl; omega)
  subst hnil
  simp only [idx_zero_cons, idx_succ_cons, Res.bind_ok]
  by_cases h1 : b0 ≠ 8
  · rw [if_pos h1]; exact ⟨by simp, by simp⟩
  rw [if_neg h1]
  by_cases h2 : b5 ≠ 3
  · rw [if_pos h2]; exact ⟨by simp, by simp⟩
  rw [if_neg h2]
  by_cases h3 : b7 ≠ 0x21 ∧ b7 ≠ 0x22
  · rw [if_pos h3]; exact ⟨by simp, by simp⟩
  rw [if_neg h3]
  by_cases h4 : b10 ≠ 0x11
  · rw [if_pos h4]; exact ⟨by simp, by simp⟩
  rw [if_neg h4]
  by_cases h5 : b13 ≠ 0x11
  · rw [if_pos h5]; exact ⟨by simp, by simp⟩
  rw [if_neg h5]
  refine ⟨by simp, ?_⟩
  intro m hm
  cases hm
  simp only [ne_eq, Decidable.not_not] at h1 h2 h4 h5
  subst h1; subst h2; subst h4; subst h5
  have hb := fun b : UInt8 => b.toNat_lt
  have e2 : ∀ a b : UInt8, UInt8.ofNat ((a.toNat * 2 ^ 8 + b.toNat) / 256) = a ∧
      UInt8.ofNat (a.toNat * 2 ^ 8 + b.toNat) = b := by
    intro a b
    have := hb a; have := hb b
    constructor <;> apply UInt8.toNat_inj.1 <;> rw [UInt8.toNat_ofNat'] <;> omega
  simp only [or2, (e2 _ _).1, (e2 _ _).2]
  have h7 : b7 = 0x21 ∨ b7 = 0x22 := by
    by_cases h : b7 = 0x21
    · exact .inl h
    · exact .inr (Decidable.not_not.1 fun h' => h3 ⟨h, h'⟩)
  refine ⟨rfl, by split <;> simp, ?_, ?_, b6, b8, b9, b11, b12, b14, ?_⟩
  · have := hb b1; have := hb b2; omega
  · have := hb b3; have := hb b4; omega
  · rcases h7 with rfl | rfl <;> simp [vFactor]

/-- C33: SOS. The encoded segment is well-formed with its fixed body, which the decoder accepts; it accepts exactly
the bodies of ten bytes. -/
theorem C33_sos : IsSegment 0xDA [3, 0, 0, 1, 0x11, 2, 0x11, 0, 63, 0] sosMarshal ∧
    sosUnmarshal (sosMarshal.drop 4) = .ok () ∧
    ∀ buf, (sosUnmarshal buf).NoPanic ∧ (sosUnmarshal buf = .ok () ↔ buf.length = 10) := by
  refine ⟨⟨0, 12, rfl, rfl⟩, rfl, ?_⟩
  intro buf
  unfold sosUnmarshal
  by_cases h : buf.length ≠ 10
  · rw [if_pos h]; exact ⟨by simp, by simpa using h⟩
  · rw [if_neg h]; exact ⟨by simp, by simpa using h⟩

/-- C33: an encoded DHT is a well-formed segment: class and destination in one byte, the code counts, the symbols. -/
theorem C33_dht_segment (m : DefineHuffmanTable) (hc : m.tableClass < 16) (hn : m.tableNumber < 16)
    (hl : m.codes.length + m.symbols.length ≤ 65532) :
    IsSegment 0xC4 (UInt8.ofNat (m.tableClass * 16 + m.tableNumber) :: m.codes ++ m.symbols) (dhtMarshal m) := by
  refine ⟨_, _, ?_, seg_len (3 + m.codes.length + m.symbols.length) (by omega) |>.trans ?_⟩
  · unfold dhtMarshal
    have : ∀ c < 16, ∀ n < 16, UInt8.ofNat (c <<< 4) ||| UInt8.ofNat n = UInt8.ofNat (c * 16 + n) := by decide +kernel
    rw [this _ hc _ hn]
    simp
  · simp; omega

/-- The encoder does not write the precision and does not mask the destination: a 16-bit table is not representable. -/
theorem C33_precision_not_written : ∃ t : QuantizationTable, t.precision = 1 ∧ t.data.length = 64 ∧
    dqtUnmarshal ((dqtMarshal [t]).drop 4) [] ≠ .ok [t] := by
  refine ⟨⟨0, 1, List.replicate 64 1⟩, rfl, rfl, ?_⟩
  decide +kernel

theorem seg_read (n : Nat) (code : UInt8) (body seg rest : Bytes) (h : IsSegment code body seg) :
    readSegments (n + 1) (seg ++ rest) =
      if code = 0xDA then some ([(code, body)], rest) else (readSegments n rest).map fun x => ((code, body) :: x.1, x.2) := by
  obtain ⟨hi, lo, rfl, hs⟩ := h
  simp only [List.cons_append]
  rw [readSegments]
  simp only
  rw [hs, show 2 + body.length - 2 = body.length by omega, if_pos ⟨trivial, by omega, by rw [List.length_append]; omega⟩, List.take_left,
    List.drop_left]

/-- A segment: its code, its body and its bytes. -/
structure Seg where
  code : UInt8
  body : Bytes
  bytes : Bytes

theorem seg_reads (l : List Seg) (hl : ∀ s ∈ l, s.code ≠ 0xDA ∧ IsSegment s.code s.body s.bytes) (body sos scan : Bytes)
    (h : IsSegment 0xDA body sos) : ∀ n, l.length < n →
      readSegments n (l.flatMap Seg.bytes ++ (sos ++ scan)) = some (l.map (fun s => (s.code, s.body)) ++ [(0xDA, body)], scan) := by
  induction l with
  | nil =>
    intro n hn
    obtain ⟨k, rfl⟩ : ∃ k, n = k + 1 := ⟨n - 1, by simp at hn; omega⟩
    rw [List.flatMap_nil, List.nil_append, seg_read k _ _ _ _ h, if_pos rfl]
    rfl
  | cons s l ih =>
    intro n hn
    obtain ⟨k, rfl⟩ : ∃ k, n = k + 1 := ⟨n - 1, by simp at hn; omega⟩
    have hs := hl s List.mem_cons_self
    rw [List.flatMap_cons, List.append_assoc, seg_read k _ _ _ _ hs.2, if_neg hs.1,
      ih (fun t ht => hl t (List.mem_cons_of_mem _ ht)) k (by simp at hn; omega)]
    rfl

/-- C33: the segments put together are an image. A reader of marker segments finds the quantization tables, the frame header, the Huffman tables and the
scan header, each with its T.81 body, and then the entropy-coded data. -/
theorem C33_image (tables : List QuantizationTable) (m : StartOfFrame1) (huffman : List DefineHuffmanTable) (scan : Bytes)
    (h1 : ∀ t ∈ tables, TableInRange t) (h2 : tables.length ≤ 1008) (h3 : m.type = 0 ∨ m.type = 1)
    (h4 : ∀ d ∈ huffman, d.tableClass < 16 ∧ d.tableNumber < 16 ∧ d.codes.length + d.symbols.length ≤ 65532) :
    readImage (soiMarshal ++ dqtMarshal tables ++ sofMarshal m ++ huffman.flatMap dhtMarshal ++ sosMarshal ++ scan) =
      some ([(0xDB, dqtBody (tables.map fun t => (t.id.toNat, t.data))),
        (0xC0, sofBody m.height m.width 2 (vFactor m.type) (if m.quantizationTableCount = 2 then 1 else 0))] ++
        huffman.map (fun d => (0xC4, UInt8.ofNat (d.tableClass * 16 + d.tableNumber) :: d.codes ++ d.symbols)) ++
        [(0xDA, [3, 0, 0, 1, 0x11, 2, 0x11, 0, 63, 0])], scan) := by
  generalize hl : ((⟨0xDB, dqtBody (tables.map fun t => (t.id.toNat, t.data)), dqtMarshal tables⟩ :: ⟨0xC0, sofBody m.height m.width 2 (vFactor m.type)
      (if m.quantizationTableCount = 2 then 1 else 0), sofMarshal m⟩ :: huffman.map fun d =>
        ⟨0xC4, UInt8.ofNat (d.tableClass * 16 + d.tableNumber) :: d.codes ++ d.symbols, dhtMarshal d⟩) : List Seg) = l
  have hseg : ∀ s ∈ l, s.code ≠ 0xDA ∧ IsSegment s.code s.body s.bytes := by
    intro s hs
    rw [← hl] at hs
    rcases List.mem_cons.1 hs with rfl | hs
    · exact ⟨by simp, C33_dqt_segment tables h1 h2⟩
    · rcases List.mem_cons.1 hs with rfl | hs
      · exact ⟨by simp, C33_sof_segment m h3⟩
      · obtain ⟨d, hd, rfl⟩ := List.mem_map.1 hs
        exact ⟨by simp, C33_dht_segment d (h4 d hd).1 (h4 d hd).2.1 (h4 d hd).2.2⟩
  have hlen : ∀ l : List Seg, (∀ s ∈ l, s.code ≠ 0xDA ∧ IsSegment s.code s.body s.bytes) → l.length ≤ (l.flatMap Seg.bytes).length := by
    intro l
    induction l with
    | nil => intro _; simp
    | cons s l ih =>
      intro h
      have := ih fun t ht => h t (List.mem_cons_of_mem _ ht)
      obtain ⟨_, _, e, _⟩ := (h s List.mem_cons_self).2
      rw [List.flatMap_cons, List.length_append, e]
      simp only [List.length_cons]
      omega
  have hbytes : dqtMarshal tables ++ (sofMarshal m ++ (huffman.flatMap dhtMarshal ++ (sosMarshal ++ scan))) =
      l.flatMap Seg.bytes ++ (sosMarshal ++ scan) := by
    rw [← hl]
    simp [List.flatMap_cons, List.flatMap_map]
  simp only [List.append_assoc]
  rw [show soiMarshal = [0xFF, 0xD8] from rfl, hbytes]
  simp only [List.cons_append, List.nil_append]
  rw [readImage, if_pos ⟨rfl, rfl⟩, seg_reads l hseg _ sosMarshal scan C33_sos.1 _ (by
    have := hlen l hseg
    obtain ⟨_, _, e, _⟩ := C33_sos.1
    rw [List.length_append, List.length_append, e]
    simp only [List.length_cons]
    omega), ← hl]
  simp

example : TableInRange ⟨4, 0, List.replicate 64 9⟩ := ⟨by decide, rfl, by simp⟩
example : dqtUnmarshal ((dqtMarshal [⟨4, 0, List.replicate 64 9⟩, ⟨5, 0, List.replicate 64 1⟩]).drop 4) []
    = .ok [⟨4, 0, List.replicate 64 9⟩, ⟨5, 0, List.replicate 64 1⟩] := by decide +kernel
example : sofUnmarshal ((sofMarshal ⟨1, 800, 600, 2⟩).drop 4) = .ok ⟨1, 800, 600, 0⟩ := by decide +kernel
example : (readImage (soiMarshal ++ dqtMarshal [⟨4, 0, List.replicate 64 9⟩] ++ sofMarshal ⟨1, 800, 600, 2⟩ ++
    [⟨[1, 2], [3], 1, 0⟩, ⟨[], [7], 0, 1⟩].flatMap dhtMarshal ++ sosMarshal ++ [0x55, 0xFF, 0xD9])).map (fun x => (x.1.map (·.1), x.2)) =
      some ([0xDB, 0xC0, 0xC4, 0xC4, 0xDA], [0x55, 0xFF, 0xD9]) := by decide +kernel
example : driUnmarshal [0xd0, 0xc7] = .ok 53447 := by decide +kernel

end Verif.Props
