import Verif.Lemmas.MP4Boxes

/-!
# Payloads of boxes are decoded as they were encoded
-/

namespace Verif.Props
open MP4Box
open ByteR (beBytes_length)

theorem pack_read (fs : List (Nat × Nat)) (ws : List Nat) (rest : Bytes) (hw : widths fs = ws) (h8 : (widths fs).sum % 8 = 0) :
    unpack ws (pack fs ++ rest) = .ok (fs.map (fun f => f.2 % 2 ^ f.1), rest) := hw ▸ unpack_pack fs rest h8

theorem pack_read_all (fs : List (Nat × Nat)) (ws : List Nat) (hw : widths fs = ws) (h8 : (widths fs).sum % 8 = 0) :
    unpack ws (pack fs) = .ok (fs.map (fun f => f.2 % 2 ^ f.1), []) := by
  have := pack_read fs ws [] hw h8
  rwa [List.append_nil] at this

theorem box_visual (w h : Nat) : decodeVisual (encodeVisual w h) = .ok (w % 2 ^ 16, h % 2 ^ 16) := by
  unfold decodeVisual encodeVisual
  rw [pack_read_all _ _ (by rfl) (by simp [widths]), Res.bind_ok]
  rfl

theorem box_audio (cc sz rate : Nat) : decodeAudio (encodeAudio cc sz rate) = .ok (cc % 2 ^ 16, rate % 2 ^ 32) := by
  unfold decodeAudio encodeAudio
  rw [pack_read_all _ _ (by rfl) (by simp [widths]), Res.bind_ok]
  rfl

theorem box_av1C (a b c d e f g h i : Nat) (obus : Bytes) : decodeAv1C (encodeAv1C a b c d e f g h i obus) = .ok obus := by
  unfold decodeAv1C encodeAv1C
  obtain ⟨n, hn⟩ := unpack_skip 4 (pack [(1, 1), (7, 1), (3, a), (5, b), (1, c), (1, d), (1, e), (1, f), (1, g), (1, h), (2, i), (3, 0),
    (1, 0), (4, 0)]) obus (by rw [pack_length]; simp [widths])
  rw [hn, Res.bind_ok]

theorem box_vpcC (a b c d : Nat) : decodeVpcC (encodeVpcC a b c d) = .ok (a % 2 ^ 8, b % 2 ^ 4, c % 2 ^ 3, d % 2 ^ 1) := by
  unfold decodeVpcC encodeVpcC
  rw [pack_read_all _ _ (by rfl) (by simp [widths]), Res.bind_ok]
  rfl

theorem box_set (n rest : Bytes) (h : n.length < 2 ^ 16) : decodeSets 1 (encodeSet n ++ rest) = .ok ([n], rest) := by
  unfold decodeSets encodeSet
  rw [List.append_assoc, pack_read _ _ _ (by rfl) (by simp [widths]), Res.bind_ok]
  show (takeBytes (n.length % 2 ^ 16) (n ++ rest) >>= _) = _
  rw [Nat.mod_eq_of_lt h, takeBytes_append, Res.bind_ok]
  rfl

theorem box_avcC (a b c : Nat) (sps pps : Bytes) (hs : sps.length < 2 ^ 16) (hp : pps.length < 2 ^ 16) :
    decodeAvcC (encodeAvcC a b c sps pps) = .ok ([sps], [pps]) := by
  unfold decodeAvcC encodeAvcC
  rw [List.append_assoc, List.append_assoc, pack_read _ _ _ (by rfl) (by simp [widths]), Res.bind_ok]
  show (decodeSets 1 (encodeSet sps ++ (pack [(8, 1)] ++ encodeSet pps)) >>= _) = _
  rw [box_set _ _ hs, Res.bind_ok]
  dsimp only
  rw [pack_read _ _ _ (by rfl) (by simp [widths]), Res.bind_ok]
  have := box_set pps [] hp
  rw [List.append_nil] at this
  show (decodeSets 1 (encodeSet pps) >>= _) = _
  rw [this, Res.bind_ok]

theorem box_array (t k : Nat) (n rest : Bytes) (h : n.length < 2 ^ 16) (ht : t < 2 ^ 6) : decodeArrays (k + 1) (encodeArray t n ++ rest) =
    (decodeArrays k rest >>= fun l => .ok (⟨t, 1, [n]⟩ :: l)) := by
  conv => lhs; unfold decodeArrays encodeArray
  rw [List.append_assoc, pack_read _ _ _ (by rfl) (by simp [widths]), Res.bind_ok]
  show (decodeSets 1 (encodeSet n ++ rest) >>= _) = _
  rw [box_set _ _ h, Res.bind_ok]
  dsimp only
  show (decodeArrays k rest >>= fun l => Res.ok (⟨t % 2 ^ 6, 1, [n]⟩ :: l)) = _
  rw [Nat.mod_eq_of_lt ht]

theorem pack_flags (l : List Bool) : (widths (l.map fun c => (1, bit c))).sum = l.length := by
  induction l with
  | nil => rfl
  | cons a l ih =>
    unfold widths at ih ⊢
    simp only [List.map_cons, List.sum_cons, List.length_cons, ih]
    omega

theorem pack_bytes (l : Bytes) : (widths (l.map fun c => (8, c.toNat))).sum = 8 * l.length := by
  induction l with
  | nil => rfl
  | cons a l ih =>
    unfold widths at ih ⊢
    simp only [List.map_cons, List.sum_cons, List.length_cons, ih]
    omega

theorem box_hvcC (a : Nat) (fl : List Bool) (cs : Bytes) (b c d e : Nat) (vps sps pps : Bytes) (hf : fl.length = 32) (hc : cs.length = 6)
    (hv : vps.length < 2 ^ 16) (hs : sps.length < 2 ^ 16) (hp : pps.length < 2 ^ 16) :
    decodeHvcC (encodeHvcC a fl cs b c d e vps sps pps) = .ok [⟨32, 1, [vps]⟩, ⟨33, 1, [sps]⟩, ⟨34, 1, [pps]⟩] := by
  unfold decodeHvcC encodeHvcC
  have hg : (([(8, 1), (2, 0), (1, 0), (5, a)] ++ fl.map (fun c => (1, bit c)) ++ cs.map (fun c => (8, c.toNat)) ++
    [(8, b), (4, 0xF), (12, 0), (6, 0x3F), (2, 0), (6, 0x3F), (2, c), (5, 0x1F), (3, d), (5, 0x1F), (3, e),
      (16, 0), (2, 0), (2, 1), (2, 0), (2, 3), (8, 3)] : List (Nat × Nat))) =
    [] ++ (([(8, 1), (2, 0), (1, 0), (5, a)] ++ fl.map (fun c => (1, bit c)) ++ cs.map (fun c => (8, c.toNat)) ++
    [(8, b), (4, 0xF), (12, 0), (6, 0x3F), (2, 0), (6, 0x3F), (2, c), (5, 0x1F), (3, d), (5, 0x1F), (3, e),
      (16, 0), (2, 0), (2, 1), (2, 0), (2, 3)]) ++ [(8, 3)]) := by simp
  rw [hg, pack_group]
  clear hg
  have hsum : (widths ([(8, 1), (2, 0), (1, 0), (5, a)] ++ fl.map (fun c => (1, bit c)) ++ cs.map (fun c => (8, c.toNat)) ++
    [(8, b), (4, 0xF), (12, 0), (6, 0x3F), (2, 0), (6, 0x3F), (2, c), (5, 0x1F), (3, d), (5, 0x1F), (3, e),
      (16, 0), (2, 0), (2, 1), (2, 0), (2, 3)] : List (Nat × Nat))).sum = 176 := by
    have h1 := pack_flags fl
    have h2 := pack_bytes cs
    rw [hf] at h1
    rw [hc] at h2
    unfold widths at h1 h2 ⊢
    rw [List.map_append, List.map_append, List.map_append, List.sum_append, List.sum_append, List.sum_append, h1, h2]
    simp
  rw [hsum]
  generalize packNat _ 0 = v
  rw [List.nil_append, pack_read _ _ _ (by rfl) (by simp [widths]), Res.bind_ok]
  show decodeArrays 3 (encodeArray 32 vps ++ encodeArray 33 sps ++ encodeArray 34 pps) = _
  rw [List.append_assoc, box_array 32 2 _ _ hv (by decide), box_array 33 1 _ _ hs (by decide)]
  have := box_array 34 0 pps [] hp (by decide)
  rw [List.append_nil] at this
  rw [this]
  rfl

theorem box_size_step (k w v acc : Nat) (rest : Bytes) : decodeSize (k + 1) (pack [(1, w), (7, v)] ++ rest) acc =
    if w % 2 ^ 1 = 0 then .ok (acc * 2 ^ 7 + v % 2 ^ 7, rest) else decodeSize k rest (acc * 2 ^ 7 + v % 2 ^ 7) := by
  conv => lhs; unfold decodeSize
  rw [pack_read _ _ _ (by rfl) (by simp [widths]), Res.bind_ok]
  rfl

theorem box_size (k v : Nat) (rest : Bytes) (h : v < 2 ^ 28) : decodeSize (k + 4) (encodeSize v ++ rest) 0 = .ok (v, rest) := by
  have e : encodeSize v = pack [(1, 1), (7, v / 2 ^ 21)] ++ (pack [(1, 1), (7, v / 2 ^ 14)] ++ (pack [(1, 1), (7, v / 2 ^ 7)] ++
      pack [(1, 0), (7, v)])) := by
    rw [← pack_append _ _ (by simp [widths]) (by simp [widths]), ← pack_append _ _ (by simp [widths]) (by simp [widths]),
      ← pack_append _ _ (by simp [widths]) (by simp [widths])]
    rfl
  rw [e]
  simp only [List.append_assoc]
  rw [box_size_step, if_neg (by decide), box_size_step, if_neg (by decide), box_size_step, if_neg (by decide), box_size_step,
    if_pos (by decide)]
  congr 2
  omega

theorem box_size_length (v : Nat) : (encodeSize v).length = 4 := by
  unfold encodeSize; rw [pack_length]; simp [widths]

/-- One descriptor of the list. -/
theorem box_descriptor (k tag size : Nat) (body rest : Bytes) (d : Descriptor) (ht : tag < 2 ^ 8) (h : size < 2 ^ 28)
    (hd : decodeDescriptor tag size (body ++ rest) = .ok (d, rest)) :
    decodeDescriptors (k + 1) (pack [(8, tag)] ++ encodeSize size ++ body ++ rest) = (decodeDescriptors k rest >>= fun l => .ok (d :: l)) := by
  conv => lhs; unfold decodeDescriptors
  have hl : (pack [(8, tag)]).length = 1 := by rw [pack_length]; simp [widths]
  rw [if_neg (by simp [hl, box_size_length]), List.append_assoc, List.append_assoc, pack_read _ _ _ (by rfl) (by simp [widths]), Res.bind_ok]
  dsimp only
  rw [show (encodeSize size ++ (body ++ rest)).length + 1 = ((body ++ rest).length + 1) + 4 by
    rw [List.length_append, box_size_length]; omega, box_size _ _ _ h, Res.bind_ok]
  show (decodeDescriptor (tag % 2 ^ 8) size (body ++ rest) >>= _) = _
  rw [Nat.mod_eq_of_lt ht, hd, Res.bind_ok]

theorem box_skipES (b : Bytes) : skipES 0 0 0 b = .ok b := by
  unfold skipES takeBytes
  rw [if_neg (by simp), Res.bind_ok]
  show (unpack [0] (b.drop 0) >>= _) = _
  have := pack_read [(0, 0)] [0] b (by rfl) (by simp [widths])
  rw [show pack [(0, 0)] = [] from rfl, List.nil_append] at this
  rw [List.drop_zero, this, Res.bind_ok]
  dsimp only
  rw [show (List.map (fun (f : Nat × Nat) => f.2 % 2 ^ f.1) [(0, 0)]).getD 0 0 = 0 from rfl, if_neg (by simp), Res.bind_ok]
  show (if b.length < 0 then _ else _ : Res _) >>= _ = _
  rw [if_neg (by simp), Res.bind_ok]
  rfl

theorem pack_congr (a b : List (Nat × Nat)) (hw : (widths a).sum = (widths b).sum) (hn : packNat a 0 = packNat b 0) : pack a = pack b := by
  unfold pack
  unfold widths at hw
  rw [hw, hn]

theorem box_es (id : Nat) (rest : Bytes) (size : Nat) : decodeDescriptor 3 size (pack [(16, id), (8, 0)] ++ rest) = .ok (.es, rest) := by
  unfold decodeDescriptor decodeES
  rw [if_pos rfl]
  have e : pack [(16, id), (8, 0)] = pack [(16, id), (1, 0), (1, 0), (1, 0), (5, 0)] :=
    pack_congr _ _ (by simp [widths]) (by simp only [packNat]; omega)
  rw [e, pack_read _ _ _ (by rfl) (by simp [widths]), Res.bind_ok]
  show (skipES 0 0 0 rest >>= _) = _
  rw [box_skipES, Res.bind_ok]

theorem box_decoderConf (size ot st mx av : Nat) (rest : Bytes) (h : ot < 2 ^ 8) :
    decodeDescriptor 4 size (pack [(8, ot), (6, st), (1, 0), (1, 1), (24, 0), (32, mx), (32, av)] ++ rest) = .ok (.decoderConf ot, rest) := by
  unfold decodeDescriptor
  rw [if_neg (by decide), if_pos rfl, pack_read _ _ _ (by rfl) (by simp [widths]), Res.bind_ok]
  show Res.ok (Descriptor.decoderConf (ot % 2 ^ 8), rest) = _
  rw [Nat.mod_eq_of_lt h]

theorem box_data (tag : Nat) (data rest : Bytes) (h3 : tag ≠ 3) (h4 : tag ≠ 4) :
    decodeDescriptor tag data.length (data ++ rest) = .ok (.data tag data, rest) := by
  unfold decodeDescriptor
  rw [if_neg h3, if_neg h4, takeBytes_append, Res.bind_ok]

theorem box_esds (id ot st mx av : Nat) (info : Bytes) (h : 32 + info.length < 2 ^ 28) (ho : ot < 2 ^ 8) :
    decodeEsds (encodeEsds id ot st mx av info) = .ok [.es, .decoderConf ot, .data 5 info, .data 6 [2]] := by
  unfold decodeEsds encodeEsds encodeES encodeDecoderConf encodeData
  rw [Nat.mod_eq_of_lt (by omega), Nat.mod_eq_of_lt (by omega), Nat.mod_eq_of_lt (by omega)]
  simp only [List.append_assoc]
  rw [pack_read _ _ _ (by rfl) (by simp [widths]), Res.bind_ok]
  dsimp only
  generalize hk : List.length _ = k
  have hk4 : 4 ≤ k := by
    rw [← hk]; simp only [List.length_append, box_size_length, pack_length]; simp [widths]; omega
  obtain ⟨j, rfl⟩ := Nat.exists_eq_add_of_le hk4
  rw [show 4 + j = (j + 1 + 1 + 1) + 1 by omega]
  have e1 := fun rest => box_descriptor (j + 1 + 1 + 1) 3 (32 + info.length) (pack [(16, id), (8, 0)]) rest .es (by decide) (by omega)
    (box_es _ _ _)
  have e2 := fun rest => box_descriptor (j + 1 + 1) 4 (18 + info.length) (pack [(8, ot), (6, st), (1, 0), (1, 1), (24, 0), (32, mx), (32, av)])
    rest (.decoderConf ot) (by decide) (by omega) (box_decoderConf _ _ _ _ _ _ ho)
  have e3 := fun rest => box_descriptor (j + 1) 5 info.length info rest (.data 5 info) (by decide) (by omega)
    (box_data _ _ _ (by decide) (by decide))
  have e4 := box_descriptor j 6 1 [2] [] (.data 6 [2]) (by decide) (by decide) (box_data _ _ _ (by decide) (by decide))
  simp only [List.append_assoc, List.append_nil] at e1 e2 e3 e4
  rw [e1, e2, e3, e4, show decodeDescriptors j [] = .ok [] by cases j <;> rfl]
  rfl

theorem box_esdsBare (id ot st mx av : Nat) (ho : ot < 2 ^ 8) :
    decodeEsds (encodeEsdsBare id ot st mx av) = .ok [.es, .decoderConf ot, .data 6 [2]] := by
  unfold decodeEsds encodeEsdsBare encodeES encodeDecoderConf encodeData
  simp only [List.append_assoc]
  rw [pack_read _ _ _ (by rfl) (by simp [widths]), Res.bind_ok]
  dsimp only
  generalize hk : List.length _ = k
  have hk4 : 3 ≤ k := by
    rw [← hk]; simp only [List.length_append, box_size_length, pack_length]; simp [widths]
  obtain ⟨j, rfl⟩ := Nat.exists_eq_add_of_le hk4
  rw [show 3 + j = (j + 1 + 1) + 1 by omega]
  have e1 := fun rest => box_descriptor (j + 1 + 1) 3 27 (pack [(16, id), (8, 0)]) rest .es (by decide) (by omega)
    (box_es _ _ _)
  have e2 := fun rest => box_descriptor (j + 1) 4 13 (pack [(8, ot), (6, st), (1, 0), (1, 1), (24, 0), (32, mx), (32, av)])
    rest (.decoderConf ot) (by decide) (by omega) (box_decoderConf _ _ _ _ _ _ ho)
  have e4 := box_descriptor j 6 1 [2] [] (.data 6 [2]) (by decide) (by decide) (box_data _ _ _ (by decide) (by decide))
  simp only [List.append_assoc, List.append_nil] at e1 e2 e4
  rw [e1, e2, e4, show decodeDescriptors j [] = .ok [] by cases j <;> rfl]
  rfl

theorem box_dOps (cc : Nat) : decodeDOps (encodeDOps cc) = .ok (cc % 2 ^ 8) := by
  unfold decodeDOps encodeDOps
  rw [pack_read_all _ _ (by rfl) (by simp [widths]), Res.bind_ok]
  rfl

theorem box_dfLa (b : Bytes) : decodeDfLa (encodeDfLa b) = .ok b := by
  unfold decodeDfLa encodeDfLa
  rw [pack_read _ _ _ (by rfl) (by simp [widths]), Res.bind_ok]

theorem box_dac3 (a b c d e f : Nat) :
    decodeDac3 (encodeDac3 a b c d e f) = .ok [a % 2 ^ 2, b % 2 ^ 5, c % 2 ^ 3, d % 2 ^ 3, e % 2 ^ 1, f % 2 ^ 5, 0] := by
  unfold decodeDac3 encodeDac3
  rw [pack_read_all _ _ (by rfl) (by simp [widths]), Res.bind_ok]
  rfl

theorem box_pcmC (a b : Nat) : decodePcmC (encodePcmC a b) = .ok (a % 2 ^ 8, b % 2 ^ 8) := by
  unfold decodePcmC encodePcmC
  rw [pack_read_all _ _ (by rfl) (by simp [widths]), Res.bind_ok]
  rfl

theorem box_dec3 (rate fs asvc bsmod acmod lfe num loc : Nat) (hn : num < 2 ^ 4) :
    decodeDec3 (encodeDec3 rate fs asvc bsmod acmod lfe num loc) =
      .ok (rate % 2 ^ 13, 0, [⟨asvc % 2 ^ 1, bsmod % 2 ^ 3, acmod % 2 ^ 3, lfe % 2 ^ 1, num, if num = 0 then 0 else loc % 2 ^ 9⟩]) := by
  unfold decodeDec3 encodeDec3
  by_cases h : num = 0
  · rw [if_pos h, if_pos h]
    rw [show ([(13, rate), (3, 0), (2, fs), (5, 16), (1, 0), (1, asvc), (3, bsmod), (3, acmod), (1, lfe), (3, 0), (4, num)] ++ [(1, 0)] : List (Nat × Nat)) =
      [(13, rate), (3, 0)] ++ [(2, fs), (5, 16), (1, 0), (1, asvc), (3, bsmod), (3, acmod), (1, lfe), (3, 0), (4, num), (1, 0)] from rfl,
      pack_append _ _ (by simp [widths]) (by simp [widths]), pack_read _ _ _ (by rfl) (by simp [widths]), Res.bind_ok]
    show (decodeIndSubs 1 _ >>= _) = _
    unfold decodeIndSubs
    rw [pack_read_all _ _ (by rfl) (by simp [widths]), Res.bind_ok]
    show (decodeChanLoc (num % 2 ^ 4) _ _ >>= _) >>= _ = _
    rw [Nat.mod_eq_of_lt hn]
    unfold decodeChanLoc
    rw [if_pos h, Res.bind_ok]
    show Res.ok (rate % 2 ^ 13, 0, [(⟨asvc % 2 ^ 1, bsmod % 2 ^ 3, acmod % 2 ^ 3, lfe % 2 ^ 1, num % 2 ^ 4, 0⟩ : IndSub)]) = _
    rw [Nat.mod_eq_of_lt hn]
  · rw [if_neg h, if_neg h]
    have e : pack ([(13, rate), (3, 0), (2, fs), (5, 16), (1, 0), (1, asvc), (3, bsmod), (3, acmod), (1, lfe), (3, 0), (4, num)] ++ [(9, loc)]) =
        pack ([(13, rate), (3, 0)] ++ ([(2, fs), (5, 16), (1, 0), (1, asvc), (3, bsmod), (3, acmod), (1, lfe), (3, 0), (4, num), (1, loc / 2 ^ 8)] ++ [(8, loc)])) := by
      refine pack_congr _ _ (by simp [widths]) ?_
      rw [← List.append_assoc, packNat_append, packNat_append]
      simp only [List.cons_append, List.nil_append, packNat]
      omega
    rw [e, pack_append _ _ (by simp [widths]) (by simp [widths]), pack_read _ _ _ (by rfl) (by simp [widths]), Res.bind_ok]
    show (decodeIndSubs 1 _ >>= _) = _
    unfold decodeIndSubs
    rw [pack_append _ _ (by simp [widths]) (by simp [widths]), pack_read _ _ _ (by rfl) (by simp [widths]), Res.bind_ok]
    show (decodeChanLoc (num % 2 ^ 4) (loc / 2 ^ 8 % 2 ^ 1) (pack [(8, loc)]) >>= _) >>= _ = _
    rw [Nat.mod_eq_of_lt hn]
    unfold decodeChanLoc
    rw [if_neg h, pack_read_all _ _ (by rfl) (by simp [widths]), Res.bind_ok]
    show Res.ok (rate % 2 ^ 13, 0, [(⟨asvc % 2 ^ 1, bsmod % 2 ^ 3, acmod % 2 ^ 3, lfe % 2 ^ 1, num % 2 ^ 4,
      loc / 2 ^ 8 % 2 ^ 1 * 2 ^ 8 + loc % 2 ^ 8⟩ : IndSub)]) = _
    rw [Nat.mod_eq_of_lt hn, show loc / 2 ^ 8 % 2 ^ 1 * 2 ^ 8 + loc % 2 ^ 8 = loc % 2 ^ 9 by omega]

theorem pack_head (v : Nat) (l : List (Nat × Nat)) (h : (widths l).sum % 8 = 0) (hv : v < 2 ^ 8) :
    (pack ((8, v) :: l)).head? = some (UInt8.ofNat v) := by
  rw [show ((8, v) :: l : List (Nat × Nat)) = [(8, v)] ++ l from rfl, pack_append _ _ (by simp [widths]) h]
  have : pack [(8, v)] = [UInt8.ofNat v] := by
    unfold pack
    have e1 : (List.map (fun x => x.1) [(8, v)]).sum / 8 = 1 := by simp
    have e2 : packNat [(8, v)] 0 = v := by
      show 0 * 2 ^ 8 + v % 2 ^ 8 = v
      rw [Nat.mod_eq_of_lt hv, Nat.zero_mul, Nat.zero_add]
    rw [e1, e2]
    simp [Spec.beBytes]
  rw [this]
  rfl

theorem box_tkhd (id a b c d : Nat) : decodeTkhd (encodeTkhd id a b c d) = .ok (id % 2 ^ 32) := by
  have ht : timeWidth (encodeTkhd id a b c d) = 32 := by
    unfold timeWidth encodeTkhd
    rw [if_pos]
    exact pack_head 0 _ (by simp [widths, unity]) (by decide)
  unfold decodeTkhd
  rw [ht]
  unfold encodeTkhd
  dsimp only
  rw [List.append_assoc, pack_group]
  rw [pack_read_all _ _ (by simp [widths, unity]) (by simp [widths, unity]), Res.bind_ok]
  rfl

theorem box_mdhd (ts : Nat) : decodeMdhd (encodeMdhd ts) = .ok (ts % 2 ^ 32) := by
  have ht : timeWidth (encodeMdhd ts) = 32 := by
    unfold timeWidth encodeMdhd
    rw [if_pos]
    exact pack_head 0 _ (by simp [widths]) (by decide)
  unfold decodeMdhd
  rw [ht]
  unfold encodeMdhd
  dsimp only
  rw [pack_read_all _ _ (by rfl) (by simp [widths]), Res.bind_ok]
  rfl

end Verif.Props
