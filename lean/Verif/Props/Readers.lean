import Verif.Spec.Readers
import Verif.Lemmas.Util
import Verif.Lemmas.PreDemuxer
import Mathlib.Data.List.GetD

/-!
# Properties C36–C39: stream readers and the seekable buffer
-/

namespace Verif.Props
open Verif.Readers Verif.Spec

theorem src_read_conserves (s : Src) (cap : Nat) : (s.read cap).1 ++ (s.read cap).2.2.data = s.data := by
  unfold Src.read
  split <;> simp

theorem take_append_drop_len {α} (n : Nat) (l : List α) : l.take n ++ l.drop (l.take n).length = l := by
  rw [List.length_take]
  rcases Nat.le_total n l.length with h | h
  · rw [Nat.min_eq_left h, List.take_append_drop]
  · rw [Nat.min_eq_right h, List.take_of_length_le h]; simp

/-! ## C36 -/

/-- Bytes taken from the source and not handed out yet. -/
def unread (b : BufferedReader) : Bytes := b.midbuf.drop b.midbufpos

/-- One call that does not fail neither loses nor invents bytes. -/
theorem buffered_step (b : BufferedReader) (plen : Nat) (h : (b.read plen).2.1 = none) :
    (b.read plen).1 ++ (b.read plen).2.2.midbuf.drop (b.read plen).2.2.midbufpos ++ (b.read plen).2.2.r.data
      = b.midbuf.drop b.midbufpos ++ b.r.data := by
  unfold BufferedReader.read at *
  by_cases h1 : b.midbufpos < b.midbuf.length
  · simp only [if_pos h1]
    rw [← List.drop_drop]
    rw [take_append_drop_len]
  · simp only [if_neg h1] at h ⊢
    rw [List.drop_eq_nil_of_le (as := b.midbuf) (i := b.midbufpos) (by omega)]
    have hc := src_read_conserves b.r 1500
    rcases hr : b.r.read 1500 with ⟨mid, e, r⟩
    rw [hr] at hc h
    simp only at hc
    cases e with
    | some e => simp at h
    | none =>
      simp only at h ⊢
      by_cases h2 : mid.length % packetSize = 0
      · simp only [h2, ne_eq, not_true_eq_false, if_false, List.nil_append] at h ⊢
        rw [← hc]
        rw [take_append_drop_len]
      · simp [h2] at h

theorem buffered_conserves (calls : List Nat) : ∀ b : BufferedReader, (b.readAll calls).2.1 = [] →
    (b.readAll calls).1 ++ (b.readAll calls).2.2.midbuf.drop (b.readAll calls).2.2.midbufpos
      ++ (b.readAll calls).2.2.r.data = b.midbuf.drop b.midbufpos ++ b.r.data := by
  induction calls with
  | nil => intro b _; simp [BufferedReader.readAll]
  | cons n l ih =>
    intro b h
    have hs := buffered_step b n
    simp only [BufferedReader.readAll] at h ⊢
    rcases hb : b.read n with ⟨out, e, b'⟩
    simp only [hb] at h hs ⊢
    cases e with
    | some e => simp at h
    | none =>
      have := ih b' (by simpa using h)
      rw [← hs rfl, List.append_assoc, List.append_assoc, List.append_assoc] at *
      rw [this, ← List.append_assoc]

/-- C36 (partial): for every source, every chunking and every sequence of destination sizes, as long
as no call has failed, the bytes obtained followed by the bytes still buffered and the bytes still in
the source are the source's bytes, in order.

Missing for the full statement: calls that fail. The full statement is false there, see
`C36_loses_on_odd_size` and `C36_loses_with_error`. -/
theorem C36_buffered_transparent_partial (src : Src) (calls : List Nat)
    (hok : (({ r := src } : BufferedReader).readAll calls).2.1 = []) :
    (({ r := src } : BufferedReader).readAll calls).1
      ++ unread (({ r := src } : BufferedReader).readAll calls).2.2
      ++ (({ r := src } : BufferedReader).readAll calls).2.2.r.data = src.data := by
  refine (buffered_conserves calls { r := src } hok).trans ?_
  simp

/-- Errors that come without bytes, in a source that otherwise returns whole packets, are harmless:
no bytes are lost either. -/
def PacketSource (s : Src) : Prop :=
  ∃ ks : List (Nat × Option String), s.sched = ks ∧ s.data.length % 188 = 0 ∧
    ∀ k ∈ ks, (k.2 = none → min k.1 1500 % 188 = 0) ∧ (k.2 ≠ none → k.1 = 0)

theorem packetSource_read {s : Src} (h : PacketSource s) :
    (s.read 1500).1.length % 188 = 0 ∧ PacketSource (s.read 1500).2.2 ∧
    ((s.read 1500).2.1 ≠ none → (s.read 1500).1 = []) := by
  obtain ⟨ks, h1, h2, h3⟩ := h
  unfold Src.read
  cases hs : s.sched with
  | nil => exact ⟨rfl, ⟨ks, h1, h2, h3⟩, fun _ => rfl⟩
  | cons k l =>
    obtain ⟨k, e⟩ := k
    subst h1
    rw [hs] at h3
    obtain ⟨g1, g2⟩ := h3 (k, e) (by simp)
    simp only at g1 g2 ⊢
    have hm : min k 1500 % 188 = 0 := by
      cases e with
      | none => exact g1 rfl
      | some e => rw [g2 (by simp)]; rfl
    refine ⟨?_, ⟨l, rfl, ?_, fun k' hk' => h3 k' (by simp [hk'])⟩, ?_⟩
    · rw [List.length_take]
      rcases Nat.le_total (min k 1500) s.data.length with h | h
      · rw [Nat.min_eq_left h]; exact hm
      · rw [Nat.min_eq_right h]; exact h2
    · simp only [List.length_drop]; omega
    · intro he; rw [g2 he]; simp

theorem buffered_packets_step (b : BufferedReader) (plen : Nat) (hp : PacketSource b.r) :
    PacketSource (b.read plen).2.2.r ∧
    (b.read plen).1 ++ (b.read plen).2.2.midbuf.drop (b.read plen).2.2.midbufpos ++ (b.read plen).2.2.r.data
      = b.midbuf.drop b.midbufpos ++ b.r.data := by
  by_cases hn : (b.read plen).2.1 = none
  · refine ⟨?_, buffered_step b plen hn⟩
    unfold BufferedReader.read
    split
    · exact hp
    · have := (packetSource_read hp).2.1
      rcases hr : b.r.read 1500 with ⟨mid, e, r⟩
      rw [hr] at this
      cases e <;> simp only [] at this ⊢
      · split <;> exact this
      · exact this
  · have ⟨q1, q2, q3⟩ := packetSource_read hp
    have qc := src_read_conserves b.r 1500
    unfold BufferedReader.read at hn ⊢
    by_cases h1 : b.midbufpos < b.midbuf.length
    · simp [h1] at hn
    · rw [List.drop_eq_nil_of_le (as := b.midbuf) (by omega)]
      rw [if_neg h1] at hn ⊢
      rcases hr : b.r.read 1500 with ⟨mid, e, r⟩
      rw [hr] at hn q1 q2 q3 qc
      simp only at q1 q2 q3 qc
      cases e with
      | some e =>
        simp only
        refine ⟨q2, ?_⟩
        rw [List.drop_eq_nil_of_le (as := b.midbuf) (by omega), ← qc, q3 (by simp)]
        rfl
      | none =>
        simp [packetSize, q1] at hn

/-- C36: for every source that returns whole packets (whatever their number per read) and reports
errors separately, and every sequence of destination sizes, no bytes are lost, duplicated or
reordered, even across errors. -/
theorem C36_packet_source (src : Src) (hp : PacketSource src) (calls : List Nat) :
    (({ r := src } : BufferedReader).readAll calls).1
      ++ unread (({ r := src } : BufferedReader).readAll calls).2.2
      ++ (({ r := src } : BufferedReader).readAll calls).2.2.r.data = src.data := by
  have key : ∀ (calls : List Nat) (b : BufferedReader), PacketSource b.r →
      (b.readAll calls).1 ++ (b.readAll calls).2.2.midbuf.drop (b.readAll calls).2.2.midbufpos
      ++ (b.readAll calls).2.2.r.data = b.midbuf.drop b.midbufpos ++ b.r.data := by
    intro calls
    induction calls with
    | nil => intro b _; simp [BufferedReader.readAll]
    | cons n l ih =>
      intro b hb
      obtain ⟨h1, h2⟩ := buffered_packets_step b n hb
      simp only [BufferedReader.readAll]
      rcases hr : b.read n with ⟨out, e, b'⟩
      simp only [hr] at h1 h2 ⊢
      have := ih b' h1
      rw [← h2, List.append_assoc, List.append_assoc, List.append_assoc] at *
      rw [this]
  refine (key calls { r := src } hp).trans ?_
  simp

/-- C36: a call that does not fail makes progress: it hands out as many bytes as fit from what is
buffered or, if nothing is buffered, from what the source has just delivered. -/
theorem C36_progress (b : BufferedReader) (plen : Nat) (h : (b.read plen).2.1 = none) :
    (b.read plen).1.length = min plen (if unread b = [] then (b.r.read 1500).1.length else (unread b).length) := by
  unfold unread
  unfold BufferedReader.read at *
  by_cases h1 : b.midbufpos < b.midbuf.length
  · simp only [if_pos h1]
    rw [if_neg (by rw [List.drop_eq_nil_iff]; omega), List.length_take]
  · rw [if_neg h1] at h ⊢
    rw [if_pos (by rw [List.drop_eq_nil_iff]; omega)]
    rcases hr : b.r.read 1500 with ⟨mid, e, r⟩
    rw [hr] at h
    cases e with
    | some e => simp at h
    | none =>
      simp only at h ⊢
      by_cases h2 : mid.length % packetSize = 0
      · simp [h2]
      · simp [h2] at h

/-- A read of a size that is not a multiple of 188 loses its bytes: the full statement of C36 fails. -/
theorem C36_loses_on_odd_size : ∃ (src : Src) (calls : List Nat), (∀ k ∈ src.sched, k.2 = none) ∧
    (({ r := src } : BufferedReader).readAll calls).1
      ++ unread (({ r := src } : BufferedReader).readAll calls).2.2
      ++ (({ r := src } : BufferedReader).readAll calls).2.2.r.data ≠ src.data :=
  ⟨⟨[1, 2, 3], [(1, none)]⟩, [10], by decide +kernel, by decide +kernel⟩

/-- Bytes that come together with an error are lost too. -/
theorem C36_loses_with_error :
    ((({ r := ⟨List.replicate 188 7, [(188, some "EOF")]⟩ } : BufferedReader).readAll [188, 188]).1 = []) ∧
    ((({ r := ⟨List.replicate 188 7, [(188, some "EOF")]⟩ } : BufferedReader).readAll [188, 188]).2.2.r.data = []) := by
  decide +kernel

example : (({ r := ⟨List.replicate 376 7, [(376, none)]⟩ } : BufferedReader).readAll [100, 200, 300]).1
    = List.replicate 376 7 := by decide +kernel
example : PacketSource ⟨List.replicate 376 7, [(188, none), (0, some "timeout"), (376, none)]⟩ :=
  ⟨_, rfl, by decide +kernel, by decide +kernel⟩

/-! ## C37 -/

/-- The recording phase. -/
theorem record_conserves (calls : List Nat) : ∀ b : Rewindable, b.rewinded = false →
    b.size + (b.r.data.length - (b.readAll calls).2.2.r.data.length) ≤ maxRecordedSize →
    (b.readAll calls).2.2.rewinded = false ∧
    (b.readAll calls).2.2.entries.flatten = b.entries.flatten ++ (b.readAll calls).1 ∧
    (b.readAll calls).1 ++ (b.readAll calls).2.2.r.data = b.r.data := by
  have mono : ∀ (calls : List Nat) (b : Rewindable), (b.readAll calls).2.2.r.data.length ≤ b.r.data.length := by
    intro calls
    induction calls with
    | nil => intro b; simp [Rewindable.readAll]
    | cons n l ih =>
      intro b
      have h1 : (b.read n).2.2.r.data.length ≤ b.r.data.length := by
        have hc := congrArg List.length (src_read_conserves b.r n)
        rw [List.length_append] at hc
        unfold Rewindable.read
        split
        · simp only
          split <;> simp only <;> omega
        · split
          · simp only; split <;> simp
          · simp only; omega
      simp only [Rewindable.readAll]
      exact Nat.le_trans (ih _) h1
  induction calls with
  | nil => intro b h _; simp [Rewindable.readAll, h]
  | cons n l ih =>
    intro b h hs
    have hc := src_read_conserves b.r n
    simp only [Rewindable.readAll] at hs ⊢
    have hread : b.read n = if b.size + (b.r.read n).1.length > maxRecordedSize then
        ([], some "max recorded size exceeded", { b with r := (b.r.read n).2.2 })
      else ((b.r.read n).1, (b.r.read n).2.1,
        { b with r := (b.r.read n).2.2, entries := b.entries ++ [(b.r.read n).1],
                 size := b.size + (b.r.read n).1.length }) := by
      unfold Rewindable.read; rw [if_pos h]
    have hl := congrArg List.length hc
    rw [List.length_append] at hl
    have hm := mono l (b.read n).2.2
    have hnot : ¬ b.size + (b.r.read n).1.length > maxRecordedSize := by
      intro hgt
      rw [hread, if_pos hgt] at hm hs
      simp only at hm hs
      omega
    rw [if_neg hnot] at hread
    rw [hread] at hs hm ⊢
    simp only at hs hm ⊢
    obtain ⟨i1, i2, i3⟩ := ih ⟨(b.r.read n).2.2, b.entries ++ [(b.r.read n).1],
      b.size + (b.r.read n).1.length, b.rewinded⟩ h (by simp only; omega)
    refine ⟨i1, ?_, ?_⟩
    · rw [i2]; simp
    · rw [List.append_assoc, i3]; exact hc

/-- One read after `Rewind`. -/
theorem replay_step (b : Rewindable) (h : b.rewinded = true) (n : Nat) :
    (b.read n).2.2.rewinded = true ∧
    (b.read n).1 ++ ((b.read n).2.2.entries.flatten ++ (b.read n).2.2.r.data) = b.entries.flatten ++ b.r.data := by
  unfold Rewindable.read
  rw [if_neg (by simp [h])]
  cases he : b.entries with
  | nil =>
    simp only
    refine ⟨h, ?_⟩
    simpa [he] using src_read_conserves b.r n
  | cons e l =>
    simp only
    by_cases hh : (e.take n).length = e.length
    · simp only [hh, ne_eq, not_true_eq_false, if_false]
      refine ⟨h, ?_⟩
      rw [List.length_take] at hh
      rw [List.take_of_length_le (by omega)]
      simp
    · simp only [hh, ne_eq, not_false_eq_true, if_true]
      refine ⟨h, ?_⟩
      rw [List.length_take] at hh ⊢
      rw [Nat.min_eq_left (by omega)]
      simp only [List.flatten_cons]
      rw [← List.append_assoc, ← List.append_assoc, List.take_append_drop]

theorem replay_conserves (calls : List Nat) : ∀ b : Rewindable, b.rewinded = true →
    (b.readAll calls).1 ++ ((b.readAll calls).2.2.entries.flatten ++ (b.readAll calls).2.2.r.data)
      = b.entries.flatten ++ b.r.data := by
  induction calls with
  | nil => intro b _; simp [Rewindable.readAll]
  | cons n l ih =>
    intro b h
    obtain ⟨h1, h2⟩ := replay_step b h n
    simp only [Rewindable.readAll]
    rw [← h2, List.append_assoc, ih _ h1]

/-- C37: whatever was read before `Rewind` (at most the limit), the bytes read after `Rewind`, followed
by what is still recorded and what is still in the source, are the bytes read before followed by the
rest of the source. This is for every source schedule, including errors, and every call sequence. -/
theorem C37_rewind_replays (src : Src) (before after : List Nat) (b1 : Rewindable)
    (hb1 : b1 = (({ r := src } : Rewindable).readAll before).2.2)
    (hlim : src.data.length - b1.r.data.length ≤ 1024 * 1024) :
    (b1.rewind.readAll after).1 ++ ((b1.rewind.readAll after).2.2.entries.flatten
        ++ (b1.rewind.readAll after).2.2.r.data)
      = (({ r := src } : Rewindable).readAll before).1 ++ b1.r.data ∧
    (({ r := src } : Rewindable).readAll before).1 ++ b1.r.data = src.data := by
  have h := record_conserves before { r := src } rfl (by rw [← hb1]; simp only [maxRecordedSize]; omega)
  rw [← hb1] at h
  obtain ⟨_, h2, h3⟩ := h
  refine ⟨?_, h3⟩
  rw [replay_conserves after b1.rewind rfl]
  simp only [Rewindable.rewind]
  rw [h2]
  simp

/-- The recording is used up after as many reads into non-empty destinations as it has bytes and
entries. -/
theorem replay_progress (calls : List Nat) (hpos : ∀ n ∈ calls, 1 ≤ n) : ∀ b : Rewindable, b.rewinded = true →
    b.entries.flatten.length + b.entries.length ≤ calls.length → (b.readAll calls).2.2.entries = [] := by
  induction calls with
  | nil =>
    intro b _ hl
    have : b.entries = [] := by
      rw [← List.length_eq_zero_iff]; simp only [List.length_nil] at hl; omega
    simpa [Rewindable.readAll] using this
  | cons n l ih =>
    intro b h hl
    have hn := hpos n (by simp)
    simp only [Rewindable.readAll]
    refine ih (fun m hm => hpos m (by simp [hm])) _ (replay_step b h n).1 ?_
    unfold Rewindable.read
    rw [if_neg (by simp [h])]
    cases he : b.entries with
    | nil => simp
    | cons e t =>
      rw [he] at hl
      simp only [List.length_cons, List.flatten_cons, List.length_append] at hl
      simp only
      split
      · rename_i hh
        rw [List.length_take] at hh
        simp only [List.length_cons, List.flatten_cons, List.length_append, List.length_drop, List.length_take]
        omega
      · simp only; omega

/-- C37: after enough further reads everything recorded has been replayed, so that the bytes read
after `Rewind` are the ones read before it followed by what was then read from the source. -/
theorem C37_rewind_complete (src : Src) (before after : List Nat) (b1 : Rewindable)
    (hb1 : b1 = (({ r := src } : Rewindable).readAll before).2.2)
    (hlim : src.data.length - b1.r.data.length ≤ 1024 * 1024)
    (hpos : ∀ n ∈ after, 1 ≤ n)
    (hlen : (src.data.length - b1.r.data.length) + b1.entries.length ≤ after.length) :
    (b1.rewind.readAll after).1 ++ (b1.rewind.readAll after).2.2.r.data
      = (({ r := src } : Rewindable).readAll before).1 ++ b1.r.data := by
  obtain ⟨h1, h2⟩ := C37_rewind_replays src before after b1 hb1 hlim
  have h := record_conserves before { r := src } rfl (by rw [← hb1]; simp only [maxRecordedSize]; omega)
  rw [← hb1] at h
  have hE := replay_progress after hpos b1.rewind rfl (by
    simp only [Rewindable.rewind]
    rw [h.2.1]
    have := congrArg List.length h2
    simp only [List.length_append, List.flatten_nil, List.nil_append] at this ⊢
    omega)
  rw [hE] at h1
  simpa using h1

/-- Beyond the limit bytes are lost: the limit in C37 is needed. -/
theorem C37_limit_needed (src : Src) (k : Nat) (hk : 1024 * 1024 < k) (hd : src.data.length = k)
    (hs : src.sched = [(k, none)]) :
    (({ r := src } : Rewindable).readAll [k]).1 = [] ∧ (({ r := src } : Rewindable).readAll [k]).2.2.r.data = [] := by
  simp only [Rewindable.readAll, Rewindable.read, Src.read, hs, if_true, Nat.min_self]
  rw [if_pos (by rw [List.length_take, maxRecordedSize]; omega)]
  simp [← hd]

/-- C37: what is recorded is bounded by the limit, whatever the source delivers and however often it is read. -/
theorem C37_bounded (src : Src) (calls : List Nat) :
    (({ r := src } : Rewindable).readAll calls).2.2.entries.flatten.length ≤ 1024 * 1024 := by
  have key : ∀ (calls : List Nat) (b : Rewindable), b.rewinded = false → b.size = b.entries.flatten.length → b.size ≤ 1024 * 1024 →
      (b.readAll calls).2.2.entries.flatten.length ≤ 1024 * 1024 := by
    intro calls
    induction calls with
    | nil => intro b _ h1 h2; simp only [Rewindable.readAll]; omega
    | cons n l ih =>
      intro b hb h1 h2
      simp only [Rewindable.readAll]
      unfold Rewindable.read
      rw [if_pos hb]
      dsimp only
      split
      · exact ih _ hb h1 h2
      · rename_i hm
        refine ih _ hb ?_ (by simp only [maxRecordedSize] at hm; dsimp only; omega)
        simp only [List.flatten_append, List.length_append, List.flatten_cons, List.flatten_nil, List.append_nil, h1]
  exact key calls _ rfl rfl (by simp)

example : ((({ r := ⟨[1, 2, 3, 4, 5], [(2, none), (1, some "x"), (9, none)]⟩ } : Rewindable).readAll [2, 2]).2.2.rewind.readAll
    [1, 9, 9, 9]).1 = [1, 2, 3, 4, 5] := by decide +kernel

/-! ## C38 -/

/-- One call: it never runs out of fuel (the loop terminates for every source), and what it hands out
is the next part of the resynchronised stream. -/
theorem preDemuxer_step (d : PreDemuxer) (plen : Nat) :
    (∃ out d', d.read plen = some (out, none, d') ∧
      out ++ d'.buf2 ++ (resync (d'.buf1 ++ d'.r.data)).flatten
        = d.buf2 ++ (resync (d.buf1 ++ d.r.data)).flatten ∧
      (d.buf2 = [] → IsPacket (out ++ d'.buf2)) ∧ (d.buf2 ≠ [] → out ++ d'.buf2 = d.buf2)) ∨
    (∃ e d' lost, d.read plen = some ([], some e, d') ∧ d.buf2 = [] ∧ d'.buf1 = [] ∧ d'.buf2 = [] ∧ lost.length < 188 ∧
      (resync (lost ++ d'.r.data)) = (resync (d.buf1 ++ d.r.data))) := by
  unfold PreDemuxer.read
  by_cases hb : d.buf2.length = 0
  · rw [if_pos hb]
    have hb' := List.length_eq_zero_iff.1 hb
    rcases fillLoop_spec _ d.r d.buf1 [] (by simp) (Nat.lt_succ_self _) with ⟨r', b', p, h1, h2, h3⟩ | ⟨e, r', lost, h1, h2, h3⟩
    · refine .inl ⟨_, _, by rw [h1], ?_, ?_, ?_⟩
      · simp only [List.take_append_drop]
        rw [List.nil_append] at h3
        rw [hb', h3]; simp
      · intro _; simp only [List.take_append_drop]; exact h2
      · intro h; exact absurd hb' h
    · rw [List.nil_append] at h3
      exact .inr ⟨e, _, lost, by rw [h1], hb', rfl, rfl, h2, h3.symm⟩
  · rw [if_neg hb]
    refine .inl ⟨_, _, rfl, ?_, ?_, ?_⟩
    · simp
    · intro h; rw [h] at hb; simp at hb
    · intro _; simp

theorem preDemuxer_run (calls : List Nat) : ∀ d : PreDemuxer,
    (∃ out d', d.readUntilErr calls = some (out, none, d') ∧
      out ++ d'.buf2 ++ (resync (d'.buf1 ++ d'.r.data)).flatten
        = d.buf2 ++ (resync (d.buf1 ++ d.r.data)).flatten) ∨
    (∃ out e d' lost, d.readUntilErr calls = some (out, some e, d') ∧ lost.length < 188 ∧
      out ++ (resync (lost ++ d'.r.data)).flatten = d.buf2 ++ (resync (d.buf1 ++ d.r.data)).flatten) := by
  induction calls with
  | nil => intro d; exact .inl ⟨[], d, rfl, by simp⟩
  | cons n l ih =>
    intro d
    unfold PreDemuxer.readUntilErr
    rcases preDemuxer_step d n with ⟨out, d', h1, h2, _⟩ | ⟨e, d', lost, h1, h2, _, _, h4, h5⟩
    · rw [h1]
      simp only
      rcases ih d' with ⟨out', d'', g1, g2⟩ | ⟨out', e, d'', lost, g1, g2, g3⟩
      · rw [g1]
        exact .inl ⟨_, _, rfl, by rw [← h2]; simp only [List.append_assoc] at g2 ⊢; rw [g2]⟩
      · rw [g1]
        exact .inr ⟨_, _, _, lost, rfl, g2, by rw [← h2]; simp only [List.append_assoc] at g3 ⊢; rw [g3]⟩
    · rw [h1]
      exact .inr ⟨_, _, _, lost, rfl, h4, by rw [h2, h5]⟩

/-- C38: for every stream, every chunking and every sequence of destination sizes, the calls up to the
first failure terminate without a panic and hand out a prefix of the packets of the resynchronised
stream. All of those are whole 188-byte packets that start with the sync byte. -/
theorem C38_predemuxer_prefix (src : Src) (calls : List Nat) :
    (∀ p ∈ resync src.data, IsPacket p) ∧
    ∃ out e d', ({ r := src } : PreDemuxer).readUntilErr calls = some (out, e, d') ∧
      out <+: (resync src.data).flatten := by
  refine ⟨resync_all_packets _, ?_⟩
  rcases preDemuxer_run calls { r := src } with ⟨out, d', h1, h2⟩ | ⟨out, e, d', lost, h1, h2, h3⟩
  · exact ⟨out, none, d', h1, d'.buf2 ++ (resync (d'.buf1 ++ d'.r.data)).flatten, by
      simpa [List.append_assoc] using h2⟩
  · exact ⟨out, some e, d', h1, _, by simpa using h3⟩

/-- C38: if the first failure comes when the source is drained, all packets of the resynchronised
stream have been handed out, whatever the chunking and the destination sizes. -/
theorem C38_predemuxer_all (src : Src) (calls : List Nat) (out : Bytes) (e : String) (d' : PreDemuxer)
    (h : ({ r := src } : PreDemuxer).readUntilErr calls = some (out, some e, d')) (hd : d'.r.data = []) :
    out = (resync src.data).flatten := by
  rcases preDemuxer_run calls { r := src } with ⟨out', d'', h1, h2⟩ | ⟨out', e', d'', lost, h1, h2, h3⟩
  · rw [h] at h1; simp at h1
  · rw [h] at h1
    simp only [Option.some.injEq, Prod.mk.injEq] at h1
    obtain ⟨rfl, _, rfl⟩ := h1
    rw [hd, List.append_nil, resync_short _ h2] at h3
    simpa using h3

/-- C38: a clean stream is its own resynchronisation, hence passes through unchanged. -/
theorem C38_predemuxer_clean (src : Src) (pkts : List Bytes) (hp : ∀ p ∈ pkts, IsPacket p)
    (hs : src.data = pkts.flatten) (calls : List Nat) :
    (∃ out e d', ({ r := src } : PreDemuxer).readUntilErr calls = some (out, e, d') ∧ out <+: src.data) ∧
    ∀ out e d', ({ r := src } : PreDemuxer).readUntilErr calls = some (out, some e, d') → d'.r.data = [] →
      out = src.data := by
  have hr : resync src.data = pkts := by
    rw [hs]
    clear hs
    induction pkts with
    | nil => simp [resync]
    | cons p l ih =>
      rw [List.flatten_cons, resync_packet (hp p (by simp)), ih (fun q hq => hp q (by simp [hq]))]
  constructor
  · obtain ⟨_, h⟩ := C38_predemuxer_prefix src calls
    rwa [hr, ← hs] at h
  · intro out e d' h hd
    rw [C38_predemuxer_all src calls out e d' h hd, hr, hs]

/-- All calls, going on after failures: the bytes handed out in total. -/
def preDemuxerReadAll (d : PreDemuxer) : List Nat → Option (Bytes × PreDemuxer)
  | [] => some ([], d)
  | n :: l =>
    match d.read n with
    | none => none
    | some (out, _, d') =>
      match preDemuxerReadAll d' l with
      | none => none
      | some (out', d'') => some (out ++ out', d'')

theorem preDemuxerReadAll_packets (calls : List Nat) : ∀ d : PreDemuxer,
    ∃ (out : Bytes) (d' : PreDemuxer) (pkts : List Bytes), preDemuxerReadAll d calls = some (out, d') ∧ (∀ p ∈ pkts, IsPacket p) ∧
      out ++ d'.buf2 = d.buf2 ++ pkts.flatten := by
  induction calls with
  | nil => intro d; exact ⟨[], d, [], rfl, by simp, by simp⟩
  | cons n l ih =>
    intro d
    unfold preDemuxerReadAll
    rcases preDemuxer_step d n with ⟨out, d', h1, _, h3, h4⟩ | ⟨e, d', lost, h1, h2, _, h3, _, _⟩
    · rw [h1]
      obtain ⟨out', d'', pkts, g1, g2, g3⟩ := ih d'
      simp only
      rw [g1]
      by_cases hb : d.buf2 = []
      · refine ⟨_, _, (out ++ d'.buf2) :: pkts, rfl, ?_, ?_⟩
        · intro p hp
          rcases List.mem_cons.1 hp with rfl | hp
          · exact h3 hb
          · exact g2 p hp
        · rw [List.append_assoc, g3, hb]; simp
      · refine ⟨_, _, pkts, rfl, g2, ?_⟩
        rw [List.append_assoc, g3, ← List.append_assoc, h4 hb]
    · rw [h1]
      obtain ⟨out', d'', pkts, g1, g2, g3⟩ := ih d'
      simp only
      rw [g1]
      refine ⟨_, _, pkts, rfl, g2, ?_⟩
      rw [List.nil_append, g3, h3, h2]

/-- C38: also when the caller goes on after failures, everything handed out (together with the rest of
the packet being handed out) consists of whole packets starting with the sync byte. -/
theorem C38_predemuxer_aligned (src : Src) (calls : List Nat) :
    ∃ (out : Bytes) (d' : PreDemuxer) (pkts : List Bytes), preDemuxerReadAll { r := src } calls = some (out, d') ∧ (∀ p ∈ pkts, IsPacket p) ∧
      out ++ d'.buf2 = pkts.flatten := by
  simpa using preDemuxerReadAll_packets calls { r := src }

/-- C38: a packet-sized destination always receives exactly one packet. -/
theorem C38_predemuxer_packet_reads (d : PreDemuxer) (hd : d.buf2 = []) (out : Bytes) (d' : PreDemuxer)
    (h : d.read 188 = some (out, none, d')) : IsPacket out ∧ d'.buf2 = [] := by
  unfold PreDemuxer.read at h
  rw [if_pos (by simp [hd])] at h
  rcases fillLoop_spec _ d.r d.buf1 [] (by simp) (Nat.lt_succ_self _) with ⟨r', b', p, h1, h2, h3⟩ | ⟨e, r', lost, h1, h2, h3⟩
  · rw [h1] at h
    simp only [Option.some.injEq, Prod.mk.injEq, true_and] at h
    obtain ⟨rfl, rfl⟩ := h
    rw [List.take_of_length_le (by rw [h2.1]; omega), List.drop_of_length_le (by rw [h2.1]; omega)]
    exact ⟨h2, rfl⟩
  · rw [h1] at h; simp at h

/-- An error in the middle of a packet loses the bytes collected so far, even in a clean stream. -/
theorem C38_error_inside_packet_loses :
    ((preDemuxerReadAll { r := ⟨List.replicate 376 0x47, [(100, none), (0, some "timeout"), (276, none)]⟩ }
      [188, 188, 188]).map (·.1.length)) = some 188 := by decide +kernel

/-- Garbage before and between two packets, chunked oddly. -/
example : (({ r := ⟨[1, 2] ++ List.replicate 188 0x47 ++ [3] ++ List.replicate 188 0x47,
      [(50, none), (0, none), (300, some "x"), (500, none)]⟩ } : PreDemuxer).readUntilErr [100, 100, 188, 188]).map (·.1)
    = some (List.replicate 376 0x47) := by decide +kernel

/-! ## C39 -/

/-- The buffer represents the file. -/
structure Rep (b : SBuf) (f : File) : Prop where
  bytes : b.buf = f.bytes
  pos : b.pos = f.pos
  le : f.pos ≤ f.len
  zero : ∀ i, f.len ≤ i → f.content i = 0

theorem Rep.len {b : SBuf} {f : File} (h : Rep b f) : b.buf.length = f.len := by
  rw [h.bytes]; simp [File.bytes]

theorem rep_write {b : SBuf} {f : File} (h : Rep b f) (p : Bytes) :
    ∃ b', b.write p = .ok (p.length, b') ∧ Rep b' (f.write p) := by
  have hlen := h.len
  have hpos := h.pos
  have hle := h.le
  have hget : ∀ i (hi : i < b.buf.length), b.buf[i] = f.content i := by
    intro i hi
    simp [h.bytes, File.bytes]
  unfold SBuf.write
  by_cases hc : b.pos < b.buf.length
  · rw [if_pos hc, if_neg (by omega)]
    have hk : b.pos.toNat = f.pos := by omega
    simp only [hk]
    have hpl : min p.length (b.buf.length - f.pos) + (p.drop (min p.length (b.buf.length - f.pos))).length = p.length := by
      rw [List.length_drop]; omega
    rw [hpl]
    refine ⟨_, rfl, ?_, ?_, ?_, ?_⟩
    · unfold File.bytes File.write
      apply List.ext_getElem
      · simp; omega
      · intro i h1 h2
        simp only [List.getElem_map, List.getElem_range]
        simp only [List.length_map, List.length_range] at h2
        have hg := hget i
        simp only [List.getElem_append, List.getElem_take, List.getElem_drop, List.length_append, List.length_take,
          List.length_drop]
        repeat' split
        all_goals first
          | omega
          | exact hget _ _
          | (rw [hget]; congr 1; omega)
          | skip
        all_goals
          rw [List.getD_eq_getElem _ _ (by omega)]
          first
            | rfl
            | (congr 1; omega)
    · simp only [File.write]; omega
    · simp only [File.write]; omega
    · intro i hi
      simp only [File.write] at hi ⊢
      rw [if_neg (by omega), h.zero i (by omega)]
  · rw [if_neg hc]
    have hpl : f.pos = f.len := by omega
    refine ⟨_, rfl, ?_, ?_, ?_, ?_⟩
    · unfold File.bytes File.write
      apply List.ext_getElem
      · simp; omega
      · intro i h1 h2
        simp only [List.getElem_map, List.getElem_range]
        simp only [List.length_map, List.length_range] at h2
        simp only [List.getElem_append]
        split
        · rw [if_neg (by omega), hget]
        · rw [if_pos (by omega), List.getD_eq_getElem _ _ (by omega)]
          congr 1; omega
    · simp only [File.write]; omega
    · simp only [File.write]; omega
    · intro i hi
      simp only [File.write] at hi ⊢
      rw [if_neg (by omega), h.zero i (by omega)]

theorem rep_target {b : SBuf} {f : File} (h : Rep b f) (o w : Int) : b.target o w = f.target o w := by
  unfold SBuf.target File.target
  split
  · rename_i hw; subst hw; rfl
  · split
    · rename_i hw; subst hw; simp [h.pos]
    · split
      · rename_i hw; subst hw; simp [h.len]
      · split <;> first | rfl | omega

theorem rep_seek {b : SBuf} {f : File} (h : Rep b f) (o w : Int) :
    match f.seek o w with
    | none => b.seek o w = (0, some "negative position", b)
    | some f' => ∃ b', b.seek o w = ((f'.pos : Int), none, b') ∧ Rep b' f' := by
  have hlen := h.len
  unfold SBuf.seek File.seek
  rw [rep_target h]
  by_cases hn : f.target o w < 0
  · simp [hn]
  · simp only [hn, if_false]
    generalize f.target o w = t at *
    have ht : ((t.toNat : Nat) : Int) = t := by omega
    by_cases hd : t - (b.buf.length : Int) > 0
    · rw [if_pos hd]
      refine ⟨_, by rw [ht], ?_, ?_, ?_, ?_⟩
      · simp only [File.bytes]
        apply List.ext_getElem
        · simp; omega
        · intro i h1 h2
          simp only [List.getElem_map, List.getElem_range, List.getElem_append, List.getElem_replicate]
          split
          · simp [h.bytes, File.bytes]
          · rw [h.zero i (by omega)]
      · simp only; omega
      · simp only; omega
      · intro i hi; simp only at hi ⊢; exact h.zero i (by omega)
    · rw [if_neg hd]
      have hm : max f.len t.toNat = f.len := by omega
      refine ⟨_, by rw [ht], ?_, ?_, ?_, ?_⟩
      · simp only [File.bytes, hm]; exact h.bytes
      · simp only; omega
      · simp only; omega
      · intro i hi; simp only [hm] at hi ⊢; exact h.zero i hi

theorem rep_step {b : SBuf} {f : File} (h : Rep b f) (op : SOp) :
    ∃ b', b.step op = .ok ((f.step op).1.1, (f.step op).1.2, b') ∧ Rep b' (f.step op).2 := by
  cases op with
  | write p =>
    obtain ⟨b', h1, h2⟩ := rep_write h p
    exact ⟨b', by simp [SBuf.step, h1, File.step], h2⟩
  | seek o w =>
    have hs := rep_seek h o w
    simp only [SBuf.step, File.step]
    cases hf : f.seek o w with
    | none =>
      rw [hf] at hs
      simp only at hs ⊢
      exact ⟨b, by rw [hs], h⟩
    | some f' =>
      rw [hf] at hs
      simp only at hs ⊢
      obtain ⟨b', h1, h2⟩ := hs
      exact ⟨b', by rw [h1], h2⟩
  | reset =>
    refine ⟨{}, rfl, ?_, rfl, Nat.le_refl _, fun _ _ => rfl⟩
    simp [File.step, File.bytes, File.empty]

theorem rep_run (ops : List SOp) : ∀ {b : SBuf} {f : File}, Rep b f →
    ∃ b', b.run ops = .ok ((f.run ops).1, b') ∧ Rep b' (f.run ops).2 := by
  induction ops with
  | nil => intro b f h; exact ⟨b, rfl, h⟩
  | cons op l ih =>
    intro b f h
    obtain ⟨b1, h1, h2⟩ := rep_step h op
    obtain ⟨b2, g1, g2⟩ := ih h2
    refine ⟨b2, ?_, g2⟩
    unfold SBuf.run File.run
    rw [h1]
    simp [g1]

/-- C39: any sequence of writes, seeks and resets on a new buffer returns the results, the errors and the
contents that the same operations on a zero-filling file give. In particular none of them panics, and
a refused seek leaves the buffer as it was. -/
theorem C39_seekable_buffer (ops : List SOp) :
    ∃ b', ({} : SBuf).run ops = .ok ((File.empty.run ops).1, b') ∧
      b'.buf = (File.empty.run ops).2.bytes ∧ b'.pos = (File.empty.run ops).2.pos := by
  obtain ⟨b', h1, h2⟩ := rep_run ops (b := {}) (f := File.empty)
    ⟨by simp [File.bytes, File.empty], rfl, Nat.le_refl _, fun _ _ => rfl⟩
  exact ⟨b', h1, h2.bytes, h2.pos⟩

/-- C39: a refused seek changes nothing. -/
theorem C39_failed_seek (b : SBuf) (o w : Int) (e : String) (n : Int) (b' : SBuf) (h : b.seek o w = (n, some e, b')) :
    b' = b ∧ n = 0 ∧ b.target o w < 0 := by
  unfold SBuf.seek at h
  simp only at h
  split at h
  · rename_i hn
    simp only [Prod.mk.injEq] at h
    exact ⟨h.2.2.symm, h.1.symm, hn⟩
  · split at h <;> simp at h

example : ({} : SBuf).run [.write [1, 2, 3, 4], .seek (-3) 2, .write [9, 8], .seek 6 0, .write [7], .seek (-1) 0]
    = .ok ([(4, none), (1, none), (2, none), (6, none), (1, none), (0, some "negative position")],
      { buf := [1, 9, 8, 4, 0, 0, 7], pos := 7 }) := by decide +kernel

end Verif.Props
