/-!
# Specification: sample tables of ISO 14496-12, and merges

Written without reference to the model: tables are lists of pairs.
-/

namespace Verif.SampleTables

/-- ISO 14496-12, 8.6.1.2 and 8.6.1.3: an entry `(count, value)` gives a value to `count` consecutive samples. -/
def expand {α : Type} (runs : List (Nat × α)) : List α := runs.flatMap fun (n, v) => List.replicate n v

/-- Adjacent elements differ. -/
def AdjacentDiffer {α : Type} : List α → Prop
  | [] => True
  | [_] => True
  | a :: b :: l => a ≠ b ∧ AdjacentDiffer (b :: l)

/-- ISO 14496-12, 8.6.2: the sample of index `i` is a sync sample when the table is absent or has the number `i + 1`. -/
def isSync (table : Option (List Nat)) (i : Nat) : Prop :=
  match table with
  | none => True
  | some numbers => i + 1 ∈ numbers

/-- ISO 14496-12, 8.7.4: entries are `(first chunk, samples per chunk)`; the number of samples in chunk `n` is given by the last entry
whose first chunk is not after `n`. -/
def samplesInChunk (entries : List (Nat × Nat)) (n : Nat) : Nat :=
  entries.foldl (fun cur e => if e.1 ≤ n then e.2 else cur) 0

/-- Samples of a chunk are adjacent: their `(offset, size)`. -/
def chunkLocations : Nat → List Nat → List (Nat × Nat)
  | _, [] => []
  | off, s :: l => (off, s) :: chunkLocations (off + s) l

/-- The `(offset, size)` of all samples, given `(number of samples, offset)` of chunks, and sizes of samples. -/
def locations : List (Nat × Nat) → List Nat → List (Nat × Nat)
  | [], _ => []
  | (n, off) :: l, sizes => chunkLocations off (sizes.take n) ++ locations l (sizes.drop n)

/-- The three tables together: `stsc`, `stco`, `stsz`. Chunks are numbered from 1. -/
def tableLocations (stsc : List (Nat × Nat)) (stco : List Nat) (sizes : List Nat) : List (Nat × Nat) :=
  locations (List.zip ((List.range stco.length).map fun i => samplesInChunk stsc (i + 1)) stco) sizes

/-- The part of a file with a given offset and size. -/
def region {α : Type} (file : List α) (off size : Nat) : List α := (file.drop off).take size

/-- `out` is obtained from the lists by taking, again and again, the head of one of them, whose key is not greater than those of the
other heads, and less than those of the heads of lists that come before. -/
inductive MergeBy {α : Type} (key : α → Int) : List (List α) → List α → Prop
  | nil {ls : List (List α)} : (∀ l ∈ ls, l = []) → MergeBy key ls []
  | cons {pre post : List (List α)} {a : α} {l out : List α} :
      (∀ b m, (b :: m) ∈ pre → key a < key b) → (∀ b m, (b :: m) ∈ post → key a ≤ key b) →
      MergeBy key (pre ++ l :: post) out → MergeBy key (pre ++ (a :: l) :: post) (a :: out)

/-- `out` is obtained from the lists by taking, again and again, the head of one of them. -/
inductive Interleaving {α : Type} : List (List α) → List α → Prop
  | nil {ls : List (List α)} : (∀ l ∈ ls, l = []) → Interleaving ls []
  | cons {pre post : List (List α)} {a : α} {l out : List α} :
      Interleaving (pre ++ l :: post) out → Interleaving (pre ++ (a :: l) :: post) (a :: out)

/-- Start times of samples, given the time of the first one and the durations. -/
def startTimes : Int → List Nat → List Int
  | _, [] => []
  | t, d :: l => t :: startTimes (t + d) l

/-- A time, in units of `1 / timeScale` seconds, as nanoseconds, rounded towards zero. -/
def nanoseconds (t : Int) (timeScale : Nat) : Int := (t * 1000000000).tdiv timeScale

end Verif.SampleTables
