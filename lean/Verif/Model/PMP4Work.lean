import Verif.Model.PMP4

/-!
# Model: pkg/formats/pmp4/track.go, the work of `marshalSTSC`

`marshalSTSC` of Model/PMP4.lean with the inner loop as it is written, and with the number of its rounds: each of them moves an entry.
-/

namespace Verif.PMP4

/-- track.go:457-459: `entries[j] = entries[j+1]`, with `j` up to `len(entries) - 2`: `n` rounds are left. -/
def moveLoop : Nat → Nat → List StscEntry → Res (Nat × List StscEntry)
  | 0, _, entries => .ok (0, entries)
  | n + 1, j, entries => do
    let x ← idx entries (j + 1)
    let (moves, entries) ← moveLoop n (j + 1) (entries.set j x)
    .ok (moves + 1, entries)

/-- track.go:455-462: `i` goes from the last index down to 1. -/
def stscCompressW : Nat → List StscEntry → Res (Nat × List StscEntry)
  | 0, entries => .ok (0, entries)
  | i + 1, entries => do
    let a ← idx entries (i + 1)
    let b ← idx entries i
    if a.samplesPerChunk = b.samplesPerChunk then do
      let (moves, entries') ← moveLoop (entries.length - 1 - (i + 1)) (i + 1) entries
      let entries'' ← slice entries' 0 (entries'.length - 1)
      let (more, res) ← stscCompressW i entries''
      .ok (moves + more, res)
    else stscCompressW i entries

/-- track.go:427-470 (`marshalSTSC`). -/
def marshalSTSCW (samples : List Sample) : Res (Nat × List StscEntry) :=
  match samples with
  | [] => .ok (0, [])
  | first :: l => do
    let entries ← stscLoop l first.end [⟨1, 1⟩]
    stscCompressW (entries.length - 1) entries

end Verif.PMP4
