import Verif.Model.PMP4File
import Verif.Model.FMP4

/-!
# Model: the readers of boxes, with a limit on the nesting

None of `Init.Unmarshal` (init.go), `Presentation.Unmarshal` (presentation.go) and `Parts.Unmarshal` (parts.go) looks at how many boxes
there are around a box: each box that is expanded is another call of the handler, inside that of its parent. Here are the three functions with
a limit: the handler returns an error on a box that is in more than `limit` - 1 others. A file on which the limit changes what is returned is one
for which the calls are nested deeper than the limit.
-/

namespace Verif.Depth
open FMP4Init (Fields Handler readTree)
open FMP4 (BoxInfo)

/-- A handler, with a check of `len(h.Path)` in front. -/
def limited {σ : Type} (limit : Nat) (h : Handler σ) : Handler σ := fun bi depth payload expand r =>
  if limit < depth then .err "too deep" else h bi depth payload expand r

/-- init.go:19-185 (`Init.Unmarshal`), with a limit at init.go:39. -/
def initUnmarshal (limit : Nat) (fields : Fields) (b : Bytes) : Res FMP4Init.Init := do
  let r ← readTree fields (limited limit (FMP4Init.handle fields)) (b.length + 1) b 0 none 1 {}
  if r.state ≠ .waitingTrak ∧ r.state ≠ .readingUserData then .err "parse error"
  else if r.tracks.length = 0 then .err "no tracks found"
  else .ok ⟨r.tracks, r.userData⟩

/-- presentation.go:34-395 (`Presentation.Unmarshal`), with a limit at presentation.go:64. -/
def presentationUnmarshal (limit : Nat) (fields : Fields) (b : Bytes) : Res (List (PMP4.RTrack × Option MP4Codec.Codec)) := do
  let r ← readTree fields (limited limit PMP4File.handle) (b.length + 1) b 0 none 1 {}
  if r.base.state ≠ .waitingTrak ∧ r.base.state ≠ .waitingSampleProps then .err "parse error"
  else if r.base.all = [] then .err "no tracks found"
  else .ok (r.base.all.zip r.allCodecs)

/-- parts.go:36-203: the handler. `moof` and `traf`, that are expanded, have no fields. -/
def partsHandle (b : Bytes) : Handler FMP4.Reader := fun bi _ _ expand r => FMP4.handle b bi expand r

/-- parts.go:19-213 (`Parts.Unmarshal`), with a limit at parts.go:36. -/
def partsUnmarshal (limit : Nat) (b : Bytes) : Res (List FMP4.Part) := do
  let r ← readTree (fun _ _ => some 0) (limited limit (partsHandle b)) (b.length + 1) b 0 none 1 {}
  if r.state ≠ .waitingMoof then .err "decode error" else .ok r.parts

end Verif.Depth
