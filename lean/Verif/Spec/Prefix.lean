import Verif.Model.Base

/-!
# Decoders of headers and what follows the header
-/

namespace Verif.Spec

/-- Whatever follows a header that is accepted, the same value is returned; and a header that is cut anywhere is refused
with an error, unless only bytes that do not matter were cut, where the same value is returned. -/
structure HeadOnly {α : Type} (f : Bytes → Res α) : Prop where
  followed : ∀ a b x, f a = .ok x → f (a ++ b) = .ok x
  cut : ∀ a k x, f a = .ok x → f (a.take k) = .ok x ∨ ∃ e, f (a.take k) = .err e

end Verif.Spec
