import Verif.Model.Base

/-!
# Methods that change their receiver

`StepM σ α` is a Go method with a pointer receiver of type `σ` that returns `(α, error)`. The new value of the receiver is
returned in every case, since assignments made before an error or a panic stay.
-/

namespace Verif

/-- Code that changes a state and returns a value, an error or a panic. -/
def StepM (σ α : Type) := σ → σ × Res α

namespace StepM

variable {σ α β : Type}

instance : Monad (StepM σ) where
  pure a := fun s => (s, .ok a)
  bind p f := fun s =>
    match p s with
    | (s, .ok a) => f a s
    | (s, .err e) => (s, .err e)
    | (s, .panic) => (s, .panic)

/-- `return ..., err`. -/
def fail (e : String) : StepM σ α := fun s => (s, .err e)

/-- Code that does not touch the receiver. -/
def lift (x : Res α) : StepM σ α := fun s => (s, x)

/-- The receiver. -/
def get : StepM σ σ := fun s => (s, .ok s)

/-- Assignments to fields of the receiver. -/
def modify (f : σ → σ) : StepM σ Unit := fun s => (f s, .ok ())

/-- Successive calls with the given arguments: the results, in order. -/
def calls (f : α → StepM σ β) (s : σ) : List α → List (Res β)
  | [] => []
  | a :: l => (f a s).2 :: calls f (f a s).1 l

/-- The receiver after successive calls. -/
def after (f : α → StepM σ β) (s : σ) : List α → σ
  | [] => s
  | a :: l => after f (f a s).1 l

end StepM

end Verif
