import Verif.Spec.BitList

/-!
# Specification: bit-string grammars

The syntax tables of the video standards, read as relations between a value and the bits that carry it. A grammar does not
know about buffers, positions, lengths or errors. A table is written as a `do` block with one line for each syntax element.
-/

namespace Verif.Spec

/-- `G a bits`: the bits carry the value `a`. -/
def Gr (α : Type) := α → List Bool → Prop

namespace Gr

instance : Monad Gr where
  pure a := fun x bits => x = a ∧ bits = []
  bind G F := fun c bits => ∃ a b1 b2, G a b1 ∧ F a c b2 ∧ bits = b1 ++ b2

/-- `u(n)`: an unsigned number in `n` bits. -/
def u (n : Nat) : Gr Nat := fun v bits => v < 2 ^ n ∧ bits = bitsOfNat n v

/-- `u(1)`, as a flag. -/
def flag : Gr Bool := fun v bits => bits = [v]

/-- `n` bits of any value. -/
def reserved (n : Nat) : Gr Unit := fun _ bits => bits.length = n

/-- `n` bits of value `k`. -/
def lit (n k : Nat) : Gr Unit := fun _ bits => bits = bitsOfNat n k

/-- `ue(v)`: an Exp-Golomb code word of up to 32 leading zeros. The code words of the standards have at most 31 of them, or
32 for the single value `2^32 - 1`; with 32 of them the number is kept modulo `2^32`. -/
def ue : Gr Nat := fun v bits => ∃ w, Nat.log2 (w + 1) ≤ 32 ∧ v = w % 2 ^ 32 ∧ bits = golombBits w

/-- The signed number of a code word (ITU-T H.264 9.1.1): `0, 1, -1, 2, -2, ...`. -/
def signed (w : Nat) : Int := if w % 2 = 1 then ((w + 1) / 2 : Nat) else - ((w / 2 : Nat) : Int)

/-- Kept in 31 bits, as a signed number; the numbers of the standards that matter are smaller. -/
def wrap31 (v : Int) : Int := (v + 2 ^ 30) % 2 ^ 31 - 2 ^ 30

/-- `se(v)`: a signed Exp-Golomb code word of up to 32 leading zeros. -/
def se : Gr Int := fun v bits => ∃ w, Nat.log2 (w + 1) ≤ 32 ∧ v = wrap31 (signed w) ∧ bits = golombBits w

/-- A condition on values read before. -/
def must (c : Prop) : Gr Unit := fun _ bits => c ∧ bits = []

/-- `if (c) G`; the value is `d` when it is absent. -/
def opt {α} (c : Bool) (G : Gr α) (d : α) : Gr α := if c then G else pure d

/-- `n` times. -/
def times {α} (G : Gr α) : Nat → Gr (List α)
  | 0 => pure []
  | n + 1 => do
    let a ← G
    let l ← times G n
    pure (a :: l)

/-- One after the other. -/
def each {α β} (F : α → Gr β) : List α → Gr (List β)
  | [] => pure []
  | a :: l => do
    let b ← F a
    let r ← each F l
    pure (b :: r)

end Gr

end Verif.Spec
