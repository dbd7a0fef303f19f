import Verif.Model.Column

/-!
# A concrete `PyNum`

The theorems hold for every `PyNum`.  Concrete examples need one: exact decimals, which is how
`int()`, `float()` and `round()` behave on the short literals of the examples.
-/

namespace Mygrations

/-- value of a list of digits -/
def digitsVal (s : Str) : Nat := s.foldl (fun n c => 10 * n + (c.toNat - '0'.toNat)) 0

/-- an optional sign -/
def signed {α : Type} (neg : α → α) (f : Str → Option α) : Str → Option α
  | '-' :: s => (f s).map neg
  | s => f s

/-- a decimal: mantissa and number of digits after the point -/
structure Dec where
  mant : Int
  scale : Nat
  deriving DecidableEq

/-- digits, optionally with a decimal point -/
def parseDec (s : Str) : Option Dec :=
  match splitOn '.' s with
  | [a] => if isNumeric a then some ⟨digitsVal a, 0⟩ else none
  | [a, b] => if isNumeric a && isNumeric b then some ⟨digitsVal (a ++ b), b.length⟩ else none
  | _ => none

/-- exact decimals as a model of Python's numbers -/
@[reducible] def exactNum : PyNum where
  F := Dec
  int := signed (fun n => -n) (fun s => if isNumeric s then some (digitsVal s : Int) else none)
  float := signed (fun d => ⟨-d.mant, d.scale⟩) parseDec
  feq a b := a.mant * 10 ^ b.scale == b.mant * 10 ^ a.scale
  round d n := if n.toNat < d.scale then ⟨(d.mant + 5 * 10 ^ (d.scale - n.toNat - 1)) / 10 ^ (d.scale - n.toNat), n.toNat⟩ else d

end Mygrations
