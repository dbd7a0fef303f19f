import Verif.Spec.Json
import Verif.Model.Json

/-!
# Specification: how JSON values are written (RFC 8259)
-/

namespace Mygrations

/-- One or more decimal digits. -/
def JsonDigits (s : Str) : Prop := s ≠ [] ∧ ∀ c ∈ s, c ∈ py"0123456789"

/-- `s` is a number (RFC 8259, section 6): perhaps a minus; digits, of which the first is not a superfluous zero; perhaps a fraction; perhaps an
exponent. -/
inductive JsonNumber : Str → Prop
  | mk (neg ds frac exp : Str) : neg ∈ [py"", py"-"] → JsonDigits ds → (ds = py"0" ∨ ds.head? ≠ some '0') →
      (frac = [] ∨ ∃ f, JsonDigits f ∧ frac = '.' :: f) →
      (exp = [] ∨ ∃ e sign f, e ∈ ['e', 'E'] ∧ sign ∈ [py"", py"+", py"-"] ∧ JsonDigits f ∧ exp = e :: (sign ++ f)) →
      JsonNumber (neg ++ (ds ++ (frac ++ exp)))

mutual
/-- `JsonText v t`: the text `t` is the value `v`, written in JSON. -/
inductive JsonText : Json → Str → Prop
  | null : JsonText .null py"null"
  | yes : JsonText (.bool true) py"true"
  | no : JsonText (.bool false) py"false"
  | num {t : Str} : JsonNumber t → JsonText (.num t) t
  | str {s t : Str} : JsonStr s t → JsonText (.str s) ('"' :: (t ++ ['"']))
  | noItems {w : Str} : JsonSpace w → JsonText (.arr []) ('[' :: (w ++ [']']))
  | arr {vs : List Json} {t : Str} : JsonItems vs t → JsonText (.arr vs) ('[' :: (t ++ [']']))
  | noMembers {w : Str} : JsonSpace w → JsonText (.obj []) ('{' :: (w ++ ['}']))
  | obj {ms : List (Str × Json)} {t : Str} : JsonMembers ms t → JsonText (.obj ms) ('{' :: (t ++ ['}']))
/-- the elements of an array, with commas between them, and white space around them -/
inductive JsonItems : List Json → Str → Prop
  | one {v : Json} {t w w' : Str} : JsonSpace w → JsonText v t → JsonSpace w' → JsonItems [v] (w ++ (t ++ w'))
  | more {v : Json} {vs : List Json} {t ts w w' : Str} : JsonSpace w → JsonText v t → JsonSpace w' → JsonItems vs ts →
      JsonItems (v :: vs) (w ++ (t ++ (w' ++ ',' :: ts)))
/-- the members of an object: a name, a colon and a value -/
inductive JsonMembers : List (Str × Json) → Str → Prop
  | one {k kt : Str} {v : Json} {t w₁ w₂ w₃ w₄ : Str} : JsonSpace w₁ → JsonStr k kt → JsonSpace w₂ → JsonSpace w₃ → JsonText v t → JsonSpace w₄ →
      JsonMembers [(k, v)] (w₁ ++ '"' :: (kt ++ '"' :: (w₂ ++ ':' :: (w₃ ++ (t ++ w₄)))))
  | more {k kt : Str} {v : Json} {ms : List (Str × Json)} {t ts w₁ w₂ w₃ w₄ : Str} : JsonSpace w₁ → JsonStr k kt → JsonSpace w₂ → JsonSpace w₃ →
      JsonText v t → JsonSpace w₄ → JsonMembers ms ts →
      JsonMembers ((k, v) :: ms) (w₁ ++ '"' :: (kt ++ '"' :: (w₂ ++ ':' :: (w₃ ++ (t ++ (w₄ ++ ',' :: ts))))))
end

end Mygrations
