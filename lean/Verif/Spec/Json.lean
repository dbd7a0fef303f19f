import Verif.Spec.Env

/-!
# Specification: configuration files written as a JSON object of strings (RFC 8259)
-/

namespace Mygrations

/-- `d` is the hexadecimal digit with the value `v`, in small or capital letters. -/
def HexDigit (d : Char) (v : Nat) : Prop := (py"0123456789abcdef")[v]? = some d ∨ (py"0123456789ABCDEF")[v]? = some d

/-- `ds` are the four hexadecimal digits of `n`. -/
def FourDigits (n : Nat) (ds : Str) : Prop :=
  ∃ a b c d x y z w, ds = [a, b, c, d] ∧ HexDigit a x ∧ HexDigit b y ∧ HexDigit c z ∧ HexDigit d w ∧ n = x * 4096 + y * 256 + z * 16 + w

/-- How a character can be written in a JSON string. -/
inductive JsonChar : Char → Str → Prop
  | raw (c : Char) : c ≠ '"' → c ≠ '\\' → 0x20 ≤ c.toNat → JsonChar c [c]
  | escape (e c : Char) : (e, c) ∈ [('"', '"'), ('\\', '\\'), ('/', '/'), ('b', '\x08'), ('f', '\x0c'), ('n', '\n'), ('r', '\r'), ('t', '\t')] →
      JsonChar c ['\\', e]
  | unicode (c : Char) (ds : Str) : FourDigits c.toNat ds → JsonChar c (py"\\u" ++ ds)
  /-- a character beyond the first 65536 is written as two surrogates -/
  | pair (c : Char) (hs ls : Str) : 0x10000 ≤ c.toNat → FourDigits (0xD800 + (c.toNat - 0x10000) / 0x400) hs →
      FourDigits (0xDC00 + (c.toNat - 0x10000) % 0x400) ls → JsonChar c (py"\\u" ++ hs ++ py"\\u" ++ ls)

/-- How a string can be written in JSON, without its quotes. -/
inductive JsonStr : Str → Str → Prop
  | nil : JsonStr [] []
  | cons {c : Char} {s w t : Str} : JsonChar c w → JsonStr s t → JsonStr (c :: s) (w ++ t)

/-- White space of JSON. -/
def JsonSpace (s : Str) : Prop := ∀ c ∈ s, c = ' ' ∨ c = '\t' ∨ c = '\n' ∨ c = '\r'

/-- A member of an object: a name and a string, as they are meant and as they are written, and the white space around
them. -/
structure JsonMember where
  key : Str
  value : Str
  keyText : Str := key
  valueText : Str := value
  beforeKey : Str := []
  afterKey : Str := []
  beforeValue : Str := py" "
  afterValue : Str := []

namespace JsonMember

def text (m : JsonMember) : Str :=
  m.beforeKey ++ py"\"" ++ m.keyText ++ py"\"" ++ m.afterKey ++ py":" ++ m.beforeValue ++ py"\"" ++ m.valueText ++ py"\"" ++ m.afterValue

structure Ok (m : JsonMember) : Prop where
  key : JsonStr m.key m.keyText
  value : JsonStr m.value m.valueText
  spaces : JsonSpace m.beforeKey ∧ JsonSpace m.afterKey ∧ JsonSpace m.beforeValue ∧ JsonSpace m.afterValue

end JsonMember

/-- the object -/
def objectText (ms : List JsonMember) : Str := py"{" ++ join py"," (ms.map JsonMember.text) ++ py"}"

/-- `text` is a configuration file with the entries `es`: lines, or a JSON object which is not empty. -/
inductive ConfigFile : Str → List (Str × Str) → Prop
  | lines (is : List EnvItem) : (∀ i ∈ is, i.Ok) → ConfigFile (envText is) (EnvItem.entries is)
  | object (lead trail : Str) (ms : List JsonMember) : JsonSpace lead → JsonSpace trail → ms ≠ [] → (∀ m ∈ ms, m.Ok) →
      ConfigFile (lead ++ objectText ms ++ trail) (ms.map (fun m => (m.key, m.value)))

end Mygrations
