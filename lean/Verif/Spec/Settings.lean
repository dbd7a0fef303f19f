import Verif.Spec.JsonValue

/-!
# Specification: configuration files with values of any kind
-/

namespace Mygrations

/-- the value which is given last for `k` -/
def lastMember (es : List (Str × Json)) (k : Str) : Option Json := (es.reverse.find? (fun e => e.1 = k)).map Prod.snd

/-- The element `j` of an array is the pair of `k` and `v`: an array of two, a text of two characters, or an object with two names. -/
inductive PairOf : Json → Json → Json → Prop
  | array (k v : Json) : PairOf (.arr [k, v]) k v
  | text (k v : Char) : PairOf (.str [k, v]) (.str [k]) (.str [v])
  | object (ms : List (Str × Json)) (k v : Str) : (ms.map Prod.fst).head? = some k → k ≠ v → v ∈ ms.map Prod.fst →
      (∀ n ∈ ms.map Prod.fst, n = k ∨ n = v) → PairOf (.obj ms) (.str k) (.str v)

/-- The elements of an array are pairs; those whose key is a string are `ms`. -/
inductive PairsOf : List Json → List (Str × Json) → Prop
  | nil : PairsOf [] []
  | named {j v : Json} {k : Str} {js : List Json} {ms : List (Str × Json)} : PairOf j (.str k) v → PairsOf js ms → PairsOf (j :: js) ((k, v) :: ms)
  | other {j k v : Json} {js : List Json} {ms : List (Str × Json)} : PairOf j k v → (k = .null ∨ (∃ b, k = .bool b) ∨ ∃ n, k = .num n) →
      PairsOf js ms → PairsOf (j :: js) ms

/-- `text` is a configuration file with the entries `es`: lines (whose values are strings), a JSON object which is not empty, with any values, or a
JSON array of pairs. -/
inductive SettingsFile : Str → List (Str × Json) → Prop
  | lines (is : List EnvItem) : (∀ i ∈ is, i.Ok) → SettingsFile (envText is) ((EnvItem.entries is).map (fun e => (e.1, .str e.2)))
  | object (lead trail t : Str) (ms : List (Str × Json)) : JsonSpace lead → JsonSpace trail → ms ≠ [] → JsonText (.obj ms) t →
      SettingsFile (lead ++ t ++ trail) ms
  | pairs (lead trail t : Str) (items : List Json) (ms : List (Str × Json)) : JsonSpace lead → JsonSpace trail → items ≠ [] → JsonText (.arr items) t →
      PairsOf items ms → SettingsFile (lead ++ t ++ trail) ms

end Mygrations
