import Verif.Spec.JsonValue

/-!
# Specification: values which JSON can express

Python's decoder also accepts the words `NaN`, `Infinity` and `-Infinity`, and a surrogate alone after `\u` (in the model
it becomes U+FFFD).  RFC 8259 knows neither.
-/

namespace Mygrations

/-- No text in the value has the replacement character U+FFFD, and no number in it is `NaN` or infinite. -/
inductive Json.Plain : Json → Prop
  | null : Json.Plain .null
  | bool (b : Bool) : Json.Plain (.bool b)
  | num {t : Str} : t ∉ [py"NaN", py"Infinity", py"-Infinity"] → Json.Plain (.num t)
  | str {s : Str} : '�' ∉ s → Json.Plain (.str s)
  | arr {vs : List Json} : (∀ v ∈ vs, Json.Plain v) → Json.Plain (.arr vs)
  | obj {ms : List (Str × Json)} : (∀ m ∈ ms, '�' ∉ m.1) → (∀ m ∈ ms, Json.Plain m.2) → Json.Plain (.obj ms)

/-- The text uses none of these extensions: it has no U+FFFD, no `\u`, no `NaN` and no `Infinity`. -/
def OnlyRfc (text : Str) : Prop := '�' ∉ text ∧ ∀ x ∈ [py"\\u", py"NaN", py"Infinity"], ¬ x <:+: text

/-- The text is the value `v` in JSON, with white space around it. -/
def IsJson (text : Str) (v : Json) : Prop := ∃ lead t trail, JsonSpace lead ∧ JsonSpace trail ∧ JsonText v t ∧ text = lead ++ t ++ trail

end Mygrations
