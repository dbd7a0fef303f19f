import Verif.Proofs.JsonClean
import Verif.Props.C88

/-! # C89: a configuration file is read as JSON if and only if it is JSON -/

namespace Mygrations
open Dotenv

namespace Settings

/-! ## Proofs -/

theorem ofTexts_str {d : Dict Str} {k : Str} {v : Json} (h : (ofTexts d).get? k = some v) : ∃ s, v = .str s := by
  rw [get_ofTexts] at h
  obtain ⟨s, _, rfl⟩ := Option.map_eq_some_iff.mp h
  exact ⟨s, rfl⟩

theorem mem_keys_members : ∀ (ms : List (Str × Json)) (d : Dict Json) (k : Str),
    k ∈ Dict.keys (ms.foldl (fun d e => Dict.set d e.1 e.2) d) ↔ k ∈ Dict.keys d ∨ k ∈ ms.map Prod.fst
  | [], d, k => by simp
  | m :: ms, d, k => by
    rw [List.foldl_cons, mem_keys_members ms, Dict.mem_keys_set]
    simp only [List.map_cons, List.mem_cons]
    constructor
    · rintro ((h | h) | h)
      · exact .inr (.inl h)
      · exact .inl h
      · exact .inr (.inr h)
    · rintro (h | h | h)
      · exact .inl (.inr h)
      · exact .inl (.inl h)
      · exact .inr h

theorem keys_members_nodup : ∀ (ms : List (Str × Json)) (d : Dict Json), (Dict.keys d).Nodup →
    (Dict.keys (ms.foldl (fun d e => Dict.set d e.1 e.2) d)).Nodup
  | [], _, h => h
  | m :: ms, d, h => by
    rw [List.foldl_cons]
    exact keys_members_nodup ms _ (Dict.keys_set_nodup _ _ h)

theorem keys_members_prefix : ∀ (ms : List (Str × Json)) (d : Dict Json), Dict.keys d <+: Dict.keys (ms.foldl (fun d e => Dict.set d e.1 e.2) d)
  | [], _ => List.prefix_rfl
  | m :: ms, d => by
    rw [List.foldl_cons]
    refine List.IsPrefix.trans ?_ (keys_members_prefix ms _)
    by_cases h : m.1 ∈ Dict.keys d
    · rw [Dict.keys_set_of_mem _ h]
      exact List.prefix_rfl
    · rw [Dict.set_of_not_mem _ h, Dict.keys_append]
      exact List.prefix_append _ _

theorem pair_iterated {j k v : Json} (h : iterated j = .ok [k, v]) : PairOf j k v := by
  cases j with
  | arr items =>
    cases h
    exact .array k v
  | str s =>
    have h : s.map (fun c => Json.str [c]) = [k, v] := Except.ok.inj h
    match s, h with
    | [a, b], h =>
      cases h
      exact .text a b
  | obj ms =>
    have h : (Dict.keys (ms.foldl (fun d e => Dict.set d e.1 e.2) ([] : Dict Json))).map Json.str = [k, v] := Except.ok.inj h
    have hmem := mem_keys_members ms []
    have hnd := keys_members_nodup ms [] List.nodup_nil
    cases ms with
    | nil => cases h
    | cons m ms =>
      have hpre : [m.1] <+: Dict.keys ((m :: ms).foldl (fun d e => Dict.set d e.1 e.2) ([] : Dict Json)) :=
        keys_members_prefix ms (Dict.set [] m.1 m.2)
      generalize Dict.keys ((m :: ms).foldl (fun d e => Dict.set d e.1 e.2) ([] : Dict Json)) = ks at h hmem hnd hpre
      match ks, h with
      | [a, b], h =>
        cases h
        have ha : m.1 = a := by
          obtain ⟨r, hr⟩ := hpre
          exact (List.cons.inj hr).1
        refine .object _ a b (by rw [← ha]; rfl) (fun e => by simp [e] at hnd) ?_ (fun n hn => ?_)
        · rcases (hmem b).mp (by simp) with h | h
          · cases h
          · exact h
        · simpa using (hmem n).mpr (.inr hn)
  | null => cases h
  | bool _ => cases h
  | num _ => cases h

theorem pairs_ofItems : ∀ (js : List Json) (i : Nat) (d d' : Dict Json), ofItems i d js = .ok d' →
    ∃ ms, PairsOf js ms ∧ d' = ms.foldl (fun d e => Dict.set d e.1 e.2) d
  | [], i, d, d', h => by
    cases h
    exact ⟨[], .nil, rfl⟩
  | j :: js, i, d, d', h => by
    rw [ofItems] at h
    split at h
    · cases h
    · rename_i k v hj
      have hp := pair_iterated hj
      split at h
      · rename_i hh
        obtain ⟨ms, h1, h2⟩ := pairs_ofItems js _ _ _ h
        cases k with
        | str name => exact ⟨(name, v) :: ms, .named hp h1, h2⟩
        | null => exact ⟨ms, .other hp (.inl rfl) h1, h2⟩
        | bool b => exact ⟨ms, .other hp (.inr (.inl ⟨b, rfl⟩)) h1, h2⟩
        | num n => exact ⟨ms, .other hp (.inr (.inr ⟨n, rfl⟩)) h1, h2⟩
        | arr _ => cases hh
        | obj _ => cases hh
      · cases h
    · cases h

end Settings

/-- **C89.** A text without the extensions of Python's reader is read as the value `v` if and only if it is `v` in JSON.  -/
theorem C89 {text : Str} (h : OnlyRfc text) (v : Json) : Json.loads text = some v ↔ IsJson text v := by
  constructor
  · intro hl
    exact Json.loads_only hl (Json.loads_plain hl h)
  · rintro ⟨lead, t, trail, hl, ht, hv, rfl⟩
    exact Json.loads_text hl ht hv

/-- **C89.** The same for texts of any kind, for the values JSON can express. -/
theorem C89_plain {v : Json} (h : v.Plain) (text : Str) : Json.loads text = some v ↔ IsJson text v := by
  constructor
  · intro hl
    exact Json.loads_only hl h
  · rintro ⟨lead, t, trail, hl, ht, hv, rfl⟩
    exact Json.loads_text hl ht hv

/-- **C89.** No text is JSON for two values. -/
theorem C89_unique {text : Str} {v v' : Json} (h : IsJson text v) (h' : IsJson text v') : v = v' := by
  obtain ⟨lead, t, trail, hl, ht, hv, rfl⟩ := h
  obtain ⟨lead', t', trail', hl', ht', hv', e⟩ := h'
  have h1 := Json.loads_text hl ht hv
  rw [e, Json.loads_text hl' ht' hv'] at h1
  cases h1
  rfl

/-- **C89.** A configuration file which is not JSON is read line by line: every value is a string, and it is what `Model/Dotenv.lean` reads there. -/
theorem C89_lines {text : Str} (h : OnlyRfc text) (hno : ∀ v, ¬ IsJson text v) :
    Settings.parse text = (Dotenv.parse text).map Settings.ofTexts ∧
    ∀ d, Settings.parse text = .ok d → ∀ k v, d.get? k = some v → ∃ s, v = .str s := by
  have hl : Json.loads text = none := by
    cases hj : Json.loads text with
    | none => rfl
    | some v => exact absurd ((C89 h v).mp hj) (hno v)
  have hp : Settings.parse text = (Dotenv.parse text).map Settings.ofTexts := by
    unfold Settings.parse Dotenv.parse
    simp only [hl]
  refine ⟨hp, fun d hd k v hk => ?_⟩
  rw [hp] at hd
  cases hq : Dotenv.parse text with
  | error e => rw [hq] at hd; cases hd
  | ok d' =>
    rw [hq] at hd
    cases hd
    exact Settings.ofTexts_str hk

/-- **C89.** Values which are no strings come from JSON only: if the configuration has one, then the file is a JSON object or a JSON array of pairs, and
the configuration is what is written there. -/
theorem C89_values {text : Str} (h : OnlyRfc text) {d : Dict Json} (hd : Settings.parse text = .ok d) {k : Str} {v : Json} (hk : d.get? k = some v)
    (hv : ∀ s, v ≠ .str s) :
    ∃ ms, (IsJson text (.obj ms) ∨ ∃ items, IsJson text (.arr items) ∧ PairsOf items ms) ∧ ∀ k, d.get? k = lastMember ms k := by
  have lines : ∀ {x : Except Err (Dict Str)}, x.map Settings.ofTexts = .ok d → False := by
    intro x hx
    cases x with
    | error e => cases hx
    | ok d' =>
      cases hx
      obtain ⟨s, hs⟩ := Settings.ofTexts_str hk
      exact hv s hs
  unfold Settings.parse at hd
  cases hj : Json.loads text with
  | none =>
    simp only [hj] at hd
    exact absurd hd lines
  | some j =>
    simp only [hj] at hd
    split at hd
    · cases j with
      | obj ms =>
        cases hd
        exact ⟨ms, .inl ((C89 h _).mp hj), fun k => by rw [Settings.foldl_member]; simp [Dict.get?]⟩
      | arr items =>
        obtain ⟨ms, h1, rfl⟩ := Settings.pairs_ofItems items 0 [] d hd
        exact ⟨ms, .inr ⟨items, (C89 h _).mp hj, h1⟩, fun k => by rw [Settings.foldl_member]; simp [Dict.get?]⟩
      | _ => cases hd
    · exact absurd hd lines

/-- **C89**, without the condition on the text: refuted.  Python's reader takes the words `NaN`, `Infinity` and `-Infinity` for numbers, which are no
JSON. -/
theorem C89_refuted {word lead trail : Str} (hw : word ∈ [py"NaN", py"Infinity", py"-Infinity"]) (hl : JsonSpace lead) (ht : JsonSpace trail) :
    Json.loads (lead ++ word ++ trail) = some (.num word) ∧ ∀ v, ¬ IsJson (lead ++ word ++ trail) v := by
  have hr : Json.skip trail = [] := by
    have := Json.skip_space ht []
    rw [List.append_nil] at this
    rw [this]; rfl
  have h1 : Json.loads (lead ++ word ++ trail) = some (.num word) := by
    unfold Json.loads
    simp only [List.mem_cons, List.not_mem_nil, or_false] at hw
    rcases hw with rfl | rfl | rfl <;>
    · rw [List.append_assoc, List.cons_append, Json.skip_at hl (by decide)]
      simp [Json.value, Json.scalar, Json.literals, List.findSome?, Json.dropPrefix, hr]
  refine ⟨h1, fun v hv => ?_⟩
  obtain ⟨lead', t, trail', hl', ht', hv', e⟩ := hv
  have h2 := Json.loads_text hl' ht' hv'
  rw [← e, h1] at h2
  cases h2
  cases hv' with
  | num hn =>
    cases Json.number_plain hn with
    | num hne => exact hne hw

/-! ## Examples -/

namespace Examples

/-- an object with a number, an escape and white space -/
def portText : Str := py"{\"port\": 3306, \"name\" : \"a\\nb\"}\n"

theorem rfc_of {s : Str} (h : '�' ∉ s ∧ 'u' ∉ s ∧ 'N' ∉ s ∧ 'I' ∉ s) : OnlyRfc s := by
  refine ⟨h.1, fun x hx hi => ?_⟩
  simp only [List.mem_cons, List.not_mem_nil, or_false] at hx
  rcases hx with rfl | rfl | rfl
  · exact h.2.1 (hi.subset (by decide))
  · exact h.2.2.1 (hi.subset (by decide))
  · exact h.2.2.2 (hi.subset (by decide))

theorem portText_rfc : OnlyRfc portText := rfc_of (by decide)

/-- an object with a comma too much, and a line of a `.env` file -/
def brokenText : Str := py"{\"port\": 3306,}"
def lineText : Str := py"PORT = 3306"

theorem lineText_no (v : Json) : ¬ IsJson lineText v := by
  intro h
  have h1 := (C89 (rfc_of (by decide)) v).mpr h
  have h2 : (Json.loads lineText).isNone = true := by decide +kernel
  rw [h1] at h2
  cases h2

theorem portText_parse : ∃ d, Settings.parse portText = .ok d ∧ d.get? py"port" = some (.num py"3306") := ⟨_, rfl, rfl⟩

end Examples

/-- for `C89` and `C89_plain`: this is JSON … -/
example : IsJson Examples.portText (.obj [(py"port", .num py"3306"), (py"name", .str py"a\nb")]) :=
  (C89 Examples.portText_rfc _).mp rfl
/-- … and this is not -/
example (v : Json) : ¬ IsJson Examples.brokenText v := by
  intro h
  have h1 := (C89 (Examples.rfc_of (by decide)) v).mpr h
  have h2 : (Json.loads Examples.brokenText).isNone = true := by decide +kernel
  rw [h1] at h2
  cases h2
example : IsJson py" [true]" (.arr [.bool true]) := (C89_plain (.arr (fun v hv => by cases List.mem_singleton.mp hv; exact .bool _)) _).mp rfl

/-- for `C89_lines` -/
example : ∃ d, Settings.parse Examples.lineText = .ok d ∧ d.get? py"PORT" = some (.str py"3306") := by
  rw [(C89_lines (Examples.rfc_of (by decide)) Examples.lineText_no).1]
  exact ⟨_, rfl, rfl⟩

/-- for `C89_values` -/
example : ∃ ms, (IsJson Examples.portText (.obj ms) ∨ ∃ items, IsJson Examples.portText (.arr items) ∧ PairsOf items ms) ∧
    lastMember ms py"port" = some (.num py"3306") := by
  obtain ⟨d, h1, h2⟩ := Examples.portText_parse
  obtain ⟨ms, h3, h4⟩ := C89_values Examples.portText_rfc h1 h2 (by simp)
  exact ⟨ms, h3, by rw [← h4]; exact h2⟩

/-- for `C89_values`: an array of pairs is a configuration, too, and even texts of two characters are pairs -/
example : ∃ d, Settings.parse py"[[\"port\", 3306], \"ab\", [1, 2]]" = .ok d ∧ d.get? py"port" = some (.num py"3306") ∧
    d.get? py"a" = some (.str py"b") := ⟨_, rfl, rfl, rfl⟩

/-- for `C89_refuted` -/
example : ∀ v, ¬ IsJson py" NaN\n" v := (C89_refuted (word := py"NaN") (lead := py" ") (trail := py"\n") (by decide) (by simp [JsonSpace]) (by simp [JsonSpace])).2

end Mygrations
