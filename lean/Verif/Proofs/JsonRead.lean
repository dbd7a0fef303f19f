import Verif.Spec.Json
import Verif.Proofs.Env

/-!
# JSON objects are read as they are written
-/

namespace Mygrations
namespace Json

theorem hexDigit_of {d : Char} {v : Nat} (h : HexDigit d v) : hexDigit d = some v ∧ v < 16 := by
  have key : ∀ v : Nat, v < 16 → ∀ d, ((py"0123456789abcdef")[v]? = some d ∨ (py"0123456789ABCDEF")[v]? = some d) → hexDigit d = some v := by
    intro v hv d hd
    have : v = 0 ∨ v = 1 ∨ v = 2 ∨ v = 3 ∨ v = 4 ∨ v = 5 ∨ v = 6 ∨ v = 7 ∨ v = 8 ∨ v = 9 ∨ v = 10 ∨ v = 11 ∨ v = 12 ∨ v = 13 ∨ v = 14 ∨ v = 15 := by
      omega
    rcases this with rfl | rfl | rfl | rfl | rfl | rfl | rfl | rfl | rfl | rfl | rfl | rfl | rfl | rfl | rfl | rfl <;>
      rcases hd with hd | hd <;> cases hd <;> decide
  have hv : v < 16 := by
    rcases h with h | h <;> exact (List.getElem?_eq_some_iff.mp h).1
  exact ⟨key v hv d h, hv⟩

theorem hexFour_of {n : Nat} {ds : Str} (h : FourDigits n ds) (r : Str) : hexFour (ds ++ r) = some (n, r) ∧ n < 0x10000 := by
  obtain ⟨a, b, c, d, x, y, z, w, rfl, ha, hb, hc, hd, rfl⟩ := h
  have e1 := hexDigit_of ha
  have e2 := hexDigit_of hb
  have e3 := hexDigit_of hc
  have e4 := hexDigit_of hd
  constructor
  · show hexFour (a :: b :: c :: d :: r) = _
    unfold hexFour
    simp only [e1.1, e2.1, e3.1, e4.1]
    congr 2
    omega
  · omega

theorem length_four {n : Nat} {ds : Str} (h : FourDigits n ds) : ds.length = 4 := by
  obtain ⟨a, b, c, d, x, y, z, w, rfl, _⟩ := h
  rfl

theorem char_valid (c : Char) : ¬ (0xD800 ≤ c.toNat ∧ c.toNat ≤ 0xDFFF) ∧ c.toNat < 0x110000 := by
  have h := c.valid
  have e : c.val.toNat = c.toNat := rfl
  unfold UInt32.isValidChar Nat.isValidChar at h
  rw [e] at h
  omega

theorem strBody_char {c : Char} {w : Str} (h : JsonChar c w) (fuel : Nat) (r : Str) :
    strBody (fuel + 1) (w ++ r) = (strBody fuel r).map (fun p => (c :: p.1, p.2)) := by
  cases h with
  | raw _ h1 h2 h3 =>
    show strBody (fuel + 1) (c :: r) = _
    rw [strBody.eq_def]
    dsimp only
    rw [if_neg h1, if_neg h2, if_neg (by omega)]
  | escape e _ h =>
    show strBody (fuel + 1) ('\\' :: e :: r) = _
    rw [strBody, if_neg (by decide), if_pos rfl]
    simp only [List.mem_cons, Prod.mk.injEq, List.not_mem_nil, or_false] at h
    rcases h with ⟨rfl, rfl⟩ | ⟨rfl, rfl⟩ | ⟨rfl, rfl⟩ | ⟨rfl, rfl⟩ | ⟨rfl, rfl⟩ | ⟨rfl, rfl⟩ | ⟨rfl, rfl⟩ | ⟨rfl, rfl⟩ <;> rfl
  | unicode _ ds h =>
    show strBody (fuel + 1) ('\\' :: 'u' :: (ds ++ r)) = _
    rw [strBody, if_neg (by decide), if_pos rfl]
    simp only [if_true, (hexFour_of h r).1]
    have : unicode c.toNat r = (c, r) := by
      unfold unicode
      rw [if_neg (char_valid c).1, Char.ofNat_toNat]
    rw [this]
  | pair _ hs ls hn h1 h2 =>
    show strBody (fuel + 1) ('\\' :: 'u' :: (hs ++ ['\\', 'u'] ++ ls ++ r)) = _
    rw [List.append_assoc, List.append_assoc, strBody, if_neg (by decide), if_pos rfl]
    simp only [if_true, (hexFour_of h1 _).1]
    have hv := (char_valid c).2
    have : unicode (0xD800 + (c.toNat - 0x10000) / 0x400) (['\\', 'u'] ++ (ls ++ r)) = (c, r) := by
      show unicode _ ('\\' :: 'u' :: (ls ++ r)) = _
      unfold unicode
      rw [if_pos (by omega)]
      simp only [(hexFour_of h2 r).1]
      rw [if_pos (by omega)]
      have e : 0x10000 + (0xD800 + (c.toNat - 0x10000) / 0x400 - 0xD800) * 0x400 + (0xDC00 + (c.toNat - 0x10000) % 0x400 - 0xDC00) = c.toNat := by
        omega
      rw [e, Char.ofNat_toNat]
    rw [this]

theorem jsonChar_length {c : Char} {w : Str} (h : JsonChar c w) : 1 ≤ w.length := by
  cases h <;> simp

theorem strBody_read {s t : Str} (h : JsonStr s t) : ∀ (fuel : Nat) (r : Str), t.length + 1 ≤ fuel →
    strBody fuel (t ++ '"' :: r) = some (s, r) := by
  induction h with
  | nil =>
    intro fuel r hf
    cases fuel with
    | zero => omega
    | succ f =>
      show strBody (f + 1) ('"' :: r) = _
      rw [strBody.eq_def]
      rfl
  | cons hc hs ih =>
    intro fuel r hf
    cases fuel with
    | zero => omega
    | succ f =>
      have := jsonChar_length hc
      rw [List.append_assoc, strBody_char hc, ih f r (by rw [List.length_append] at hf; omega)]
      rfl

theorem isBlank_iff {c : Char} : isBlank c = true ↔ (c = ' ' ∨ c = '\t' ∨ c = '\n' ∨ c = '\r') := by
  unfold isBlank
  simp only [Bool.or_eq_true, decide_eq_true_eq, or_assoc]

theorem skip_space : ∀ {w : Str}, JsonSpace w → ∀ s, skip (w ++ s) = skip s
  | [], _, _ => rfl
  | c :: w, h, s => by
    have : isBlank c = true := isBlank_iff.mpr (h c List.mem_cons_self)
    unfold skip
    rw [List.cons_append, List.dropWhile_cons, this]
    exact skip_space (fun x hx => h x (List.mem_cons_of_mem _ hx)) s

theorem skip_at {w : Str} (h : JsonSpace w) {c : Char} (hc : isBlank c = false) (s : Str) : skip (w ++ c :: s) = c :: s := by
  rw [skip_space h]
  unfold skip
  rw [List.dropWhile_cons, hc]
  rfl

/-- what stands of a member after the white space before it -/
def body (m : JsonMember) : Str := m.keyText ++ '"' :: (m.afterKey ++ ':' :: (m.beforeValue ++ '"' :: (m.valueText ++ '"' :: m.afterValue)))

theorem text_body (m : JsonMember) : m.text = m.beforeKey ++ '"' :: body m := by
  simp [JsonMember.text, body]

theorem members_read : ∀ (ms : List JsonMember) (m : JsonMember) (fuel : Nat) (r : Str), (∀ m' ∈ m :: ms, m'.Ok) → ms.length + 2 ≤ fuel →
    members fuel (skip (join py"," ((m :: ms).map JsonMember.text) ++ '}' :: r)) = some ((m :: ms).map (fun m => (m.key, .str m.value)), r) := by
  intro ms
  induction ms with
  | nil =>
    intro m fuel r hok hf
    obtain ⟨f, rfl⟩ : ∃ f, fuel = f + 2 := ⟨fuel - 2, by simp at hf; omega⟩
    have hm := hok m List.mem_cons_self
    obtain ⟨s1, s2, s3, s4⟩ := hm.spaces
    have e : skip (join py"," ([m].map JsonMember.text) ++ '}' :: r) =
        '"' :: (m.keyText ++ '"' :: (m.afterKey ++ ':' :: (m.beforeValue ++ '"' :: (m.valueText ++ '"' :: (m.afterValue ++ '}' :: r))))) := by
      show skip (m.text ++ '}' :: r) = _
      rw [text_body, List.append_assoc, List.cons_append, skip_at s1 (by decide)]
      simp [body]
    rw [e, members, if_neg (by decide), strBody_read hm.key _ _ (by simp)]
    simp only [skip_at s2 (show isBlank ':' = false by decide), skip_at s3 (show isBlank '"' = false by decide)]
    rw [value, if_pos rfl, strBody_read hm.value _ _ (by simp)]
    simp only [Option.map_some, skip_at s4 (show isBlank '}' = false by decide)]
    rfl
  | cons m' ms ih =>
    intro m fuel r hok hf
    obtain ⟨f, rfl⟩ : ∃ f, fuel = f + 2 := ⟨fuel - 2, by simp at hf; omega⟩
    have hm := hok m List.mem_cons_self
    obtain ⟨s1, s2, s3, s4⟩ := hm.spaces
    have e : skip (join py"," ((m :: m' :: ms).map JsonMember.text) ++ '}' :: r) =
        '"' :: (m.keyText ++ '"' :: (m.afterKey ++ ':' :: (m.beforeValue ++ '"' :: (m.valueText ++ '"' :: (m.afterValue ++ ',' ::
          (join py"," ((m' :: ms).map JsonMember.text) ++ '}' :: r)))))) := by
      have e1 : join py"," ((m :: m' :: ms).map JsonMember.text) = m.text ++ ',' :: join py"," ((m' :: ms).map JsonMember.text) := by
        simp [join]
      rw [e1, text_body, List.append_assoc, List.append_assoc, List.cons_append, skip_at s1 (by decide)]
      simp [body]
    rw [e, members, if_neg (by decide), strBody_read hm.key _ _ (by simp)]
    simp only [skip_at s2 (show isBlank ':' = false by decide), skip_at s3 (show isBlank '"' = false by decide)]
    rw [value, if_pos rfl, strBody_read hm.value _ _ (by simp)]
    simp only [Option.map_some, skip_at s4 (show isBlank ',' = false by decide)]
    rw [ih m' (f + 1) r (fun x hx => hok x (List.mem_cons_of_mem _ hx)) (by simp at hf ⊢; omega)]
    rfl

theorem join_length : ∀ (ms : List JsonMember), ms.length ≤ (join py"," (ms.map JsonMember.text)).length
  | [] => Nat.zero_le _
  | [m] => by show 1 ≤ m.text.length; rw [text_body]; simp; omega
  | m :: m' :: ms => by
    have e1 : join py"," ((m :: m' :: ms).map JsonMember.text) = m.text ++ ',' :: join py"," ((m' :: ms).map JsonMember.text) := by simp [join]
    have ih := join_length (m' :: ms)
    rw [e1]
    rw [List.length_append, List.length_cons, List.length_cons]
    rw [List.length_cons] at ih ⊢
    omega

theorem loads_object {lead trail : Str} {ms : List JsonMember} (hl : JsonSpace lead) (ht : JsonSpace trail) (hne : ms ≠ []) (hok : ∀ m ∈ ms, m.Ok) :
    loads (lead ++ objectText ms ++ trail) = some (.obj (ms.map (fun m => (m.key, .str m.value)))) := by
  cases ms with
  | nil => exact absurd rfl hne
  | cons m ms =>
    have hlen := join_length (m :: ms)
    have e : lead ++ objectText (m :: ms) ++ trail = lead ++ '{' :: (join py"," ((m :: ms).map JsonMember.text) ++ '}' :: trail) := by
      simp [objectText]
    have hskip : ∃ s, skip (join py"," ((m :: ms).map JsonMember.text) ++ '}' :: trail) = '"' :: s := by
      have : ∃ s, join py"," ((m :: ms).map JsonMember.text) ++ '}' :: trail = m.beforeKey ++ '"' :: s := by
        cases ms with
        | nil => exact ⟨_, by show m.text ++ _ = _; rw [text_body, List.append_assoc, List.cons_append]⟩
        | cons m' ms =>
          have e1 : join py"," ((m :: m' :: ms).map JsonMember.text) = m.text ++ ',' :: join py"," ((m' :: ms).map JsonMember.text) := by simp [join]
          exact ⟨_, by rw [e1, text_body, List.append_assoc, List.append_assoc, List.cons_append]⟩
      obtain ⟨s, hs⟩ := this
      exact ⟨s, by rw [hs, skip_at (hok m List.mem_cons_self).spaces.1 (by decide)]⟩
    obtain ⟨s, hs⟩ := hskip
    unfold loads
    rw [e, skip_at hl (by decide)]
    obtain ⟨f, hf⟩ : ∃ f, 2 * (lead ++ '{' :: (join py"," ((m :: ms).map JsonMember.text) ++ '}' :: trail)).length + 2 = f + 1 ∧ ms.length + 2 ≤ f := by
      refine ⟨2 * (lead ++ '{' :: (join py"," ((m :: ms).map JsonMember.text) ++ '}' :: trail)).length + 1, rfl, ?_⟩
      rw [List.length_append, List.length_cons, List.length_append, List.length_cons]
      rw [List.length_cons] at hlen
      omega
    rw [hf.1, value, if_neg (by decide), if_pos rfl]
    have hmem := members_read ms m f trail hok hf.2
    rw [hs] at hmem ⊢
    show (match (members f ('"' :: s)).map (fun p => (Json.obj p.1, p.2)) with | none => none | some (j, r) => if skip r = [] then some j else none) = _
    rw [hmem]
    show (if skip trail = [] then _ else _) = _
    rw [if_pos]
    have := skip_space ht []
    rw [List.append_nil] at this
    rw [this]; rfl

theorem texts_read : ∀ ms : List JsonMember, texts (ms.map (fun m => (m.key, .str m.value))) = some (ms.map (fun m => (m.key, m.value)))
  | [] => rfl
  | m :: ms => by
    rw [List.map_cons, texts, texts_read ms]; rfl

end Json

namespace Dotenv

theorem foldl_set : ∀ (es : List (Str × Str)) (d : Dict Str) (k : Str),
    Dict.get? (es.foldl (fun d e => d.set e.1 e.2) d) k = ((lastValue es k).or (Dict.get? d k))
  | [], d, k => rfl
  | e :: es, d, k => by
    rw [List.foldl_cons, foldl_set es]
    unfold lastValue
    rw [List.reverse_cons, List.find?_append]
    cases hf : List.find? (fun e => decide (e.1 = k)) es.reverse with
    | some v => simp
    | none =>
      simp only [Option.map_none, Option.none_or]
      rw [Dict.get?_set]
      by_cases hk : e.1 = k
      · subst hk; simp
      · simp [hk]

/-- a configuration file gives every key its last value -/
theorem parse_file {text : Str} {es : List (Str × Str)} (h : ConfigFile text es) :
    ∃ d, parse text = .ok d ∧ ∀ k, d.get? k = lastValue es k := by
  cases h with
  | lines is h => exact ⟨_, parse_items is h, fun k => by rw [foldl_add]; simp [Dict.get?]⟩
  | object lead trail ms hl ht hne hok =>
    refine ⟨(ms.map (fun m => (m.key, m.value))).foldl (fun d e => d.set e.1 e.2) [], ?_, fun k => by rw [foldl_set]; simp [Dict.get?]⟩
    unfold parse
    rw [Json.loads_object hl ht hne hok]
    have ht : Json.truthy (.obj (ms.map (fun m => (m.key, Json.str m.value)))) = true := by
      cases ms with
      | nil => exact absurd rfl hne
      | cons m ms => rfl
    simp only [ht, if_true]
    unfold ofJson
    simp only [Json.texts_read]

end Dotenv
end Mygrations
