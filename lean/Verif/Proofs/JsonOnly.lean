import Verif.Spec.JsonPlain
import Verif.Proofs.JsonValue

/-! # The reader of JSON reads nothing but JSON -/

namespace Mygrations
namespace Json

theorem hexDigit_small : ∀ n, n < 103 → ∀ v, v < 16 → hexDigit (Char.ofNat n) = some v → HexDigit (Char.ofNat n) v := by
  unfold HexDigit
  decide +kernel

theorem hexDigit_only {d : Char} {v : Nat} (h : hexDigit d = some v) : HexDigit d v := by
  have hd : d = Char.ofNat d.toNat := by simp
  have hn : d.toNat < 103 ∧ v < 16 := by
    unfold hexDigit at h
    simp only at h
    split at h
    · cases h; omega
    · split at h
      · cases h; omega
      · split at h
        · cases h; omega
        · cases h
  rw [hd] at h ⊢
  exact hexDigit_small _ hn.1 _ hn.2 h

theorem hexFour_only {s r : Str} {n : Nat} (h : hexFour s = some (n, r)) : ∃ ds, FourDigits n ds ∧ s = ds ++ r := by
  unfold hexFour at h
  split at h
  · rename_i a b c d r'
    split at h
    · rename_i x y z w hx hy hz hw
      cases h
      refine ⟨[a, b, c, d], ⟨a, b, c, d, x, y, z, w, rfl, hexDigit_only hx, hexDigit_only hy, hexDigit_only hz, hexDigit_only hw, by omega⟩, rfl⟩
    · cases h
  · cases h

theorem toNat_ofNat {n : Nat} (h : n.isValidChar) : (Char.ofNat n).toNat = n := by
  unfold Char.ofNat
  rw [dif_pos h]
  simp [Char.toNat, Char.ofNatAux]

theorem shortEscape_only {e x : Char} (h : shortEscape e = some x) :
    (e, x) ∈ [('"', '"'), ('\\', '\\'), ('/', '/'), ('b', '\x08'), ('f', '\x0c'), ('n', '\n'), ('r', '\r'), ('t', '\t')] := by
  unfold shortEscape at h
  split at h <;> first | (cases h; decide) | cases h

theorem unicode_only {n : Nat} {s r : Str} (h : hexFour s = some (n, r)) (hx : (unicode n r).1 ≠ '�') :
    ∃ w, JsonChar (unicode n r).1 (py"\\u" ++ w) ∧ s = w ++ (unicode n r).2 := by
  obtain ⟨ds, hds, rfl⟩ := hexFour_only h
  have hn := (hexFour_of hds r).2
  unfold unicode at hx ⊢
  split
  · rename_i hs
    rw [if_pos hs] at hx
    split at hx
    · rename_i r'
      split at hx
      · rename_i m r'' hm
        obtain ⟨ls, hls, rfl⟩ := hexFour_only hm
        by_cases hp : n ≤ 0xDBFF ∧ 0xDC00 ≤ m ∧ m ≤ 0xDFFF
        · rw [if_pos hp]
          have hv : (Char.ofNat (0x10000 + (n - 0xD800) * 0x400 + (m - 0xDC00))).toNat = 0x10000 + (n - 0xD800) * 0x400 + (m - 0xDC00) := by
            apply toNat_ofNat
            right
            omega
          refine ⟨ds ++ (py"\\u" ++ ls), ?_, by simp⟩
          have := JsonChar.pair (Char.ofNat (0x10000 + (n - 0xD800) * 0x400 + (m - 0xDC00))) ds ls (by rw [hv]; omega)
            (by rw [hv]; have : 0xD800 + (0x10000 + (n - 0xD800) * 0x400 + (m - 0xDC00) - 0x10000) / 0x400 = n := by omega
                rw [this]; exact hds)
            (by rw [hv]; have : 0xDC00 + (0x10000 + (n - 0xD800) * 0x400 + (m - 0xDC00) - 0x10000) % 0x400 = m := by omega
                rw [this]; exact hls)
          simpa using this
        · rw [if_neg hp] at hx
          exact absurd rfl hx
      · exact absurd rfl hx
    · exact absurd rfl hx
  · rename_i hs
    have hv : (Char.ofNat n).toNat = n := by
      apply toNat_ofNat
      by_cases h1 : n < 0xD800
      · exact .inl h1
      · exact .inr (by omega)
    exact ⟨ds, .unicode _ _ (by rw [hv]; exact hds), rfl⟩

theorem strBody_only : ∀ (fuel : Nat) {s v r : Str}, strBody fuel s = some (v, r) → '�' ∉ v → ∃ t, JsonStr v t ∧ s = t ++ '"' :: r
  | 0, _, _, _, h, _ => by rw [strBody] at h; cases h
  | _ + 1, [], _, _, h, _ => by rw [strBody] at h; cases h
  | fuel + 1, c :: s, v, r, h, hv => by
    rw [strBody.eq_def] at h
    dsimp only at h
    split at h
    · rename_i hc
      cases h
      exact ⟨[], .nil, by rw [hc]; rfl⟩
    · rename_i hq
      split at h
      · rename_i hc
        subst hc
        split at h
        · cases h
        · rename_i e s
          split at h
          · rename_i he
            subst he
            split at h
            · cases h
            · rename_i n s' hf
              obtain ⟨⟨v', r'⟩, h1, h2⟩ := Option.map_eq_some_iff.mp h
              cases h2
              obtain ⟨w, hw, rfl⟩ := unicode_only hf (fun e => hv (by rw [← e]; exact List.mem_cons_self))
              obtain ⟨t, ht, hs⟩ := strBody_only fuel h1 (fun hm => hv (List.mem_cons_of_mem _ hm))
              exact ⟨_, .cons hw ht, by rw [hs]; simp⟩
          · split at h
            · cases h
            · rename_i x hx
              obtain ⟨⟨v', r'⟩, h1, h2⟩ := Option.map_eq_some_iff.mp h
              cases h2
              obtain ⟨t, ht, hs⟩ := strBody_only fuel h1 (fun hm => hv (List.mem_cons_of_mem _ hm))
              exact ⟨_, .cons (.escape _ _ (shortEscape_only hx)) ht, by rw [hs]; rfl⟩
      · rename_i hb
        split at h
        · cases h
        · rename_i hl
          obtain ⟨⟨v', r'⟩, h1, h2⟩ := Option.map_eq_some_iff.mp h
          cases h2
          obtain ⟨t, ht, hs⟩ := strBody_only fuel h1 (fun hm => hv (List.mem_cons_of_mem _ hm))
          exact ⟨_, .cons (.raw _ hq hb (by omega)) ht, by rw [hs]; rfl⟩

theorem digit_only {c : Char} (h : isDigit c = true) : c ∈ py"0123456789" := by
  have hd : c = Char.ofNat c.toNat := by simp
  have hs : ∀ n, n < 58 → isDigit (Char.ofNat n) = true → Char.ofNat n ∈ py"0123456789" := by decide +kernel
  rw [hd] at h ⊢
  refine hs _ ?_ h
  rw [← hd] at h
  unfold isDigit at h
  have h9 : c ≤ '9' := by
    simp only [Bool.and_eq_true, decide_eq_true_eq] at h
    exact h.2
  have : c.toNat ≤ 57 := h9
  omega

theorem digits_only {s ds r : Str} (h : digits s = some (ds, r)) : JsonDigits ds ∧ s = ds ++ r := by
  unfold digits at h
  split at h
  · cases h
  · rename_i hne
    cases h
    refine ⟨⟨hne, fun c hc => digit_only ?_⟩, (List.takeWhile_append_dropWhile).symm⟩
    exact List.all_eq_true.mp (List.all_takeWhile) c hc

theorem whole_only {s ds r : Str} (h : whole s = some (ds, r)) : JsonDigits ds ∧ (ds = py"0" ∨ ds.head? ≠ some '0') ∧ s = ds ++ r := by
  unfold whole at h
  split at h
  · cases h
  · rename_i c s'
    split at h
    · rename_i hc
      cases h
      exact ⟨⟨by decide, by decide⟩, .inl rfl, by rw [hc]; rfl⟩
    · rename_i hc
      obtain ⟨h1, h2⟩ := digits_only h
      refine ⟨h1, .inr ?_, h2⟩
      cases ds with
      | nil => exact absurd rfl h1.1
      | cons d ds =>
        cases h2
        simpa using hc

theorem fraction_only (s : Str) : FractionText (fraction s).1 ∧ s = (fraction s).1 ++ (fraction s).2 := by
  refine ⟨?_, (fraction_eq s).1⟩
  unfold fraction
  split
  · split
    · rename_i h
      exact .inr ⟨_, (digits_only h).1, rfl⟩
    · exact .inl rfl
  · exact .inl rfl

theorem sign_only (s : Str) : (sign s).1 ∈ [py"", py"+", py"-"] := by
  unfold sign
  split
  · decide
  · rename_i c r
    split
    · rename_i h
      rcases h with rfl | rfl <;> simp
    · simp

theorem exponent_only (s : Str) : ExponentText (exponent s).1 ∧ s = (exponent s).1 ++ (exponent s).2 := by
  refine ⟨?_, (exponent_eq s).1⟩
  unfold exponent
  split
  · exact .inl rfl
  · rename_i c r
    split
    · rename_i hc
      split
      · rename_i h
        exact .inr ⟨c, _, _, by simpa using hc, sign_only r, (digits_only h).1, rfl⟩
      · exact .inl rfl
    · exact .inl rfl

theorem minus_only (s : Str) : (minus s).1 ∈ [py"", py"-"] := by
  unfold minus
  split
  · decide
  · split <;> simp

theorem number_only {s r : Str} {v : Json} (h : number s = some (v, r)) : ∃ t, JsonText v t ∧ s = t ++ r := by
  unfold number at h
  split at h
  · cases h
  · rename_i ds r' hw
    cases h
    obtain ⟨h1, h2, h3⟩ := whole_only hw
    have hf := fraction_only r'
    have hx := exponent_only (fraction r').2
    refine ⟨_, .num (?_ : JsonNumber ((minus s).1 ++ ds ++ (fraction r').1 ++ (exponent (fraction r').2).1)), ?_⟩
    · simpa using JsonNumber.mk _ _ _ _ (minus_only s) h1 h2 hf.1 hx.1
    · rw [List.append_assoc, List.append_assoc, List.append_assoc, ← hx.2, ← hf.2, ← h3]
      exact (minus_eq s).1

theorem scalar_only {s r : Str} {v : Json} (h : scalar s = some (v, r)) (hv : Plain v) : ∃ t, JsonText v t ∧ s = t ++ r := by
  unfold scalar at h
  split at h
  · rename_i x hf
    cases h
    obtain ⟨l, hl, h1⟩ := List.exists_of_findSome?_eq_some hf
    obtain ⟨r', h2, h3⟩ := Option.map_eq_some_iff.mp h1
    cases h3
    have hs := dropPrefix_eq h2
    simp only [literals, List.mem_cons, List.not_mem_nil, or_false] at hl
    rcases hl with rfl | rfl | rfl | rfl | rfl | rfl
    · exact ⟨_, .null, hs⟩
    · exact ⟨_, .yes, hs⟩
    · exact ⟨_, .no, hs⟩
    · cases hv with | num h => exact absurd h (by decide)
    · cases hv with | num h => exact absurd h (by decide)
    · cases hv with | num h => exact absurd h (by decide)
  · exact number_only h

theorem skip_only (s : Str) : ∃ w, JsonSpace w ∧ s = w ++ skip s := by
  refine ⟨s.takeWhile isBlank, fun c hc => isBlank_iff.mp ?_, (List.takeWhile_append_dropWhile).symm⟩
  exact List.all_eq_true.mp (List.all_takeWhile) c hc

theorem space_append {w w' : Str} (h : JsonSpace w) (h' : JsonSpace w') : JsonSpace (w ++ w') := by
  intro c hc
  rcases List.mem_append.mp hc with hc | hc
  · exact h c hc
  · exact h' c hc

theorem items_space {vs : List Json} {t w : Str} (hw : JsonSpace w) (h : JsonItems vs t) : JsonItems vs (w ++ t) := by
  cases h with
  | one h1 h2 h3 => rw [← List.append_assoc]; exact .one (space_append hw h1) h2 h3
  | more h1 h2 h3 h4 => rw [← List.append_assoc]; exact .more (space_append hw h1) h2 h3 h4

theorem members_space {ms : List (Str × Json)} {t w : Str} (hw : JsonSpace w) (h : JsonMembers ms t) : JsonMembers ms (w ++ t) := by
  cases h with
  | one h1 h2 h3 h4 h5 h6 => rw [← List.append_assoc]; exact .one (space_append hw h1) h2 h3 h4 h5 h6
  | more h1 h2 h3 h4 h5 h6 h7 => rw [← List.append_assoc]; exact .more (space_append hw h1) h2 h3 h4 h5 h6 h7

theorem space_nil : JsonSpace [] := by intro c h; cases h

mutual
theorem value_only : ∀ (fuel : Nat) {s r : Str} {v : Json}, value fuel s = some (v, r) → Plain v → ∃ t, JsonText v t ∧ s = t ++ r
  | 0, _, _, _, h, _ => by rw [value] at h; cases h
  | _ + 1, [], _, _, h, _ => by rw [value] at h; cases h
  | fuel + 1, c :: s, r, v, h, hv => by
    rw [value] at h
    split at h
    · rename_i hc
      subst hc
      obtain ⟨⟨x, r'⟩, h1, h2⟩ := Option.map_eq_some_iff.mp h
      cases h2
      cases hv with
      | str hx =>
        obtain ⟨t, ht, hs⟩ := strBody_only _ h1 hx
        exact ⟨_, .str ht, by rw [hs]; simp⟩
    · split at h
      · rename_i hc
        subst hc
        obtain ⟨w, hw, hs⟩ := skip_only s
        split at h
        · rename_i r' hk
          cases h
          rw [hk] at hs
          exact ⟨_, .noMembers hw, by rw [hs]; simp⟩
        · obtain ⟨⟨x, r'⟩, h1, h2⟩ := Option.map_eq_some_iff.mp h
          cases h2
          cases hv with
          | obj hn hx =>
            obtain ⟨t, ht, hk⟩ := members_only fuel h1 (fun m hm => ⟨hn m hm, hx m hm⟩)
            rw [hk] at hs
            exact ⟨_, .obj (members_space hw ht), by rw [hs]; simp⟩
      · split at h
        · rename_i hc
          subst hc
          obtain ⟨w, hw, hs⟩ := skip_only s
          split at h
          · rename_i r' hk
            cases h
            rw [hk] at hs
            exact ⟨_, .noItems hw, by rw [hs]; simp⟩
          · obtain ⟨⟨x, r'⟩, h1, h2⟩ := Option.map_eq_some_iff.mp h
            cases h2
            cases hv with
            | arr hx =>
              obtain ⟨t, ht, hk⟩ := elements_only fuel h1 hx
              rw [hk] at hs
              exact ⟨_, .arr (items_space hw ht), by rw [hs]; simp⟩
        · exact scalar_only h hv
theorem members_only : ∀ (fuel : Nat) {s r : Str} {ms : List (Str × Json)}, members fuel s = some (ms, r) → (∀ m ∈ ms, '�' ∉ m.1 ∧ Plain m.2) →
    ∃ t, JsonMembers ms t ∧ s = t ++ '}' :: r
  | 0, _, _, _, h, _ => by rw [members] at h; cases h
  | _ + 1, [], _, _, h, _ => by rw [members] at h; cases h
  | fuel + 1, c :: s, r, ms, h, hv => by
    rw [members] at h
    split at h
    · cases h
    · rename_i hc
      have hc : c = '"' := Decidable.not_not.mp hc
      subst hc
      split at h
      · cases h
      · rename_i k s1 hk
        split at h
        · rename_i s2 hs2
          split at h
          · cases h
          · rename_i v s3 hval
            obtain ⟨w1, hw1, e1⟩ := skip_only s1
            obtain ⟨w2, hw2, e2⟩ := skip_only s2
            obtain ⟨w3, hw3, e3⟩ := skip_only s3
            split at h
            · rename_i s4 hs4
              cases h
              obtain ⟨hp1, hp2⟩ := hv _ List.mem_cons_self
              obtain ⟨kt, hkt, e0⟩ := strBody_only _ hk hp1
              obtain ⟨t, ht, ev⟩ := value_only fuel hval hp2
              refine ⟨_, .one space_nil hkt hw1 hw2 ht hw3, ?_⟩
              rw [hs4] at e3
              rw [hs2] at e1
              rw [e0, e1, e2, ev, e3]
              simp
            · rename_i s4 hs4
              obtain ⟨⟨x, r'⟩, h1, h2⟩ := Option.map_eq_some_iff.mp h
              cases h2
              obtain ⟨hp1, hp2⟩ := hv _ List.mem_cons_self
              obtain ⟨kt, hkt, e0⟩ := strBody_only _ hk hp1
              obtain ⟨t, ht, ev⟩ := value_only fuel hval hp2
              obtain ⟨ts, hts, em⟩ := members_only fuel h1 (fun m hm => hv m (List.mem_cons_of_mem _ hm))
              obtain ⟨w4, hw4, e4⟩ := skip_only s4
              refine ⟨_, .more space_nil hkt hw1 hw2 ht hw3 (members_space hw4 hts), ?_⟩
              rw [hs4] at e3
              rw [hs2] at e1
              rw [e0, e1, e2, ev, e3, e4, em]
              simp
            · cases h
        · cases h
theorem elements_only : ∀ (fuel : Nat) {s r : Str} {vs : List Json}, elements fuel s = some (vs, r) → (∀ v ∈ vs, Plain v) →
    ∃ t, JsonItems vs t ∧ s = t ++ ']' :: r
  | 0, _, _, _, h, _ => by rw [elements] at h; cases h
  | fuel + 1, s, r, vs, h, hv => by
    rw [elements] at h
    split at h
    · cases h
    · rename_i v s3 hval
      obtain ⟨w3, hw3, e3⟩ := skip_only s3
      split at h
      · rename_i s4 hs4
        cases h
        obtain ⟨t, ht, ev⟩ := value_only fuel hval (hv _ List.mem_cons_self)
        refine ⟨_, .one space_nil ht hw3, ?_⟩
        rw [hs4] at e3
        rw [ev, e3]
        simp
      · rename_i s4 hs4
        obtain ⟨⟨x, r'⟩, h1, h2⟩ := Option.map_eq_some_iff.mp h
        cases h2
        obtain ⟨t, ht, ev⟩ := value_only fuel hval (hv _ List.mem_cons_self)
        obtain ⟨ts, hts, em⟩ := elements_only fuel h1 (fun m hm => hv m (List.mem_cons_of_mem _ hm))
        obtain ⟨w4, hw4, e4⟩ := skip_only s4
        refine ⟨_, .more space_nil ht hw3 (items_space hw4 hts), ?_⟩
        rw [hs4] at e3
        rw [ev, e3, e4, em]
        simp
      · cases h
end

theorem loads_only {text : Str} {v : Json} (h : loads text = some v) (hv : Plain v) :
    ∃ lead t trail, JsonSpace lead ∧ JsonSpace trail ∧ JsonText v t ∧ text = lead ++ t ++ trail := by
  unfold loads at h
  split at h
  · cases h
  · rename_i j r hval
    split at h
    · rename_i hr
      cases h
      obtain ⟨w, hw, e⟩ := skip_only text
      obtain ⟨t, ht, et⟩ := value_only _ hval hv
      refine ⟨w, t, r, hw, fun c hc => isBlank_iff.mp (skip_nil hr c hc), ht, ?_⟩
      rw [List.append_assoc, ← et]
      exact e
    · cases h

end Json
end Mygrations
