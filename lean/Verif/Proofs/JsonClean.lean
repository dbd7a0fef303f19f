import Verif.Proofs.JsonOnly

/-! # Texts without the extensions of Python's reader of JSON -/

namespace Mygrations
namespace Json

theorem clean_rest {s p r : Str} (h : OnlyRfc s) (e : s = p ++ r) : OnlyRfc r := by
  have hs : r <:+: s := ⟨p, [], by rw [e]; simp⟩
  exact ⟨fun hm => h.1 (hs.subset hm), fun x hx hi => h.2 x hx (hi.trans hs)⟩

theorem clean_tail {c : Char} {s : Str} (h : OnlyRfc (c :: s)) : OnlyRfc s := clean_rest (p := [c]) h rfl

theorem clean_skip {s : Str} (h : OnlyRfc s) : OnlyRfc (skip s) := by
  obtain ⟨w, _, e⟩ := skip_only s
  exact clean_rest h e

theorem strBody_plain : ∀ (fuel : Nat) {s v r : Str}, strBody fuel s = some (v, r) → OnlyRfc s → '�' ∉ v
  | 0, _, _, _, h, _ => by rw [strBody] at h; cases h
  | _ + 1, [], _, _, h, _ => by rw [strBody] at h; cases h
  | fuel + 1, c :: s, v, r, h, hs => by
    rw [strBody.eq_def] at h
    dsimp only at h
    split at h
    · cases h
      simp
    · split at h
      · rename_i hc
        subst hc
        split at h
        · cases h
        · rename_i e s
          split at h
          · rename_i he
            subst he
            exact absurd ⟨[], s, rfl⟩ (hs.2 py"\\u" (by decide))
          · split at h
            · cases h
            · rename_i x hx
              obtain ⟨⟨v', r'⟩, h1, h2⟩ := Option.map_eq_some_iff.mp h
              cases h2
              have ih := strBody_plain fuel h1 (clean_tail (clean_tail hs))
              have hx' := shortEscape_only hx
              simp only [List.mem_cons, Prod.mk.injEq, List.not_mem_nil, or_false] at hx'
              intro hm
              rcases List.mem_cons.mp hm with hm | hm
              · subst hm
                revert hx'
                simp
              · exact ih hm
      · split at h
        · cases h
        · obtain ⟨⟨v', r'⟩, h1, h2⟩ := Option.map_eq_some_iff.mp h
          cases h2
          have ih := strBody_plain fuel h1 (clean_tail hs)
          intro hm
          rcases List.mem_cons.mp hm with hm | hm
          · exact hs.1 (hm ▸ List.mem_cons_self)
          · exact ih hm

theorem number_plain {t : Str} (h : JsonNumber t) : Plain (.num t) := by
  refine .num ?_
  rcases number_head h with ⟨c, s, rfl, hc⟩ | ⟨c, s, rfl, hc⟩
  · have hx : ∀ x : Char, isDigit x = false → c ≠ x := by rintro x hx rfl; rw [hc] at hx; cases hx
    simp [hx 'N' (by decide), hx 'I' (by decide), hx '-' (by decide)]
  · have hx : ∀ x : Char, isDigit x = false → c ≠ x := by rintro x hx rfl; rw [hc] at hx; cases hx
    simp [hx 'I' (by decide)]

theorem scalar_plain {s r : Str} {v : Json} (h : scalar s = some (v, r)) (hs : OnlyRfc s) : Plain v := by
  unfold scalar at h
  split at h
  · rename_i x hf
    cases h
    obtain ⟨l, hl, h1⟩ := List.exists_of_findSome?_eq_some hf
    obtain ⟨r', h2, h3⟩ := Option.map_eq_some_iff.mp h1
    cases h3
    have he := dropPrefix_eq h2
    simp only [literals, List.mem_cons, List.not_mem_nil, or_false] at hl
    rcases hl with rfl | rfl | rfl | rfl | rfl | rfl
    · exact .null
    · exact .bool _
    · exact .bool _
    · exact absurd ⟨[], r, he.symm⟩ (hs.2 py"NaN" (by decide))
    · exact absurd ⟨[], r, he.symm⟩ (hs.2 py"Infinity" (by decide))
    · exact absurd ⟨['-'], r, he.symm⟩ (hs.2 py"Infinity" (by decide))
  · obtain ⟨t, ht, _⟩ := number_only h
    unfold number at h
    split at h
    · cases h
    · cases h
      cases ht with
      | num hn => exact number_plain hn

mutual
theorem value_plain : ∀ (fuel : Nat) {s r : Str} {v : Json}, value fuel s = some (v, r) → OnlyRfc s → Plain v
  | 0, _, _, _, h, _ => by rw [value] at h; cases h
  | _ + 1, [], _, _, h, _ => by rw [value] at h; cases h
  | fuel + 1, c :: s, r, v, h, hs => by
    have hs' := clean_tail hs
    rw [value] at h
    split at h
    · obtain ⟨⟨x, r'⟩, h1, h2⟩ := Option.map_eq_some_iff.mp h
      cases h2
      exact .str (strBody_plain _ h1 hs')
    · split at h
      · split at h
        · cases h
          exact .obj (by simp) (by simp)
        · obtain ⟨⟨x, r'⟩, h1, h2⟩ := Option.map_eq_some_iff.mp h
          cases h2
          have := members_plain fuel h1 (clean_skip hs')
          exact .obj (fun m hm => (this m hm).1) (fun m hm => (this m hm).2)
      · split at h
        · split at h
          · cases h
            exact .arr (by simp)
          · obtain ⟨⟨x, r'⟩, h1, h2⟩ := Option.map_eq_some_iff.mp h
            cases h2
            exact .arr (elements_plain fuel h1 (clean_skip hs'))
        · exact scalar_plain h hs
theorem members_plain : ∀ (fuel : Nat) {s r : Str} {ms : List (Str × Json)}, members fuel s = some (ms, r) → OnlyRfc s →
    ∀ m ∈ ms, '�' ∉ m.1 ∧ Plain m.2
  | 0, _, _, _, h, _ => by rw [members] at h; cases h
  | _ + 1, [], _, _, h, _ => by rw [members] at h; cases h
  | fuel + 1, c :: s, r, ms, h, hs => by
    have hs' := clean_tail hs
    rw [members] at h
    split at h
    · cases h
    · split at h
      · cases h
      · rename_i k s1 hk
        have hp1 := strBody_plain _ hk hs'
        obtain ⟨kt, hkt, e0⟩ := strBody_only _ hk hp1
        have c1 : OnlyRfc s1 := clean_rest (p := kt ++ ['"']) hs' (by rw [e0]; simp)
        split at h
        · rename_i s2 hs2
          have c2 : OnlyRfc s2 := clean_tail (hs2 ▸ clean_skip c1)
          split at h
          · cases h
          · rename_i v s3 hval
            have hp2 := value_plain fuel hval (clean_skip c2)
            obtain ⟨t, ht, ev⟩ := value_only fuel hval hp2
            have c3 : OnlyRfc s3 := clean_rest (clean_skip c2) ev
            split at h
            · cases h
              intro m hm
              cases List.mem_singleton.mp hm
              exact ⟨hp1, hp2⟩
            · rename_i s4 hs4
              obtain ⟨⟨x, r'⟩, h1, h2⟩ := Option.map_eq_some_iff.mp h
              cases h2
              have ih := members_plain fuel h1 (clean_skip (clean_tail (hs4 ▸ clean_skip c3)))
              intro m hm
              rcases List.mem_cons.mp hm with hm | hm
              · subst hm; exact ⟨hp1, hp2⟩
              · exact ih m hm
            · cases h
        · cases h
theorem elements_plain : ∀ (fuel : Nat) {s r : Str} {vs : List Json}, elements fuel s = some (vs, r) → OnlyRfc s → ∀ v ∈ vs, Plain v
  | 0, _, _, _, h, _ => by rw [elements] at h; cases h
  | fuel + 1, s, r, vs, h, hs => by
    rw [elements] at h
    split at h
    · cases h
    · rename_i v s3 hval
      have hp := value_plain fuel hval hs
      obtain ⟨t, ht, ev⟩ := value_only fuel hval hp
      have c3 : OnlyRfc s3 := clean_rest hs ev
      split at h
      · cases h
        intro m hm
        cases List.mem_singleton.mp hm
        exact hp
      · rename_i s4 hs4
        obtain ⟨⟨x, r'⟩, h1, h2⟩ := Option.map_eq_some_iff.mp h
        cases h2
        have ih := elements_plain fuel h1 (clean_skip (clean_tail (hs4 ▸ clean_skip c3)))
        intro m hm
        rcases List.mem_cons.mp hm with hm | hm
        · subst hm; exact hp
        · exact ih m hm
      · cases h
end

theorem loads_plain {text : Str} {v : Json} (h : loads text = some v) (hs : OnlyRfc text) : Plain v := by
  unfold loads at h
  split at h
  · cases h
  · rename_i j r hval
    split at h
    · cases h
      exact value_plain _ hval (clean_skip hs)
    · cases h

end Json
end Mygrations
