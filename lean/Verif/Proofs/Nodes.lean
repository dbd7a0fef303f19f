import Verif.Proofs.Engine
import Verif.Proofs.Kept

/-!
# What the rule engine hands over

Whatever the text: what holds for everything which a rule can yield holds for all values of a parse, and every required
rule of a match has a value.
-/

namespace Mygrations

section Rules
variable {K V : Type} {P : K → Str → Except PyErr (Option (V × Str))}

theorem runRules_all {Q : Str → V → Prop} : ∀ (rs : List (Rule K)) (vals : Dict V) (s : Str) (res : ParseResult V),
    (∀ r ∈ rs, ∀ s v s', P r.kind s = .ok (some (v, s')) → Q r.name v) → (Dict.keys vals).Nodup → (∀ k v, (k, v) ∈ vals → Q k v) →
    runRules P rs vals s = .ok res → (Dict.keys res.values).Nodup ∧ ∀ k v, (k, v) ∈ res.values → Q k v
  | [], vals, s, res, _, hn, hv, h => by cases h; exact ⟨hn, hv⟩
  | r :: rs, vals, s, res, hP, hn, hv, h => by
    have hP' : ∀ x ∈ rs, ∀ s v s', P x.kind s = .ok (some (v, s')) → Q x.name v := fun x hx => hP x (List.mem_cons_of_mem _ hx)
    unfold runRules at h
    split at h
    · cases h
    · split at h
      · exact runRules_all rs vals s res hP' hn hv h
      · cases h; exact ⟨hn, hv⟩
    · rename_i v s' hk
      have hq := hP r List.mem_cons_self s v s' hk
      split at h
      · cases h
        exact ⟨Dict.keys_set_nodup _ _ hn, Dict.all_set hv hq hn⟩
      · exact runRules_all rs _ s' res hP' (Dict.keys_set_nodup _ _ hn) (Dict.all_set hv hq hn) h

theorem runRules_required : ∀ (rs : List (Rule K)) (vals : Dict V) (s : Str) (res : ParseResult V),
    runRules P rs vals s = .ok res → res.matched = true →
    (∀ k ∈ Dict.keys vals, k ∈ Dict.keys res.values) ∧ ∀ r ∈ rs, r.optional = false → r.name ∈ Dict.keys res.values
  | [], vals, s, res, h, _ => by cases h; exact ⟨fun _ h => h, fun _ h => by cases h⟩
  | r :: rs, vals, s, res, h, hm => by
    unfold runRules at h
    split at h
    · cases h
    · split at h
      · rename_i ho
        obtain ⟨h1, h2⟩ := runRules_required rs vals s res h hm
        refine ⟨h1, fun x hx hxo => ?_⟩
        rcases List.mem_cons.mp hx with rfl | hx
        · rw [ho] at hxo; cases hxo
        · exact h2 x hx hxo
      · cases h; cases hm
    · rename_i v s' hk
      split at h
      · cases h
        refine ⟨fun k hk => Dict.mem_keys_set.mpr (Or.inr hk), fun x hx hxo => ?_⟩
        rcases List.mem_cons.mp hx with rfl | hx
        · exact Dict.mem_keys_set.mpr (Or.inl rfl)
        · have := List.all_eq_true.mp hm x hx
          rw [hxo] at this; cases this
      · obtain ⟨h1, h2⟩ := runRules_required rs _ s' res h hm
        refine ⟨fun k hk => h1 k (Dict.mem_keys_set.mpr (Or.inr hk)), fun x hx hxo => ?_⟩
        rcases List.mem_cons.mp hx with rfl | hx
        · exact h1 _ (Dict.mem_keys_set.mpr (Or.inl rfl))
        · exact h2 x hx hxo

end Rules

section Children
variable {α : Type}

theorem childrenLoop_all {classes : List (ChildClass α)} {Q : α → Prop} (hQ : ∀ c ∈ classes, ∀ s m rest, c.tryParse s = .ok (some (m, rest)) → Q m) :
    ∀ (n : Nat) (s : Str) (done l : List α) (rest : Str), (∀ m ∈ done, Q m) → childrenLoop classes n s done = .ok (some (l, rest)) → ∀ m ∈ l, Q m
  | 0, s, done, l, rest, hd, h => by
    unfold childrenLoop at h
    split at h
    · cases h; exact hd
    · cases h
  | n + 1, s, done, l, rest, hd, h => by
    unfold childrenLoop at h
    split at h
    · cases h; exact hd
    · split at h
      · cases h
      · rename_i m rest' hb
        refine childrenLoop_all hQ n rest' _ l rest ?_ h
        intro x hx
        rcases List.mem_append.mp hx with hx | hx
        · exact hd x hx
        · simp only [List.mem_singleton] at hx
          subst hx
          obtain ⟨c, hc, ht⟩ := bestChild_mem hb
          exact hQ c hc s x rest' ht
      · split at h
        · cases h
        · cases h; exact hd

/-- The objects of a rule for children come from its classes. -/
theorem topParse_nodes {rules : List (Rule (TopKind α))} {s : Str} {r : ParseResult (TVal α)} (h : topParse rules s = .ok r) {Q : α → Prop} {n : Str}
    (hQ : ∀ rule ∈ rules, rule.name = n → ∀ classes, rule.kind = .children classes → ∀ c ∈ classes, ∀ s m rest, c.tryParse s = .ok (some (m, rest)) → Q m) :
    ∀ m ∈ topNodes r.values n, Q m := by
  have key := runRules_all (P := TopKind.parse) (Q := fun k v => k = n → ∀ l, v = TVal.nodes l → ∀ m ∈ l, Q m) rules [] (normalize s) r
    (by
      intro rule hr s v s' hp hn l hl
      subst hl
      unfold TopKind.parse at hp
      split at hp
      · split at hp
        · cases hp
        · cases hp
        · cases hp
      · rename_i classes hk
        split at hp
        · cases hp
        · cases hp
        · rename_i l' rest' hl'
          cases hp
          exact childrenLoop_all (hQ rule hr hn classes hk) 1000 s [] l s' (fun _ h => by cases h) hl')
    List.nodup_nil (fun _ _ h => by cases h) h
  unfold topNodes
  split
  · rename_i l hl
    exact key.2 n _ (Dict.mem_of_get? hl) rfl l rfl
  · intro m hm; cases hm

end Children

/-- a text or `NULL` -/
def PyVal.Plain (v : PyVal) : Prop := v = .none ∨ ∃ s, v = .str s

theorem cellValue_plain (s : Str) : (cellValue s).Plain := by
  unfold cellValue
  split
  · exact Or.inl rfl
  · exact Or.inr ⟨_, rfl⟩

/-- The values of an `INSERT` are texts or `NULL`. -/
theorem parseInsert_plain {s rest : Str} {r : Rows} (h : parseInsert s = .ok (r, rest)) : ∀ vs ∈ r.rawRows, ∀ v ∈ vs, v.Plain := by
  unfold parseInsert at h
  split at h
  · cases h
  · rename_i res hres
    split at h
    · cases h
      intro vs hvs v hv
      have hnode := topParse_nodes (n := py"inserts") (Q := fun g : ValueGroup => ∀ v ∈ g.values, v.Plain) hres (by
        intro rule hr hn classes hk c hc s m rest hm
        have hcl : classes = [insertValues] := by
          simp only [insertRules, List.mem_cons, List.not_mem_nil, or_false] at hr
          rcases hr with rfl | rfl | rfl | rfl | rfl | rfl | rfl | rfl
          · cases hk
          · cases hk
          · cases hk
          · cases hk
          · cases hk
          · cases hk
          · cases hk; rfl
          · cases hk
        subst hcl
        simp only [List.mem_singleton] at hc
        subst hc
        unfold ChildClass.tryParse at hm
        split at hm
        · cases hm
        · split at hm
          · cases hm
            intro v hv
            simp only [insertValues, List.mem_map] at hv
            obtain ⟨x, _, rfl⟩ := hv
            exact cellValue_plain x
          · cases hm)
      simp only [insertProcess, List.mem_map] at hvs
      obtain ⟨g, hg, rfl⟩ := hvs
      exact hnode g (List.mem_filter.mp hg).1 v hv
    · cases h
      intro vs hvs
      cases hvs

end Mygrations
