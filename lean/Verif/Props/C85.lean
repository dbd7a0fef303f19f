import Verif.Spec.Edit
import Verif.Proofs.Dict
import Verif.Proofs.Replay
import Verif.Proofs.Check
import Verif.Props.Examples

/-!
# C85: edits of a table in memory

`t.edit e` is a call of `add_column`, `remove_column`, … on a table; `Edit.Possible`, `Edit.Made` and `Edit.Inverse` (Spec/Edit) say
when an edit makes sense, what it means and how it is taken back.
-/

namespace Mygrations
open Table

/-! ## Proofs -/

section
variable {V : Type}

theorem erase_without {d : Dict V} (n : Str) (h : d.keys.Nodup) : d.erase n = without n d := Dict.erase_eq_filter n h

theorem set_replaced (n : Str) (v : V) : ∀ {d : Dict V}, d.keys.Nodup → n ∈ d.keys → d.set n v = replaced n v d
  | [], _, h => by cases h
  | (k, x) :: d, hn, h => by
    have hd : k ∉ Dict.keys d ∧ (Dict.keys d).Nodup := List.nodup_cons.mp hn
    unfold Dict.set replaced
    rw [List.map_cons]
    by_cases hk : k = n
    · rw [if_pos hk, if_pos hk]
      congr 1
      conv => lhs; rw [← List.map_id d]
      apply List.map_congr_left
      intro e he
      rw [if_neg, id_eq]
      intro e'
      exact hd.1 (by rw [hk, ← e']; exact List.mem_map_of_mem he)
    · rw [if_neg hk, if_neg hk]
      congr 1
      refine set_replaced n v hd.2 ?_
      rcases List.mem_cons.mp h with h | h
      · exact absurd h.symm hk
      · exact h

theorem insertAfter_placed (a n : Str) (v : V) : ∀ {d : Dict V}, d.keys.Nodup → a ∈ d.keys → Placed n v (.after a) d (insertAfter a n v d)
  | [], _, h => by cases h
  | (k, x) :: d, hn, h => by
    have hd : k ∉ Dict.keys d ∧ (Dict.keys d).Nodup := List.nodup_cons.mp hn
    have hnot : ∀ {d : Dict V}, a ∉ d.keys → insertAfter a n v d = d := by
      intro d
      induction d with
      | nil => intro _; rfl
      | cons e d ih =>
        intro h
        unfold insertAfter
        rw [if_neg (fun e' => h (by rw [← e']; exact List.mem_cons_self)), ih (fun m => h (List.mem_cons_of_mem _ m))]
    unfold insertAfter
    by_cases hk : k = a
    · rw [if_pos hk]
      subst hk
      exact ⟨[], x, d, rfl, by rw [hnot hd.1]; rfl⟩
    · rw [if_neg hk]
      obtain ⟨pre, y, post, h1, h2⟩ := insertAfter_placed a n v hd.2 (by
        rcases List.mem_cons.mp h with h | h
        · exact absurd h.symm hk
        · exact h)
      exact ⟨(k, x) :: pre, y, post, by rw [h1]; rfl, by rw [h2]; rfl⟩

theorem without_new {n : Str} {d : List (Str × V)} (h : n ∉ d.map Prod.fst) : without n d = d :=
  List.filter_eq_self.mpr (fun e he => by
    rw [decide_eq_true_iff]
    exact fun e' => h (e' ▸ List.mem_map_of_mem he))

/-- what has been put somewhere can be taken away again -/
theorem without_placed {n : Str} {v : V} {p : Pos} {d r : List (Str × V)} (h : n ∉ d.map Prod.fst) (hp : Placed n v p d r) : without n r = d := by
  have one : ∀ (a b : List (Str × V)), n ∉ (a ++ b).map Prod.fst → without n (a ++ (n, v) :: b) = a ++ b := by
    intro a b hab
    rw [← without_new hab]
    unfold without
    rw [List.filter_append, List.filter_append, List.filter_cons, if_neg (by simp)]
  cases p with
  | last =>
    have : r = d ++ [(n, v)] := hp
    rw [this, one d [] (by simpa using h), List.append_nil]
  | first =>
    have : r = (n, v) :: d := hp
    rw [this]
    exact one [] d (by simpa using h)
  | after a =>
    obtain ⟨pre, x, post, h1, h2⟩ := hp
    subst h1
    rw [h2, show pre ++ (a, x) :: (n, v) :: post = (pre ++ [(a, x)]) ++ (n, v) :: post by simp, one _ _ (by simpa using h)]
    simp

theorem replaced_back {n : Str} {v w : V} {d : List (Str × V)} (hn : (d.map Prod.fst).Nodup) (h : (n, w) ∈ d) : replaced n w (replaced n v d) = d := by
  unfold replaced
  rw [List.map_map]
  conv => rhs; rw [← List.map_id d]
  apply List.map_congr_left
  rintro ⟨k, x⟩ he
  simp only [Function.comp, id_eq]
  by_cases hk : k = n
  · subst hk
    rw [if_pos rfl, if_pos rfl]
    have h1 := Dict.get?_of_mem (d := d) hn h
    have h2 := Dict.get?_of_mem (d := d) hn he
    rw [h1] at h2
    cases h2
    rfl
  · rw [if_neg hk, if_neg hk]

theorem split_unique {a : Str} : ∀ {pre pre' post post' : List (Str × V)} {x x' : V}, pre ++ (a, x) :: post = pre' ++ (a, x') :: post' →
    ((pre ++ (a, x) :: post).map Prod.fst).Nodup → pre = pre' ∧ x = x' ∧ post = post'
  | [], [], _, _, _, _, e, _ => by cases e; exact ⟨rfl, rfl, rfl⟩
  | [], y :: ys, _, _, _, _, e, hn => by
    cases e
    simp at hn
  | y :: ys, [], _, _, _, _, e, hn => by
    cases e
    simp at hn
  | y :: ys, z :: zs, _, _, _, _, e, hn => by
    obtain ⟨e1, e2⟩ := List.cons.inj e
    obtain ⟨h1, h2, h3⟩ := split_unique e2 (List.nodup_cons.mp hn).2
    exact ⟨by rw [e1, h1], h2, h3⟩

theorem placed_unique {n : Str} {v : V} {p : Pos} {d r r' : List (Str × V)} (hn : (d.map Prod.fst).Nodup) (h : Placed n v p d r) (h' : Placed n v p d r') :
    r = r' := by
  cases p with
  | last => exact Eq.trans h h'.symm
  | first => exact Eq.trans h h'.symm
  | after a =>
    obtain ⟨pre, x, post, h1, h2⟩ := h
    obtain ⟨pre', x', post', h1', h2'⟩ := h'
    subst h1
    obtain ⟨rfl, rfl, rfl⟩ := split_unique h1' hn
    rw [h2, h2']

theorem keys_placed {n : Str} {v : V} {p : Pos} {d r : List (Str × V)} (hp : Placed n v p d r) : r.Perm ((n, v) :: d) := by
  cases p with
  | last =>
    have : r = d ++ [(n, v)] := hp
    rw [this]
    exact List.perm_append_comm
  | first =>
    have : r = (n, v) :: d := hp
    rw [this]
  | after a =>
    obtain ⟨pre, x, post, h1, h2⟩ := hp
    rw [h1, h2, show pre ++ (a, x) :: (n, v) :: post = (pre ++ [(a, x)]) ++ (n, v) :: post by simp,
      show (n, v) :: (pre ++ (a, x) :: post) = (n, v) :: ((pre ++ [(a, x)]) ++ post) by simp]
    exact List.perm_middle

theorem keys_replaced (n : Str) (v : V) (d : List (Str × V)) : (replaced n v d).map Prod.fst = d.map Prod.fst := by
  unfold replaced
  rw [List.map_map]
  apply List.map_congr_left
  rintro ⟨k, x⟩ _
  simp only [Function.comp]
  by_cases hk : k = n
  · rw [if_pos hk, hk]
  · rw [if_neg hk]

end

/-- `column_before` -/
theorem before_placed : ∀ (cols : Dict Column) (n : Str) (prev : Option (Str × Column)) (p : Pos), cols.keys.Nodup →
    (∀ e, prev = some e → e.1 ≠ n ∧ e.1 ∉ cols.keys) → columnBeforeAux n (prev.map Prod.fst) cols.keys = some p →
    ∃ c, (n, c) ∈ cols ∧ Placed n c p (without n (prev.toList ++ cols)) (prev.toList ++ cols) ∧ p ≠ .last
  | [], _, _, _, _, _, h => by cases h
  | (k, x) :: cols, n, prev, p, hn, hprev, h => by
    have hd : k ∉ Dict.keys cols ∧ (Dict.keys cols).Nodup := List.nodup_cons.mp hn
    replace h : (if k = n then some (match prev.map Prod.fst with | none => Pos.first | some p => .after p)
        else columnBeforeAux n (some k) (Dict.keys cols)) = some p := h
    by_cases hk : k = n
    · rw [if_pos hk] at h
      subst hk
      refine ⟨x, List.mem_cons_self, ?_⟩
      have hw : without k ((k, x) :: cols) = cols := by
        rw [show (k, x) :: cols = [] ++ (k, x) :: cols from rfl]
        unfold without
        rw [List.filter_append, List.filter_cons, if_neg (by simp)]
        exact without_new hd.1
      cases prev with
      | none =>
        obtain rfl : Pos.first = p := Option.some.inj h
        refine ⟨?_, by simp⟩
        show (k, x) :: cols = (k, x) :: without k ((k, x) :: cols)
        rw [hw]
      | some e =>
        obtain rfl : Pos.after e.1 = p := Option.some.inj h
        refine ⟨⟨[], e.2, cols, ?_, rfl⟩, by simp⟩
        have : without k ([e] ++ (k, x) :: cols) = e :: without k ((k, x) :: cols) := by
          unfold without
          rw [List.singleton_append, List.filter_cons, if_pos (by simpa using (hprev e rfl).1)]
        rw [show (some e).toList = [e] from rfl, this, hw]
        rfl
    · rw [if_neg hk] at h
      obtain ⟨c, h1, h2, h3⟩ := before_placed cols n (some (k, x)) p hd.2 (fun e he => by cases he; exact ⟨hk, hd.1⟩) h
      refine ⟨c, List.mem_cons_of_mem _ h1, ?_, h3⟩
      cases prev with
      | none => exact h2
      | some e =>
        cases p with
        | last => exact absurd rfl h3
        | first =>
          have : (k, x) :: cols = (n, c) :: without n ((k, x) :: cols) := h2
          exact absurd (congrArg Prod.fst (List.cons.inj this).1) hk
        | after a =>
          obtain ⟨pre, y, post, e1, e2⟩ := h2
          refine ⟨e :: pre, y, post, ?_, ?_⟩
          · have : without n ([e] ++ (k, x) :: cols) = e :: without n ((k, x) :: cols) := by
              unfold without
              rw [List.singleton_append, List.filter_cons, if_pos (by simpa using (hprev e rfl).1)]
            rw [show (some e).toList = [e] from rfl, this]
            exact congrArg (e :: ·) e1
          · exact congrArg (e :: ·) e2

theorem notHas {V : Type} {d : Dict V} {n : Str} (h : ¬ d.has n = true) : n ∉ d.map Prod.fst := fun m => h (Dict.has_iff.mpr m)

/-! ## C85 -/

/-- **C85.**  An edit succeeds exactly if it makes sense; otherwise it is a `ValueError`. -/
theorem C85_possible (t : Table) (ht : t.KeysOnColumns) (e : Edit) (he : e.OnColumns) :
    ((∃ r, t.edit e = .ok r) ↔ e.Possible t) ∧ (¬ e.Possible t → ∃ m, t.edit e = .error (.valueError m)) := by
  suffices h : (e.Possible t → ∃ r, t.edit e = .ok r) ∧ (¬ e.Possible t → ∃ m, t.edit e = .error (.valueError m)) by
    refine ⟨⟨fun ⟨r, hr⟩ => ?_, h.1⟩, h.2⟩
    apply Classical.byContradiction
    intro hn
    obtain ⟨m, hm⟩ := h.2 hn
    rw [hr] at hm
    cases hm
  have hidx : ∀ {n i}, t.indexes.get? n = some i → i.columns ≠ [] := fun h => ht _ (Dict.mem_of_get? h)
  cases e with
  | addColumn c p =>
    unfold edit addColumn
    by_cases hh : t.columns.has c.name = true
    · simp only [if_pos hh]
      exact ⟨fun h => absurd (Dict.has_iff.mp hh) h.1, fun _ => ⟨_, rfl⟩⟩
    · simp only [if_neg hh]
      cases p with
      | last => exact ⟨fun _ => ⟨_, rfl⟩, fun h => absurd ⟨notHas hh, fun a e => by cases e⟩ h⟩
      | first => exact ⟨fun _ => ⟨_, rfl⟩, fun h => absurd ⟨notHas hh, fun a e => by cases e⟩ h⟩
      | after a =>
        by_cases ha : t.columns.has a = true
        · simp only [if_pos ha]
          exact ⟨fun _ => ⟨_, rfl⟩, fun h => absurd ⟨notHas hh, fun b e => by cases e; exact Dict.has_iff.mp ha⟩ h⟩
        · simp only [if_neg ha]
          exact ⟨fun h => absurd (h.2 a rfl) (notHas ha), fun _ => ⟨_, rfl⟩⟩
  | removeColumn n =>
    unfold edit removeColumn
    by_cases hh : t.columns.has n = true
    · simp only [if_pos hh]
      exact ⟨fun _ => ⟨_, rfl⟩, fun h => absurd (Dict.has_iff.mp hh) h⟩
    · simp only [if_neg hh]
      exact ⟨fun h => absurd h (notHas hh), fun _ => ⟨_, rfl⟩⟩
  | changeColumn c =>
    unfold edit changeColumn
    by_cases hh : t.columns.has c.name = true
    · simp only [if_pos hh]
      exact ⟨fun _ => ⟨_, rfl⟩, fun h => absurd (Dict.has_iff.mp hh) h⟩
    · simp only [if_neg hh]
      exact ⟨fun h => absurd h (notHas hh), fun _ => ⟨_, rfl⟩⟩
  | addIndex i =>
    unfold edit addIndex
    by_cases hh : t.indexes.has i.name = true
    · simp only [if_pos hh]
      exact ⟨fun h => absurd (Dict.has_iff.mp hh) h, fun _ => ⟨_, rfl⟩⟩
    · simp only [if_neg hh]
      refine ⟨fun _ => ?_, fun h => absurd (notHas hh) h⟩
      cases t.indexedCache with
      | none => exact ⟨_, rfl⟩
      | some s =>
        cases hc : i.columns with
        | nil => exact absurd hc he
        | cons c cs => exact ⟨_, rfl⟩
  | removeIndex n =>
    show (_ → ∃ r, t.removeIndex n = .ok r) ∧ (_ → ∃ m, t.removeIndex n = _)
    unfold removeIndex
    cases hg : t.indexes.get? n with
    | none => exact ⟨fun h => absurd h (Dict.get?_eq_none.mp hg), fun _ => ⟨_, rfl⟩⟩
    | some i =>
      refine ⟨fun _ => ?_, fun h => absurd (Dict.mem_keys_of_get? hg) h⟩
      cases hc : i.columns with
      | nil => exact absurd hc (hidx hg)
      | cons c cs => simp only [hc]; exact ⟨_, rfl⟩
  | changeIndex i =>
    show (_ → ∃ r, t.changeIndex i = .ok r) ∧ (_ → ∃ m, t.changeIndex i = _)
    unfold changeIndex
    cases hg : t.indexes.get? i.name with
    | none => exact ⟨fun h => absurd h (Dict.get?_eq_none.mp hg), fun _ => ⟨_, rfl⟩⟩
    | some old =>
      refine ⟨fun _ => ?_, fun h => absurd (Dict.mem_keys_of_get? hg) h⟩
      cases t.indexedCache with
      | none => exact ⟨_, rfl⟩
      | some s =>
        cases hc : old.columns with
        | nil => exact absurd hc (hidx hg)
        | cons c cs =>
          cases hd : i.columns with
          | nil => exact absurd hd he
          | cons d ds => simp only [hc, hd]; exact ⟨_, rfl⟩
  | addConstraint k =>
    unfold edit addConstraint
    by_cases hh : t.constraints.has k.name = true
    · simp only [if_pos hh]
      exact ⟨fun h => absurd (Dict.has_iff.mp hh) h, fun _ => ⟨_, rfl⟩⟩
    · simp only [if_neg hh]
      exact ⟨fun _ => ⟨_, rfl⟩, fun h => absurd (notHas hh) h⟩
  | removeConstraint n =>
    unfold edit removeConstraint
    by_cases hh : t.constraints.has n = true
    · simp only [if_pos hh]
      exact ⟨fun _ => ⟨_, rfl⟩, fun h => absurd (Dict.has_iff.mp hh) h⟩
    · simp only [if_neg hh]
      exact ⟨fun h => absurd h (notHas hh), fun _ => ⟨_, rfl⟩⟩
  | changeConstraint k =>
    unfold edit changeConstraint
    by_cases hh : t.constraints.has k.name = true
    · simp only [if_pos hh]
      exact ⟨fun _ => ⟨_, rfl⟩, fun h => absurd (Dict.has_iff.mp hh) h⟩
    · simp only [if_neg hh]
      exact ⟨fun h => absurd h (notHas hh), fun _ => ⟨_, rfl⟩⟩

/-- **C85.**  An edit which succeeds changes what it says, and nothing else. -/
theorem C85_made (t r : Table) (ht : t.Keyed) (e : Edit) (h : t.edit e = .ok r) : e.Made t r := by
  cases e with
  | addColumn c p =>
    unfold edit addColumn at h
    dsimp only at h
    by_cases hh : t.columns.has c.name = true
    · rw [if_pos hh] at h; cases h
    · rw [if_neg hh] at h
      cases p with
      | last => cases h; exact ⟨rfl, rfl, rfl, rfl, rfl, ⟨rfl, rfl⟩, ⟨rfl, rfl⟩⟩
      | first => cases h; exact ⟨rfl, rfl, rfl, rfl, rfl, ⟨rfl, rfl⟩, ⟨rfl, rfl⟩⟩
      | after a =>
        dsimp only at h
        by_cases ha : t.columns.has a = true
        · rw [if_pos ha] at h
          cases h
          exact ⟨insertAfter_placed a c.name c ht.colNodup (Dict.has_iff.mp ha), rfl, rfl, rfl, rfl, ⟨rfl, rfl⟩, ⟨rfl, rfl⟩⟩
        · rw [if_neg ha] at h; cases h
  | removeColumn n =>
    unfold edit removeColumn at h
    dsimp only at h
    split at h
    · cases h
      exact ⟨erase_without n ht.colNodup, rfl, rfl, rfl, rfl, ⟨rfl, rfl⟩, ⟨rfl, rfl⟩⟩
    · cases h
  | changeColumn c =>
    unfold edit changeColumn at h
    dsimp only at h
    split at h
    · rename_i hh
      cases h
      exact ⟨set_replaced c.name c ht.colNodup (Dict.has_iff.mp hh), rfl, rfl, rfl, rfl, ⟨rfl, rfl⟩, ⟨rfl, rfl⟩⟩
    · cases h
  | addIndex i =>
    unfold edit addIndex at h
    dsimp only at h
    by_cases hh : t.indexes.has i.name = true
    · rw [if_pos hh] at h; cases h
    · rw [if_neg hh] at h
      have hset := Dict.set_of_not_mem i (notHas hh)
      split at h
      · cases h
        exact ⟨rfl, hset, rfl, rfl, rfl, ⟨rfl, rfl⟩, ⟨rfl, rfl⟩⟩
      · split at h
        · cases h
        · cases h
          exact ⟨rfl, hset, rfl, rfl, rfl, ⟨rfl, rfl⟩, ⟨rfl, rfl⟩⟩
  | removeIndex n =>
    unfold edit removeIndex at h
    dsimp only at h
    split at h
    · cases h
    · split at h
      · cases h
      · cases h
        exact ⟨rfl, erase_without n ht.idxNodup, rfl, rfl, rfl, ⟨rfl, rfl⟩, ⟨rfl, rfl⟩⟩
  | changeIndex i =>
    unfold edit changeIndex at h
    dsimp only at h
    split at h
    · cases h
    · rename_i old hg
      have hset := set_replaced i.name i ht.idxNodup (Dict.mem_keys_of_get? hg)
      split at h
      · cases h
        exact ⟨rfl, hset, rfl, rfl, rfl, ⟨rfl, rfl⟩, ⟨rfl, rfl⟩⟩
      · split at h
        · cases h
          exact ⟨rfl, hset, rfl, rfl, rfl, ⟨rfl, rfl⟩, ⟨rfl, rfl⟩⟩
        · cases h
  | addConstraint k =>
    unfold edit addConstraint at h
    dsimp only at h
    split at h
    · cases h
    · rename_i hh
      cases h
      exact ⟨rfl, rfl, Dict.set_of_not_mem k (notHas hh), rfl, rfl, ⟨rfl, rfl⟩, ⟨rfl, rfl⟩⟩
  | removeConstraint n =>
    unfold edit removeConstraint at h
    dsimp only at h
    split at h
    · cases h
      exact ⟨rfl, rfl, erase_without n ht.fkNodup, rfl, rfl, ⟨rfl, rfl⟩, ⟨rfl, rfl⟩⟩
    · cases h
  | changeConstraint k =>
    unfold edit changeConstraint at h
    dsimp only at h
    split at h
    · rename_i hh
      cases h
      exact ⟨rfl, rfl, set_replaced k.name k ht.fkNodup (Dict.has_iff.mp hh), rfl, rfl, ⟨rfl, rfl⟩, ⟨rfl, rfl⟩⟩
    · cases h

/-- a dictionary which is keyed by the names of its entries -/
structure NamedBy {V : Type} (f : V → Str) (d : List (Str × V)) : Prop where
  nodup : (d.map Prod.fst).Nodup
  names : ∀ k v, (k, v) ∈ d → f v = k

namespace NamedBy
variable {V : Type} {f : V → Str} {d r : List (Str × V)}

theorem placed (h : NamedBy f d) {v : V} {p : Pos} (hn : f v ∉ d.map Prod.fst) (hp : Placed (f v) v p d r) : NamedBy f r := by
  have hperm := keys_placed hp
  refine ⟨?_, fun k w hw => ?_⟩
  · rw [(hperm.map Prod.fst).nodup_iff, List.map_cons]
    exact List.nodup_cons.mpr ⟨hn, h.nodup⟩
  · rcases List.mem_cons.mp (hperm.mem_iff.mp hw) with e | e
    · cases e; rfl
    · exact h.names k w e

theorem without (h : NamedBy f d) (n : Str) : NamedBy f (without n d) :=
  ⟨h.nodup.sublist (List.Sublist.map _ List.filter_sublist), fun k v hv => h.names k v ((List.mem_filter.mp hv).1)⟩

theorem replaced (h : NamedBy f d) (v : V) : NamedBy f (replaced (f v) v d) := by
  refine ⟨by rw [keys_replaced]; exact h.nodup, fun k w hw => ?_⟩
  obtain ⟨⟨k', w'⟩, he, e⟩ := List.mem_map.mp hw
  dsimp only at e
  by_cases hk : k' = f v
  · rw [if_pos hk] at e; cases e; rfl
  · rw [if_neg hk] at e; cases e; exact h.names _ _ he

end NamedBy

theorem edit_keyed {t r : Table} {e : Edit} (ht : t.Keyed) (h : t.edit e = .ok r) : r.Keyed := by
  have hm := C85_made t r ht e h
  have h1 : NamedBy Column.name t.columns := ⟨ht.colNodup, ht.colName⟩
  have h2 : NamedBy Index.name t.indexes := ⟨ht.idxNodup, ht.idxName⟩
  have h3 : NamedBy Constraint.name t.constraints := ⟨ht.fkNodup, ht.fkName⟩
  suffices hs : NamedBy Column.name r.columns ∧ NamedBy Index.name r.indexes ∧ NamedBy Constraint.name r.constraints from
    ⟨hs.1.nodup, hs.1.names, hs.2.1.nodup, hs.2.1.names, hs.2.2.nodup, hs.2.2.names⟩
  have m1 := hm.columns
  have m2 := hm.indexes
  have m3 := hm.constraints
  cases e with
  | addColumn c p =>
    dsimp only at m1 m2 m3
    rw [m2, m3]
    refine ⟨h1.placed (fun m => ?_) m1, h2, h3⟩
    unfold edit addColumn at h
    dsimp only at h
    rw [if_pos (Dict.has_iff.mpr m)] at h
    cases h
  | removeColumn n => dsimp only at m1 m2 m3; rw [m1, m2, m3]; exact ⟨h1.without n, h2, h3⟩
  | changeColumn c => dsimp only at m1 m2 m3; rw [m1, m2, m3]; exact ⟨h1.replaced c, h2, h3⟩
  | addIndex i =>
    dsimp only at m1 m2 m3
    rw [m1, m3]
    refine ⟨h1, h2.placed (v := i) (p := .last) (fun m => ?_) m2, h3⟩
    unfold edit addIndex at h
    dsimp only at h
    rw [if_pos (Dict.has_iff.mpr m)] at h
    cases h
  | removeIndex n => dsimp only at m1 m2 m3; rw [m1, m2, m3]; exact ⟨h1, h2.without n, h3⟩
  | changeIndex i => dsimp only at m1 m2 m3; rw [m1, m2, m3]; exact ⟨h1, h2.replaced i, h3⟩
  | addConstraint k =>
    dsimp only at m1 m2 m3
    rw [m1, m2]
    refine ⟨h1, h2, h3.placed (v := k) (p := .last) (fun m => ?_) m3⟩
    unfold edit addConstraint at h
    dsimp only at h
    rw [if_pos (Dict.has_iff.mpr m)] at h
    cases h
  | removeConstraint n => dsimp only at m1 m2 m3; rw [m1, m2, m3]; exact ⟨h1, h2, h3.without n⟩
  | changeConstraint k => dsimp only at m1 m2 m3; rw [m1, m2, m3]; exact ⟨h1, h2, h3.replaced k⟩

theorem edit_onColumns {t r : Table} {e : Edit} (ht : t.Keyed) (hc : t.KeysOnColumns) (he : e.OnColumns) (h : t.edit e = .ok r) : r.KeysOnColumns := by
  have m2 := (C85_made t r ht e h).indexes
  unfold KeysOnColumns
  cases e with
  | addIndex i =>
    dsimp only at m2
    rw [m2]
    intro x hx
    rcases List.mem_append.mp hx with hx | hx
    · exact hc x hx
    · rw [List.mem_singleton] at hx; rw [hx]; exact he
  | removeIndex n => dsimp only at m2; rw [m2]; exact fun x hx => hc x ((List.mem_filter.mp hx).1)
  | changeIndex i =>
    dsimp only at m2
    rw [m2]
    intro x hx
    obtain ⟨y, hy, rfl⟩ := List.mem_map.mp hx
    split
    · exact he
    · exact hc y hy
  | _ => dsimp only at m2; rw [m2]; exact hc

/-- **C85.**  After any history of edits, everything in the table is still found under its own name, once. -/
theorem C85_history (t r : Table) (ht : t.Keyed) (es : List Edit) (h : t.edits es = .ok r) : r.Keyed := by
  induction es generalizing t with
  | nil => cases h; exact ht
  | cons e es ih =>
    unfold edits at h
    split at h
    · rename_i u hu
      exact ih u (edit_keyed ht hu) h
    · cases h

/-- **C85.**  An edit can be taken back: the inverse edit succeeds, and leaves the columns, the keys and the foreign keys as they were. -/
theorem C85_undo (t r : Table) (ht : t.Keyed) (hc : t.KeysOnColumns) (e e' : Edit) (he : e.OnColumns) (h : t.edit e = .ok r) (hi : e.Inverse t e') :
    ∃ t', r.edit e' = .ok t' ∧ t'.columns = t.columns ∧ t'.indexes = t.indexes ∧ t'.constraints = t.constraints := by
  have hr : r.Keyed := edit_keyed ht h
  have hm := C85_made t r ht e h
  have hposs := (C85_possible t hc e he).1.mp ⟨r, h⟩
  have hrc : r.KeysOnColumns := edit_onColumns ht hc he h
  have m1 := hm.columns
  have m2 := hm.indexes
  have m3 := hm.constraints
  have go : e'.OnColumns → e'.Possible r → (∀ t', e'.Made r t' → t'.columns = t.columns ∧ t'.indexes = t.indexes ∧ t'.constraints = t.constraints) →
      ∃ t', r.edit e' = .ok t' ∧ t'.columns = t.columns ∧ t'.indexes = t.indexes ∧ t'.constraints = t.constraints := by
    intro h1 h2 h3
    obtain ⟨t', ht'⟩ := (C85_possible r hrc e' h1).1.mpr h2
    exact ⟨t', ht', h3 t' (C85_made r t' hr e' ht')⟩
  cases e with
  | addColumn c p =>
    cases e' with
    | removeColumn n =>
      have hn : n = c.name := hi
      subst hn
      dsimp only at m1 m2 m3
      refine go trivial ?_ (fun t' hm' => ?_)
      · exact ((keys_placed m1).map Prod.fst).mem_iff.mpr List.mem_cons_self
      · have := hm'.columns
        dsimp only at this
        exact ⟨this.trans (without_placed hposs.1 m1), hm'.indexes.trans m2, hm'.constraints.trans m3⟩
    | _ => exact hi.elim
  | removeColumn n =>
    cases e' with
    | addColumn c p =>
      obtain ⟨hin, hp⟩ := hi
      have hn : c.name = n := ht.colName n c hin
      subst hn
      dsimp only at m1 m2 m3
      have hw : c.name ∉ (without c.name t.columns).map Prod.fst := fun m => by
        obtain ⟨x, hx, e⟩ := List.mem_map.mp m
        exact absurd e (by simpa using (List.mem_filter.mp hx).2)
      refine go trivial ⟨by rw [m1]; exact hw, fun a ha => ?_⟩ (fun t' hm' => ?_)
      · subst ha
        obtain ⟨pre, x, post, e1, _⟩ := hp
        rw [m1, e1]
        simp
      · have := hm'.columns
        dsimp only at this
        rw [m1] at this
        refine ⟨placed_unique ?_ this hp, hm'.indexes.trans m2, hm'.constraints.trans m3⟩
        have : NamedBy Column.name t.columns := ⟨ht.colNodup, ht.colName⟩
        exact (this.without _).nodup
    | _ => exact hi.elim
  | changeColumn c =>
    cases e' with
    | changeColumn c' =>
      have hn : c'.name = c.name := ht.colName _ _ hi
      dsimp only at m1 m2 m3
      refine go trivial ?_ (fun t' hm' => ?_)
      · show c'.name ∈ r.columns.map Prod.fst
        rw [m1, keys_replaced, hn]
        exact hposs
      · have := hm'.columns
        dsimp only at this
        refine ⟨?_, hm'.indexes.trans m2, hm'.constraints.trans m3⟩
        rw [this, m1, hn]
        exact replaced_back ht.colNodup hi
    | _ => exact hi.elim
  | addIndex i =>
    cases e' with
    | removeIndex n =>
      have hn : n = i.name := hi
      subst hn
      dsimp only at m1 m2 m3
      refine go trivial ?_ (fun t' hm' => ?_)
      · show i.name ∈ r.indexes.map Prod.fst
        rw [m2]; simp
      · have := hm'.indexes
        dsimp only at this
        exact ⟨hm'.columns.trans m1, this.trans (without_placed (p := .last) hposs m2), hm'.constraints.trans m3⟩
    | _ => exact hi.elim
  | removeIndex n => cases e' <;> exact hi.elim
  | changeIndex i =>
    cases e' with
    | changeIndex i' =>
      have hn : i'.name = i.name := ht.idxName _ _ hi
      dsimp only at m1 m2 m3
      refine go (hc _ hi) ?_ (fun t' hm' => ?_)
      · show i'.name ∈ r.indexes.map Prod.fst
        rw [m2, keys_replaced, hn]
        exact hposs
      · have := hm'.indexes
        dsimp only at this
        refine ⟨hm'.columns.trans m1, ?_, hm'.constraints.trans m3⟩
        rw [this, m2, hn]
        exact replaced_back ht.idxNodup hi
    | _ => exact hi.elim
  | addConstraint k =>
    cases e' with
    | removeConstraint n =>
      have hn : n = k.name := hi
      subst hn
      dsimp only at m1 m2 m3
      refine go trivial ?_ (fun t' hm' => ?_)
      · show k.name ∈ r.constraints.map Prod.fst
        rw [m3]; simp
      · have := hm'.constraints
        dsimp only at this
        exact ⟨hm'.columns.trans m1, hm'.indexes.trans m2, this.trans (without_placed (p := .last) hposs m3)⟩
    | _ => exact hi.elim
  | removeConstraint n => cases e' <;> exact hi.elim
  | changeConstraint k =>
    cases e' with
    | changeConstraint k' =>
      have hn : k'.name = k.name := ht.fkName _ _ hi
      dsimp only at m1 m2 m3
      refine go trivial ?_ (fun t' hm' => ?_)
      · show k'.name ∈ r.constraints.map Prod.fst
        rw [m3, keys_replaced, hn]
        exact hposs
      · have := hm'.constraints
        dsimp only at this
        refine ⟨hm'.columns.trans m1, hm'.indexes.trans m2, ?_⟩
        rw [this, m3, hn]
        exact replaced_back ht.fkNodup hi
    | _ => exact hi.elim

/-- **C85.**  `column_before` says where a column is: taken out and put back there, it is where it was. -/
theorem C85_before (t : Table) (ht : t.Keyed) (n : Str) (p : Pos) (h : t.columnBefore n = .ok p) :
    p ≠ .last ∧ ∃ c, (n, c) ∈ t.columns ∧ Placed n c p (without n t.columns) t.columns := by
  unfold columnBefore at h
  split at h
  · rename_i q hq
    cases h
    obtain ⟨c, h1, h2, h3⟩ := before_placed t.columns n none p ht.colNodup (fun e h => by cases h) hq
    exact ⟨h3, c, h1, h2⟩
  · cases h

namespace Examples

theorem posts_onColumns : posts.KeysOnColumns := fun e he => (posts_valid.idxCols e.2 (List.mem_map_of_mem he)).1

end Examples

namespace Examples

/-- a column is put after the first one, a foreign key is changed, the column is taken out -/
def postsHistory : List Edit :=
  [.addColumn (intCol py"score") (.after py"id"), .changeConstraint (fk py"posts_user_fk" py"user_id" py"people" py"id"), .removeColumn py"score"]

end Examples

example : ∃ r, Examples.posts.edits Examples.postsHistory = .ok r ∧ r.Keyed ∧ r.columns = Examples.posts.columns :=
  ⟨_, rfl, C85_history Examples.posts _ Examples.posts_valid.toKeyed Examples.postsHistory rfl, by decide⟩

/-- the column `title` of `posts` is changed, taken out and put back where it was -/
example : Edit.Possible Examples.posts (.removeColumn py"title") ∧ Examples.posts.columnBefore py"title" = .ok (.after py"id") ∧
    Edit.Inverse Examples.posts (.changeColumn (Examples.textCol py"title" py"9")) (.changeColumn (Examples.textCol py"title" py"64")) := by
  refine ⟨by unfold Edit.Possible; decide, by decide, by unfold Edit.Inverse; decide⟩

end Mygrations
