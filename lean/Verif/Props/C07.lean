import Verif.Proofs.Replay
import Verif.Props.C04

/-! # C07: replaying a diff on the in-memory table -/

namespace Mygrations
open Table MySQL

/-- the operations of `source.to(target)`, in order: `for alter in source.to(target): for operation in alter` -/
def Table.operations (as : List Alter) : List AlterOp := as.flatMap Alter.ops

theorem operations_eq [PyNum] {s t : Table} {d : Diff} (h : s.toSplit t = .ok d) :
    ∃ as, s.to t = .ok as ∧ Table.operations as = d.removedFks ++ (d.kitchenSink ++ d.fks) := by
  refine ⟨alterIf s.name d.removedFks ++ alterIf s.name (d.kitchenSink ++ d.fks), by simp only [to, h], ?_⟩
  have gen : ∀ n l, (alterIf n l).flatMap Alter.ops = l := by
    intro n l
    by_cases hl : l = [] <;> simp [alterIf, hl]
  simp only [Table.operations, List.flatMap_append, gen]

/-- everything up to the key operations -/
theorem replay_columns [PyNum] {s t : Table} (hs : s.Keyed) (ht : t.Keyed) {d : Diff} (h : s.toSplit t = .ok d) :
    ∃ colOps cols, d.kitchenSink = colOps ++ keyOps s t ∧ ColsOk s t cols ∧
      s.applyOps (d.removedFks ++ colOps) = .ok { s with columns := cols, constraints := keptFks s t } ∧
      d.fks = (look t.constraints (newFks s t)).map .addConstraint := by
  simp only [toSplit, addedColumnOps_added s t ht] at h
  cases hc : changedColumnOps s t (overlap s.columns t.columns) with
  | error e => simp [hc] at h
  | ok changes =>
    simp only [hc, Except.ok.injEq] at h
    obtain ⟨ch, c1, c2, c3, c4⟩ := changedColumnOps_spec s t ht _ _ (overlap_nodup hs.colNodup) hc
    subst c1
    subst h
    simp only [removedFkOps_eq, addedFkOps_eq]
    have hrm : removedColumnOps s (removed s.columns t.columns) = (look s.columns (removed s.columns t.columns)).map .removeColumn := by
      simp only [removedColumnOps, look, List.map_filterMap]
    rw [hrm]
    -- the foreign keys
    have hfk : s.applyOps ((look s.constraints (goneFks s t)).map .removeConstraint) = .ok { s with constraints := keptFks s t } := by
      rw [applyOps_dropFks _ _ hs.fkNodup]
      · simp only [look_names hs _ goneFks_sub, keptFks]
      · rw [look_names hs _ goneFks_sub]; exact goneFks_nodup hs
      · intro k hk
        obtain ⟨n, hn, hg⟩ := mem_look.mp hk
        rw [hs.fkName _ _ (Dict.mem_of_get? hg)]
        exact Dict.mem_keys_of_get? hg
    -- the new columns
    obtain ⟨cols₁, p1, p2, p3⟩ := placeCols_spec s.columns t.columns [] s.columns ht.colName hs.colNodup ht.colNodup (by simp)
      (by intro k _; exact Dict.has_iff.symm)
    have hadd := applyOps_adds s.columns t.columns [] { s with constraints := keptFks s t } cols₁ p1
    have hmem₁ : ∀ k, k ∈ cols₁.keys ↔ k ∈ s.columns.keys ∨ k ∈ t.columns.keys := by
      intro k
      rw [Dict.mem_keys_iff, p3 k]
      by_cases hk : s.columns.has k = false ∧ k ∈ t.columns.keys
      · rw [if_pos hk, ← Dict.mem_keys_iff]; simp [hk.2]
      · rw [if_neg hk, ← Dict.mem_keys_iff]
        constructor
        · exact .inl
        · rintro (h | h)
          · exact h
          · apply Classical.byContradiction
            intro hns
            exact hk ⟨Dict.has_eq_false.mpr hns, h⟩
    -- the changed columns
    obtain ⟨cols₂, q1, q2, q3⟩ := applyOps_changes ch { s with columns := cols₁, constraints := keptFks s t }
      (fun e he => (c3 e he).2.2.1)
      (fun e he => (hmem₁ _).mpr (.inl (mem_overlap.mp (c3 e he).1).1)) c2
    simp only at q1 q2 q3
    -- the dropped columns
    have hnames : (look s.columns (removed s.columns t.columns)).map Column.name = removed s.columns t.columns := by
      have := look_map s.columns Column.name (removed s.columns t.columns) (fun k hk => (mem_removed.mp hk).1) id
        (fun k v hkv => (hs.colName _ _ (Dict.mem_of_get? hkv)).symm)
      simpa using this
    have hdrop := applyOps_removes (look s.columns (removed s.columns t.columns))
      { s with columns := cols₂, constraints := keptFks s t } (by simp only [q2]; exact p2)
      (by rw [hnames]; exact removed_nodup hs.colNodup)
      (by
        intro c hc
        simp only [q2, hmem₁]
        obtain ⟨k, hk, hg⟩ := mem_look.mp hc
        rw [hs.colName _ _ (Dict.mem_of_get? hg)]
        exact .inl (Dict.mem_keys_of_get? hg))
    simp only [hnames] at hdrop
    let cols : Dict Column := cols₂.filter (fun e => !(removed s.columns t.columns).contains e.1)
    refine ⟨addsFrom s.columns [] t.columns ++ ch.map (fun e => .changeColumn e.2) ++
      (look s.columns (removed s.columns t.columns)).map .removeColumn, cols, rfl, ?_, ?_, trivial⟩
    · have hkeys : cols.keys = cols₁.keys.filter (fun k => !(removed s.columns t.columns).contains k) := by
        simp only [cols]
        rw [Dict.keys_filter_key (fun x => !(removed s.columns t.columns).contains x), q2]
      have hget : ∀ k, k ∈ t.columns.keys → cols.get? k = cols₂.get? k := by
        intro k hk
        simp only [cols]
        rw [Dict.get?_filter_key (fun x => !(removed s.columns t.columns).contains x)]
        have : k ∉ removed s.columns t.columns := fun h => (mem_removed.mp h).2 hk
        simp [this]
      have hmem : ∀ k, k ∈ cols.keys ↔ k ∈ t.columns.keys := by
        intro k
        rw [hkeys, List.mem_filter, hmem₁]
        simp only [List.contains_eq_mem, Bool.not_eq_true', decide_eq_false_iff_not, mem_removed, not_and, Classical.not_not]
        constructor
        · rintro ⟨h | h, h'⟩
          · exact h' h
          · exact h
        · exact fun h => ⟨.inr h, fun _ => h⟩
      have hkept : cols.keys.filter s.columns.has = s.columns.keys.filter t.columns.has := by
        rw [hkeys, List.filter_filter]
        have h1 := placeCols_kept s.columns t.columns [] s.columns cols₁ ht.colName p1
        have h2 : s.columns.keys.filter s.columns.has = s.columns.keys := List.filter_eq_self.mpr (fun k hk => Dict.has_iff.mpr hk)
        rw [h2] at h1
        rw [show s.columns.keys.filter t.columns.has = (cols₁.keys.filter s.columns.has).filter t.columns.has by rw [h1], List.filter_filter]
        apply List.filter_congr
        intro k hk
        by_cases hks : k ∈ s.columns.keys
        · by_cases hkt : k ∈ t.columns.keys
          · simp [Dict.has_iff.mpr hkt, Dict.has_iff.mpr hks, removed]
          · simp [Dict.has_eq_false.mpr hkt, Dict.has_iff.mpr hks, removed, hks]
        · simp [Dict.has_eq_false.mpr hks]
      refine ⟨by rw [hkeys]; exact p2.filter _, hmem, ?_, ?_, ?_, hkept⟩
      · intro k hk
        by_cases hkt : k ∈ t.columns.keys
        · rw [hget k hkt, q3 k, p3 k]
          have hch : Dict.get? ch k = none := by
            apply Dict.get?_eq_none.mpr
            intro hm
            obtain ⟨e, he, rfl⟩ := List.mem_map.mp hm
            exact hk (mem_overlap.mp (c3 e he).1).1
          simp [hch, Dict.has_eq_false.mpr hk, hkt]
        · rw [Dict.get?_eq_none.mpr hkt, Dict.get?_eq_none.mpr (fun h => hkt ((hmem k).mp h))]
      · intro k a b ha hb
        have hkt := Dict.mem_keys_of_get? hb
        have hks : s.columns.has k = true := Dict.has_of_get? ha
        rw [hget k hkt, q3 k, p3 k]
        simp only [hks, Bool.true_eq_false, false_and, if_false, ha]
        by_cases hch : k ∈ ch.map Prod.fst
        · obtain ⟨⟨k0, b0⟩, he, rfl⟩ := List.mem_map.mp hch
          obtain ⟨_, g1, _, a', ha', hne⟩ := c3 _ he
          rw [ha] at ha'
          rw [hb] at g1
          simp only [Option.some.injEq] at ha' g1
          subst ha'; subst g1
          right
          refine ⟨hne, ?_⟩
          have : Dict.get? ch k0 = some b := Dict.get?_of_mem c2 he
          simp [this]
        · left
          obtain ⟨a', b', ha', hb', hor⟩ := c4 k (mem_overlap.mpr ⟨Dict.mem_keys_of_get? ha, hkt⟩)
          rw [ha] at ha'
          rw [hb] at hb'
          simp only [Option.some.injEq] at ha' hb'
          subst ha'; subst hb'
          rcases hor with h | h
          · refine ⟨h, ?_⟩
            have : Dict.get? ch k = none := Dict.get?_eq_none.mpr hch
            simp [this]
          · exact absurd (List.mem_map.mpr ⟨_, h, rfl⟩) hch
      · intro hord
        have h1 : cols₁.keys.filter (fun k => t.columns.has k) = [] ++ t.columns.keys :=
          placeCols_order_filter s.columns (fun k => t.columns.has k) t.columns [] s.columns cols₁ ht.colName hs.colNodup
            (by simp) (fun k hk => Dict.has_iff.mpr hk) (by rw [hord]; rfl) p1
        rw [hkeys]
        rw [List.nil_append] at h1
        rw [← h1]
        apply List.filter_congr
        intro k hk
        by_cases hkt : k ∈ t.columns.keys
        · simp [Dict.has_iff.mpr hkt, removed]
        · have hks : k ∈ s.columns.keys := ((hmem₁ k).mp hk).resolve_right hkt
          simp [Dict.has_eq_false.mpr hkt, removed, hks]
    · rw [applyOps_append, hfk]
      simp only [applyOps_append, hadd, q1, hdrop]
      rfl

/-- What it means for the in-memory table `r` to have got the structure of `t`, starting from `s`: exactly the
columns of `t`, each with the definition of `t` or an old definition which the tool considers the same, in the order
of `t` if the common columns were in that order; and exactly the foreign keys of `t`, each with the text of `t`. -/
structure Reached [PyNum] (s t r : Table) : Prop where
  colNodup : r.columns.keys.Nodup
  colNames : ∀ k, k ∈ r.columns.keys ↔ k ∈ t.columns.keys
  cols : ∀ k b, t.columns.get? k = some b → r.columns.get? k = some b ∨
    ∃ a, s.columns.get? k = some a ∧ r.columns.get? k = some a ∧ (a.render = b.render ∨ a.sameAs b = .ok true)
  order : t.columns.keys.filter (fun k => decide (k ∈ s.columns.keys)) =
    s.columns.keys.filter (fun k => decide (k ∈ t.columns.keys)) → r.columns.keys = t.columns.keys
  fkNames : ∀ k, k ∈ r.constraints.keys ↔ k ∈ t.constraints.keys
  fks : ∀ k a b, r.constraints.get? k = some a → t.constraints.get? k = some b → a.render = b.render

/-- a table with the columns and foreign keys which the operations on these lead to -/
theorem reached_final [PyNum] {s t r : Table} {cols : Dict Column} (ht : t.Keyed) (hok : ColsOk s t cols) (hr : r.columns = cols)
    (hrf : r.constraints = finalFks s t) : Reached s t r := by
  subst hr
  have hget := finalFks_get? (s := s) (t := t) ht
  refine ⟨hok.nodup, hok.names, ?_, ?_, ?_, ?_⟩
  · intro n b hb
    by_cases hn : n ∈ s.columns.keys
    · obtain ⟨a, ha⟩ := Dict.exists_get? hn
      rcases hok.common n a b ha hb with ⟨h1, h2⟩ | ⟨_, h2⟩
      · exact .inr ⟨a, ha, h2, h1⟩
      · exact .inl h2
    · exact .inl ((hok.new n hn).trans hb)
  · intro hord
    apply hok.order
    simp only [Dict.has_eq_decide]
    exact hord
  · intro n
    rw [hrf, Dict.mem_keys_iff, hget n]
    by_cases hn : n ∈ newFks s t
    · rw [if_pos hn, ← Dict.mem_keys_iff]
    · rw [if_neg hn]
      by_cases hnt : n ∈ t.constraints.keys
      · rw [if_pos hnt, ← Dict.mem_keys_iff]
        refine ⟨fun _ => hnt, fun _ => ?_⟩
        apply Classical.byContradiction
        intro hns
        obtain ⟨b, hb⟩ := Dict.exists_get? hnt
        exact hn (newFks_mem.mpr ⟨b, hb, fun a ha => absurd (Dict.mem_keys_of_get? ha) hns⟩)
      · simp [hnt]
  · intro n a b ha hb
    rw [hrf, hget n] at ha
    by_cases hn : n ∈ newFks s t
    · rw [if_pos hn, hb] at ha
      simp only [Option.some.injEq] at ha
      rw [ha]
    · rw [if_neg hn, if_pos (Dict.mem_keys_of_get? hb)] at ha
      apply Classical.byContradiction
      intro hne
      exact hn (newFks_mem.mpr ⟨b, hb, fun a' ha' => by
        rw [ha] at ha'; simp only [Option.some.injEq] at ha'; exact ha' ▸ hne⟩)

/-- **C07** (partial).  Replaying the operations of `source.to(target)` on the source:
if none of them concerns a key, every one succeeds and the table ends up with the target's columns and foreign keys;
if one of them concerns a key, the replay raises `AttributeError`.
Missing: the second case should succeed as well (`C07_counterexample`). -/
theorem C07_partial [PyNum] (s t : Table) (hs : s.Keyed) (ht : t.Keyed) (as : List Alter) (h : s.to t = .ok as) :
    ((∀ op ∈ Table.operations as, op.onKey = false) →
      ∃ r, s.applyOps (Table.operations as) = .ok r ∧ Reached s t r ∧ r.name = s.name ∧ r.indexes = s.indexes) ∧
    ((∃ op ∈ Table.operations as, op.onKey = true) →
      ∃ m, s.applyOps (Table.operations as) = .error (.attributeError m)) := by
  cases hd : s.toSplit t with
  | error e => simp [to, hd] at h
  | ok d =>
    obtain ⟨as', h', hops⟩ := operations_eq hd
    rw [h] at h'
    simp only [Except.ok.injEq] at h'
    subst h'
    obtain ⟨colOps, cols, hk, hok, hrun, hfks⟩ := replay_columns hs ht hd
    have hops' : Table.operations as = (d.removedFks ++ colOps) ++ (keyOps s t ++ d.fks) := by
      rw [hops, hk]; simp
    rw [hops', applyOps_append, hrun]
    simp only
    cases hko : keyOps s t with
    | nil =>
      refine ⟨fun _ => ?_, ?_⟩
      · have hfa := fks_added hs ht
        rw [addedFkOps_eq, (addConstraint_clauses _).2.2] at hfa
        rw [List.nil_append, hfks, applyOps_addFks _ _ (finalFks s t) hfa]
        refine ⟨_, rfl, ?_, rfl, rfl⟩
        exact reached_final ht hok rfl rfl
      · rintro ⟨op, hop, hkey⟩
        exfalso
        rw [List.nil_append, List.append_assoc] at hop
        have hnot : ∀ op ∈ d.removedFks ++ (colOps ++ d.fks), op.onKey = false := by
          simp only [toSplit, addedColumnOps_added s t ht] at hd
          cases hc : changedColumnOps s t (overlap s.columns t.columns) with
          | error e => simp [hc] at hd
          | ok changes =>
            simp only [hc, Except.ok.injEq] at hd
            obtain ⟨ch, c1, -⟩ := changedColumnOps_spec s t ht _ _ (overlap_nodup hs.colNodup) hc
            have hcol : colOps = addsFrom s.columns [] t.columns ++ changes ++ removedColumnOps s (removed s.columns t.columns) := by
              rw [← hd, hko] at hk
              simp at hk
              simp [hk]
            have hadds : ∀ rest pre, ∀ op ∈ addsFrom s.columns pre rest, op.onKey = false := by
              intro rest
              induction rest with
              | nil => intro pre op h; simp [addsFrom] at h
              | cons e rest ih =>
                intro pre op h
                obtain ⟨k, c⟩ := e
                simp only [addsFrom] at h
                split at h
                · exact ih _ op h
                · rcases List.mem_cons.mp h with rfl | h
                  · rfl
                  · exact ih _ op h
            intro op hop
            simp only [List.mem_append] at hop
            rcases hop with hop | hop | hop
            · rw [← hd] at hop
              simp only [removedFkOps_eq, List.mem_map] at hop
              obtain ⟨_, _, rfl⟩ := hop
              rfl
            · rw [hcol] at hop
              simp only [List.mem_append] at hop
              rcases hop with (hop | hop) | hop
              · exact hadds _ _ op hop
              · rw [c1] at hop
                obtain ⟨_, _, rfl⟩ := List.mem_map.mp hop
                rfl
              · simp only [removedColumnOps, List.mem_filterMap] at hop
                obtain ⟨k, _, hk'⟩ := hop
                cases hg : s.columns.get? k with
                | none => simp [hg] at hk'
                | some c => simp [hg] at hk'; subst hk'; rfl
            · rw [hfks] at hop
              obtain ⟨_, _, rfl⟩ := List.mem_map.mp hop
              rfl
        rw [hnot op hop] at hkey
        simp at hkey
    | cons op ops =>
      have honk : op.onKey = true := keyOps_onKey s t op (by rw [hko]; simp)
      refine ⟨fun hall => ?_, fun _ => ?_⟩
      · have := hall op (by simp)
        rw [honk] at this
        simp at this
      · exact applyOps_key honk _ _

/-- the key operations are among the operations -/
theorem keyOps_operations [PyNum] {s t : Table} (hs : s.Keyed) (ht : t.Keyed) {as : List Alter} (h : s.to t = .ok as) :
    ∀ op ∈ keyOps s t, op ∈ Table.operations as := by
  cases hd : s.toSplit t with
  | error e => simp [to, hd] at h
  | ok d =>
    obtain ⟨as', h', hops⟩ := operations_eq hd
    rw [h] at h'
    simp only [Except.ok.injEq] at h'
    subst h'
    obtain ⟨colOps, cols, hk, -⟩ := replay_columns hs ht hd
    intro op hop
    rw [hops, hk]
    simp [hop]

/-- Some key of `b` is like no key of `a`: it is on other columns or of another type. -/
def KeyUnlike (a b : Table) : Prop :=
  ∃ i ∈ b.indexes.values, ∀ j ∈ a.indexes.values, j.render ≠ i.render ∧ ¬ (j.columns = i.columns ∧ j.indexType = i.indexType)

/-- **C07 is false whenever a key comes or goes**: if the source or the target has a key which is like none of the other's, the replay
raises `AttributeError`. -/
theorem C07_refuted [PyNum] (s t : Table) (hs : s.Keyed) (ht : t.Keyed) (as : List Alter) (h : s.to t = .ok as)
    (hk : KeyUnlike s t ∨ KeyUnlike t s) : ∃ m, s.applyOps (Table.operations as) = .error (.attributeError m) := by
  apply (C07_partial s t hs ht as h).2
  suffices hne : ∃ op, op ∈ keyOps s t by
    obtain ⟨op, hop⟩ := hne
    exact ⟨op, keyOps_operations hs ht h op hop, keyOps_onKey s t op hop⟩
  have hm := (matchedKeys_spec s t hs).2.2
  rw [keyOps_eq]
  rcases hk with ⟨i, hi, hu⟩ | ⟨i, hi, hu⟩
  · obtain ⟨k, hk⟩ := Dict.mem_values.mp hi
    have hg := Dict.get?_of_mem ht.idxNodup hk
    by_cases hs' : k ∈ s.indexes.keys
    · obtain ⟨a, ha⟩ := Dict.exists_get? hs'
      have hua := hu a (Dict.mem_values.mpr ⟨k, Dict.mem_of_get? ha⟩)
      refine ⟨.changeKey i, ?_⟩
      simp only [List.mem_append, List.mem_map, look, List.mem_filterMap]
      exact .inr ⟨i, ⟨k, changedKeys_mem.mpr ⟨a, i, ha, hg, hua.1, hua.2⟩, hg⟩, rfl⟩
    · refine ⟨.addKey i, ?_⟩
      simp only [List.mem_append, List.mem_map, look, List.mem_filterMap]
      refine .inl (.inl ⟨i, ⟨k, newKeys_mem.mpr ⟨Dict.mem_keys_of_get? hg, hs', ?_⟩, hg⟩, rfl⟩)
      intro hin
      obtain ⟨p, hp, rfl⟩ := List.mem_map.mp hin
      obtain ⟨_, _, ri, ai, h1, h2, h3, h4, _⟩ := hm p hp
      rw [hg] at h2
      cases h2
      exact (hu ri (Dict.mem_values.mpr ⟨_, Dict.mem_of_get? h1⟩)).2 ⟨h3, h4⟩
  · obtain ⟨k, hk⟩ := Dict.mem_values.mp hi
    have hg := Dict.get?_of_mem hs.idxNodup hk
    by_cases ht' : k ∈ t.indexes.keys
    · obtain ⟨b, hb⟩ := Dict.exists_get? ht'
      have hub := hu b (Dict.mem_values.mpr ⟨k, Dict.mem_of_get? hb⟩)
      refine ⟨.changeKey b, ?_⟩
      simp only [List.mem_append, List.mem_map, look, List.mem_filterMap]
      exact .inr ⟨b, ⟨k, changedKeys_mem.mpr ⟨i, b, hg, hb, fun e => hub.1 e.symm, fun e => hub.2 ⟨e.1.symm, e.2.symm⟩⟩, hb⟩, rfl⟩
    · refine ⟨.removeKey i, ?_⟩
      simp only [List.mem_append, List.mem_map, look, List.mem_filterMap]
      refine .inl (.inr ⟨i, ⟨k, goneKeys_mem.mpr ⟨Dict.mem_keys_of_get? hg, ht', ?_⟩, hg⟩, rfl⟩)
      intro hin
      obtain ⟨p, hp, rfl⟩ := List.mem_map.mp hin
      obtain ⟨_, _, ri, ai, h1, h2, h3, h4, _⟩ := hm p hp
      rw [hg] at h1
      cases h1
      exact (hu ai (Dict.mem_values.mpr ⟨_, Dict.mem_of_get? h2⟩)).2 ⟨h3.symm, h4.symm⟩

section
open Examples
attribute [local instance] exactNum

/-- the live and the declared `posts`, with the same keys -/
def Examples.postsK : Table := { posts with indexes := posts'.indexes }

/-- both cases of C07 occur: without key changes the replay works and gives the target's columns in order, with
key changes it raises -/
example : postsK.Keyed ∧ posts'.Keyed ∧ (∃ as r, postsK.to posts' = .ok as ∧ (∀ op ∈ Table.operations as, op.onKey = false) ∧
    Table.operations as ≠ [] ∧ postsK.applyOps (Table.operations as) = .ok r ∧ r.columns.keys = posts'.columns.keys ∧
    r.constraints.keys = [py"posts_user_fk", py"posts_slug_fk", py"posts_editor_fk"]) :=
  ⟨⟨posts_valid.colNodup, posts_valid.colName, posts'_valid.idxNodup, posts'_valid.idxName, posts_valid.fkNodup, posts_valid.fkName⟩,
    posts'_valid.toKeyed,
    _, _, rfl, by decide, by decide, rfl, by decide, by decide⟩

/-- **C07** fails for a table which merely gets a new key: the replay raises `AttributeError`. -/
theorem C07_counterexample : ∃ s t : Table, s.Valid ∧ t.Valid ∧ ∃ as, s.to t = .ok as ∧
    s.applyOps (Table.operations as) = .error (.attributeError py"add_key") :=
  ⟨mk py"t" [idCol, textCol py"title" py"64"] [pk] [], mk py"t" [idCol, textCol py"title" py"64"] [pk, key py"by_title" [py"title"]] [],
    Table.valid_of_check (by decide), Table.valid_of_check (by decide), _, rfl, rfl⟩

/-- the live `posts` has keys which the declared one does not have, and the other way round -/
example : KeyUnlike posts posts' ∧ KeyUnlike posts' posts := by
  constructor <;> unfold KeyUnlike <;> decide +kernel
end

end Mygrations
