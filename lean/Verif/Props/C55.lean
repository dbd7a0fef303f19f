import Verif.Props.C39

/-!
# C55: foreign keys without a name

`TableDecl` (in `Spec/Declare.lean`) is a `CREATE TABLE` with definitions in any order; `Src.bare k` is the definition
``FOREIGN KEY (`column`) REFERENCES `table` (`column`) ON DELETE … ON UPDATE …``.
-/

namespace Mygrations

theorem lastNamed_of_split {pre post : List Statement} {s : Statement} {t : Table} (hs : tablesOf [s] = [t]) (hp : ∀ u ∈ tablesOf post, u.name ≠ t.name) :
    lastNamed t.name (tablesOf (pre ++ s :: post)) = some t := by
  have h1 : tablesOf (pre ++ s :: post) = tablesOf pre ++ ([t] ++ tablesOf post) := by
    rw [tablesOf_append, show s :: post = [s] ++ post from rfl, tablesOf_append, hs]
  have h2 : (tablesOf post).filter (fun u => u.name = t.name) = [] := by
    rw [List.filter_eq_nil_iff]; intro u hu; simpa using hp u hu
  simp [lastNamed, h1, h2]

theorem Paired.mem_left {A B : Type} {R : A → B → Prop} {as : List A} {bs : List B} (h : Paired R as bs) {a : A} (ha : a ∈ as) : ∃ b ∈ bs, R a b := by
  induction h with
  | nil => cases ha
  | cons hx _ ih =>
    rcases List.mem_cons.mp ha with rfl | ha
    · exact ⟨_, List.mem_cons_self, hx⟩
    · obtain ⟨b, hb, hr⟩ := ih ha
      exact ⟨b, List.mem_cons_of_mem _ hb, hr⟩

theorem Paired.mem_right {A B : Type} {R : A → B → Prop} {as : List A} {bs : List B} (h : Paired R as bs) {b : B} (hb : b ∈ bs) : ∃ a ∈ as, R a b := by
  induction h with
  | nil => cases hb
  | cons hx _ ih =>
    rcases List.mem_cons.mp hb with rfl | hb
    · exact ⟨_, List.mem_cons_self, hx⟩
    · obtain ⟨a, ha, hr⟩ := ih hb
      exact ⟨a, List.mem_cons_of_mem _ ha, hr⟩

/-- **C55** (partial).  A file declares a table, and no table of the same name after it.  Then every foreign key of the table which
comes without a name is read as a foreign key of that column to that column with the same actions, called
`<table>_<column>_<reftable>_fk` cut to 64 characters.  Its column is in some key of the table, and it is the first column of some
key, if it is the first column in the keys which the declaration has for it.

What is missing: declarations for which `TableDecl.Ok` does not hold, in particular those with an unrelated key which is called like the
column, and with keys where the column is not the first; see the refutations. -/
theorem C55_bare_partial {file : Str} {pre post : List Statement} {d : TableDecl} {l : Layout} (hf : SourceFile file (pre ++ .declare d l :: post))
    (hr : Readable (pre ++ .declare d l :: post)) (hlast : ∀ u ∈ tablesOf post, u.name ≠ d.name) {k : Constraint} {w : Actions} (hk : Src.bare k w ∈ d.defs) :
    ∃ st table fk, readSource file = (st, none) ∧ st.globalErrors = [] ∧ st.tables.get? d.name = some table ∧ table.globalErrors = [] ∧
      table.constraints.get? ((d.name ++ py"_" ++ k.column ++ py"_" ++ k.ftable ++ py"_fk").take 64) = some fk ∧
      fk.name = (d.name ++ py"_" ++ k.column ++ py"_" ++ k.ftable ++ py"_fk").take 64 ∧
      fk.column = k.column ∧ fk.ftable = k.ftable ∧ fk.fcolumn = k.fcolumn ∧ fk.onDelete = k.onDelete ∧ fk.onUpdate = k.onUpdate ∧
      (∃ name index, table.indexes.get? name = some index ∧ k.column ∈ index.columns) ∧
      ((∀ i v, Src.index i v ∈ d.defs → k.column ∈ i.columns → i.columns.head? = some k.column) →
        ∃ name index, table.indexes.get? name = some index ∧ index.columns.head? = some k.column) := by
  obtain ⟨st, h1, h2⟩ := file_read hf hr
  have hd : d.Ok := (hr.ok _ (by simp) : Statement.Ok (.declare d l)).1
  have hlast' := lastNamed_of_split (pre := pre) (s := .declare d l) (t := d.table) rfl hlast
  rcases h2.tables d.name with ⟨h3, _⟩ | ⟨t, t', h3, h4, h5, h6⟩
  · rw [show d.name = d.table.name from rfl, hlast'] at h3; cases h3
  rw [show d.name = d.table.name from rfl, hlast'] at h3
  cases h3
  let n := (d.name ++ py"_" ++ k.column ++ py"_" ++ k.ftable ++ py"_fk").take 64
  have hmem : (n, { k with name := n }) ∈ d.table.constraints := List.mem_filterMap.mpr ⟨_, hk, rfl⟩
  obtain ⟨⟨n', fk⟩, hb, hb1, hb2⟩ := h5.constraints.mem_left hmem
  have hck : Dict.keys t'.constraints = Dict.keys d.table.constraints :=
    Paired.keysEq (R := fun (a b : Constraint) => b = { a with parsingErrors := [] }) h5.constraints
  have hik : Dict.keys t'.indexes = Dict.keys d.table.indexes := h5.indexes.keysEq
  have hget : t'.constraints.get? n = some fk := by
    have : n' = n := hb1
    subst this
    exact Dict.get?_of_mem (by rw [hck]; exact hd.constraintNames) hb
  have hb2' : fk = { k with name := n, parsingErrors := [] } := hb2
  have hindex : ∀ e ∈ d.table.indexes, ∃ index, t'.indexes.get? e.1 = some index ∧ index.columns = e.2.columns := by
    intro e he
    obtain ⟨⟨m, i⟩, hi, hi1, hi2⟩ := h5.indexes.mem_left he
    have : m = e.1 := hi1
    subst this
    exact ⟨i, Dict.get?_of_mem (by rw [hik]; exact hd.indexNames) hi, hi2.columns⟩
  have hcover : (∃ i v, Src.index i v ∈ d.defs ∧ k.column ∈ i.columns ∧ (i.name, i) ∈ d.table.indexes) ∨ ∃ e ∈ d.table.indexes, e.2.columns = [k.column] := by
    by_cases hc : d.defs.any (Src.covers k.column) = true
    · left
      obtain ⟨x, hx, hxc⟩ := List.any_eq_true.mp hc
      cases x with
      | column _ _ => cases hxc
      | constraint _ _ => cases hxc
      | bare _ _ => cases hxc
      | index i v =>
        refine ⟨i, v, hx, by simpa [Src.covers] using hxc, ?_⟩
        obtain ⟨a, b, hab⟩ := List.append_of_mem hx
        show (i.name, i) ∈ indexesOf d.defs [] d.defs
        have : indexesOf d.defs [] d.defs = indexesOf d.defs [] (a ++ Src.index i v :: b) := by rw [← hab]
        rw [this, indexesOf_append]
        exact List.mem_append_right _ (by simp [indexesOf, Src.keys])
    · right
      obtain ⟨e, he, _, h7⟩ := indexesOf_bare d.defs [] k.column (by simpa using hc) rfl (List.any_eq_true.mpr ⟨_, hk, by simp [Src.bareOn]⟩)
      exact ⟨e, he, h7⟩
  refine ⟨st, t', fk, h1, h2.errors, h4, h6.noErrors, hget, by rw [hb2'], by rw [hb2'], by rw [hb2'], by rw [hb2'], by rw [hb2'], by rw [hb2'], ?_, ?_⟩
  · rcases hcover with ⟨i, _, _, hi2, hi3⟩ | ⟨e, he, h7⟩
    · obtain ⟨index, h8, h9⟩ := hindex _ hi3
      exact ⟨_, index, h8, by rw [h9]; exact hi2⟩
    · obtain ⟨index, h8, h9⟩ := hindex e he
      exact ⟨_, index, h8, by rw [h9, h7]; simp⟩
  · intro hfirst
    rcases hcover with ⟨i, v, hi1, hi2, hi3⟩ | ⟨e, he, h7⟩
    · obtain ⟨index, h8, h9⟩ := hindex _ hi3
      exact ⟨_, index, h8, by rw [h9]; exact hfirst i v hi1 hi2⟩
    · obtain ⟨index, h8, h9⟩ := hindex e he
      exact ⟨_, index, h8, by rw [h9, h7]; rfl⟩

/-! ## An example -/

namespace Examples

/-- `user_id INT(10) UNSIGNED` -/
def likeUser : Column := { cls := .numeric, name := py"user_id", ctype := py"INT", len := .str py"10", unsigned := some true }

/-- `post_id INT(10) UNSIGNED` -/
def likePost : Column := { cls := .numeric, name := py"post_id", ctype := py"INT", len := .str py"10", unsigned := some true }

/-- a foreign key without a name between two columns -/
def likeUserFk : Constraint := ⟨[], py"user_id", py"users", py"id", py"CASCADE", py"NO ACTION", []⟩

/-- a foreign key without a name before the column it is for, which has a key -/
def likePostFk : Constraint := ⟨[], py"post_id", py"posts", py"id", py"CASCADE", py"RESTRICT", []⟩

/-- a table with definitions in any order -/
def likes : TableDecl :=
  { name := py"likes", first := .column likeUser .usual,
    others := [.bare likeUserFk .both, .bare likePostFk ⟨true, false⟩, .column likePost (.server true), .index { rawName := py"by_post", columns := [py"post_id"], itype := py"unique" } []],
    options := [⟨py"ENGINE", py"InnoDB"⟩] }

theorem likes_ok : likes.Ok := by
  refine ⟨by decide, ?_, ?_, ⟨_, _, rfl⟩, ?_, by decide, by decide, by decide, by decide, by decide⟩
  · intro x hx
    simp only [likes, TableDecl.defs, List.mem_cons, List.not_mem_nil, or_false] at hx
    rcases hx with rfl | rfl | rfl | rfl | rfl
    · refine ⟨⟨by decide, by decide, rfl, ⟨_, .one (by decide), by decide, ?_⟩, by decide, ?_, ?_⟩, usual_fits⟩ <;> intro v hv <;> cases hv
    · exact ⟨⟨by decide, by decide, by decide, by decide, by decide, by decide⟩, ⟨by decide, by decide⟩⟩
    · exact ⟨⟨by decide, by decide, by decide, by decide, by decide, by decide⟩, ⟨by decide, by decide⟩⟩
    · refine ⟨⟨by decide, by decide, rfl, ⟨_, .one (by decide), by decide, ?_⟩, by decide, ?_, ?_⟩, server_fits _ _⟩ <;> intro v hv <;> cases hv
    · exact ⟨⟨by decide, by decide⟩, .inr ⟨rfl, by decide⟩⟩
  · intro x hx
    simp only [likes, TableDecl.defs, List.mem_cons, List.not_mem_nil, or_false] at hx
    rcases hx with rfl | rfl | rfl | rfl | rfl
    · rintro v (h | h | h) <;> cases h
    · trivial
    · trivial
    · rintro v (h | h | h) <;> cases h
    · trivial
  · intro o ho
    simp only [likes, List.mem_cons, List.not_mem_nil, or_false] at ho
    subst ho
    exact ⟨by decide, by decide, by decide, by decide, by unfold NoComment; decide⟩

end Examples

open Examples in
example : SourceFile (likes.sql ⟨py"\n", py" ", []⟩) [.declare likes ⟨py"\n", py" ", []⟩] ∧ Readable [.declare likes ⟨py"\n", py" ", []⟩] ∧
    Src.bare likeUserFk .both ∈ likes.defs ∧ Src.bare likePostFk ⟨true, false⟩ ∈ likes.defs ∧
    likes.table.indexes.map (·.1) = [py"user_id", py"by_post"] ∧ likes.table.constraints.map (·.1) = [py"likes_user_id_users_fk", py"likes_post_id_posts_fk"] := by
  refine ⟨⟨0, [], _, rfl, .nil, ?_, by decide, by intro h; cases h⟩, ⟨?_, by simp⟩, by simp [likes, TableDecl.defs], by simp [likes, TableDecl.defs], by decide, by decide⟩
  · have := Script.cons (blanks := []) (s := .declare likes ⟨py"\n", py" ", []⟩) (by decide) (.nil (blanks := []) (by decide))
    rwa [List.nil_append, List.append_nil] at this
  · intro s hs
    rw [List.mem_singleton] at hs
    subst hs
    exact ⟨likes_ok, by decide, by decide, by decide⟩

/-- A statement which can be written down and declares nothing twice, but its last definition is a foreign key without a name, whose column is in no key, and some key is
called like this column. -/
structure TableDecl.Shadowed (d : TableDecl) (k : Constraint) : Prop where
  name : Ident d.name
  plain : ∀ x ∈ d.defs, x.Plain
  quiet : ∀ x ∈ d.defs, x.Quiet
  column : ∃ c s, d.first = .column c s
  options : ∀ o ∈ d.options, o.Plain
  few : d.defs.length < 1000
  fewOptions : d.options.length < 1000
  constraints : (Dict.keys (d.defs.filterMap (Src.constraint? d.name))).Nodup
  last : ∃ before w i v, d.defs = before ++ [Src.bare k w] ∧ Src.index i v ∈ before ∧ i.name = k.column ∧
    (∀ x ∈ before, x.covers k.column = false ∧ x.bareOn k.column = false) ∧
    (Dict.keys (before.filterMap Src.column?)).Nodup ∧ (Dict.keys (indexesOf d.defs [] before)).Nodup

theorem shadowed_process {d : TableDecl} {k : Constraint} (hd : d.Shadowed k) {xs : List Definition} (hxs : AllRead d.defs xs) :
    ∃ t, createProcess (createVals d.name xs d.options) = .ok t ∧ t.name = d.name ∧ (∃ c ∈ t.constraints.values, c.column = k.column ∧ c.ftable = k.ftable) ∧
      ∀ i ∈ t.indexes.values, k.column ∉ i.columns := by
  have hdefs : (topNodes (createVals d.name xs d.options) py"definitions").filterMap CreateNode.toDefinition = xs := by
    have : topNodes (createVals d.name xs d.options) py"definitions" = xs.map .definition := rfl
    rw [this, filterMap_definitions]
  have hname : stripTicks (topText (createVals d.name xs d.options) py"name") = d.name := quoted_strip hd.name
  have hsemi : Dict.has (createVals d.name xs d.options) py"closing_semicolon" = true := by
    unfold createVals
    split <;> rfl
  obtain ⟨before, w, i, v, he, hi, hik, hno, h1, h2⟩ := hd.last
  have hk := hd.constraints
  have hxs' := hxs
  rw [he] at hxs'
  obtain ⟨ys, zs, rfl, hy, hz⟩ := allRead_split hxs'
  cases hz with
  | @cons _ x _ zs hx hr =>
    cases hr
    have hsub : ∀ y ∈ before, y ∈ d.defs := fun y hy => by rw [he]; exact List.mem_append_left _ hy
    rw [he, List.filterMap_append, Dict.keys_append] at hk
    have main : ∀ t0 : Table, Partly d.name d.defs [] t0 → ∃ t, addDefinitions (ys ++ [x]) t0 (ys ++ [x]) = .ok t ∧ t.name = d.name ∧
        (∃ c ∈ t.constraints.values, c.column = k.column ∧ c.ftable = k.ftable) ∧ ∀ i ∈ t.indexes.values, k.column ∉ i.columns := by
      intro t0 ht0
      obtain ⟨t', ha, hp⟩ := add_upto hxs hd.plain hsub h1 h2 (List.nodup_append.mp hk).1 before ys [] t0 hy rfl ht0
      rw [addDefinitions_append _ ha]
      obtain ⟨n, rfl⟩ := hx
      have hkeys : Dict.keys t'.indexes = Dict.keys (indexesOf d.defs [] before) := hp.indexes.keysEq
      have hin : k.column ∈ Dict.keys t'.indexes := by
        rw [hkeys, ← hik]
        obtain ⟨b1, b2, rfl⟩ := List.append_of_mem hi
        rw [indexesOf_append, Dict.keys_append]
        refine List.mem_append_right _ ?_
        simp [indexesOf, Src.keys, Dict.keys]
      have hhas : Dict.has t'.indexes k.column = true := (Dict.has_iff ..).mpr hin
      have hkk := Paired.keysEq (R := fun (a b : Constraint) => b = { a with parsingErrors := [] }) hp.constraints
      have hbn : bareName t'.name k.column k.ftable = (d.name ++ py"_" ++ k.column ++ py"_" ++ k.ftable ++ py"_fk").take 64 := by rw [bareName_eq, hp.named]
      have hnot : bareName t'.name k.column k.ftable ∉ Dict.keys t'.constraints := by
        rw [hkk, hbn]
        intro hm
        exact (List.nodup_append.mp hk).2.2 _ hm _ (by simp [Src.constraint?, Dict.keys]) rfl
      have h0 : Dict.has t'.constraints (bareName t'.name k.column k.ftable) = false := Dict.has_eq_false.mpr hnot
      refine ⟨{ t' with constraints := t'.constraints ++ [(bareName t'.name k.column k.ftable, { k with name := bareName t'.name k.column k.ftable, parsingErrors := [] })] },
        ?_, hp.named, ⟨{ k with name := bareName t'.name k.column k.ftable, parsingErrors := [] }, by simp [Dict.values], rfl, rfl⟩, ?_⟩
      · simp only [addDefinitions, addDefinition, if_true, h0, Bool.false_eq_true, if_false, Table.addConstraint, Bool.true_and, hhas, Bool.true_or, Bool.not_true,
          Bool.false_and]
        rw [Dict.set_of_not_mem _ hnot]
      · intro j hj hjc
        have hcols := hp.indexes.indexColumns
        have hmem : j.columns ∈ t'.indexes.map (fun e => e.2.columns) := by
          obtain ⟨e, he', rfl⟩ := List.mem_map.mp hj
          exact List.mem_map.mpr ⟨e, he', rfl⟩
        rw [hcols] at hmem
        obtain ⟨e, he', hej⟩ := List.mem_map.mp hmem
        rcases indexesOf_mem d.defs _ _ e he' with ⟨⟨u, g1⟩, _⟩ | ⟨k2, w2, g1, g2, _⟩
        · have := (hno _ g1).1
          rw [← show e.2.columns = j.columns from hej] at hjc
          simp [Src.covers, hjc] at this
        · have := (hno _ g1).2
          rw [← show e.2.columns = j.columns from hej, g2] at hjc
          simp at hjc
          simp [Src.bareOn, hjc] at this
    obtain ⟨t, ht, h3, h4, h5⟩ := main { name := d.name, options :=
      (((topNodes (createVals d.name (ys ++ [x]) d.options) py"table_options").filterMap CreateNode.toOption).filter (fun o => o.name ≠ py"AUTO_INCREMENT")) }
      ⟨rfl, .nil, (fun e he => by cases he), rfl, .nil, .nil, rfl, rfl, rfl, rfl⟩
    refine ⟨t, ?_, h3, h4, h5⟩
    unfold createProcess
    simp only [hdefs, hname, hsemi, if_true]
    rw [ht]

/-- **C55 fails for all these tables**: the table is read with its foreign key, and nothing is noted, but no key of the table has the column, because a key for something else
is called like the column.  (MySQL would find another name for the key.) -/
theorem C55_shadow_refuted (d : TableDecl) (k : Constraint) (hd : d.Shadowed k) (l : Layout) (hl : l.Ok) :
    ∃ t, readSource (d.sql l) = ({ tables := [(d.name, t)] }, none) ∧ t.name = d.name ∧ (∃ c ∈ t.constraints.values, c.column = k.column ∧ c.ftable = k.ftable) ∧
      ∀ i ∈ t.indexes.values, k.column ∉ i.columns := by
  have hx : d.stmt.Ok := ⟨hd.name, hd.plain, hd.quiet, hd.column, hd.options, hd.few, hd.fewOptions⟩
  have ht : Text [] [] := .nil blanks_nil
  obtain ⟨xs, hxs, hparse⟩ := Stmt.read hx hl (ht.tame nofun) (ht.trimmed.far nofun)
  obtain ⟨t, hm, h1, h2, h3⟩ := shadowed_process hd hxs
  have hpc : parseCreate (d.stmt.text l []) = .ok (t, []) := by
    unfold parseCreate
    rw [hparse]
    simp only [if_true]
    have : createProcess (createVals d.stmt.name xs d.stmt.os) = .ok t := hm
    rw [this]
    rfl
  refine ⟨t, ?_, h1, h2, h3⟩
  have hstrip : strip (d.stmt.text l []) = d.stmt.text l [] := by
    obtain ⟨cs, hcs⟩ := d.stmt.text_head l []
    have := Stmt.rstrip_text d.stmt l []
    rw [hcs] at this ⊢
    rw [strip_cons_char (by decide), this, show rstrip [] = [] from rfl]
    exact hcs
  unfold readSource
  rw [d.sql_text, show (10000 : Nat) = 9999 + 1 from rfl, readLoop_create 9999 {} hstrip start_ne (d.stmt.comment l _) (d.stmt.create l _) hpc, readLoop_nil, h1]
  rfl

namespace Examples

/-- likes, with a key for something else which is called like the column of the foreign key -/
def shadowed : TableDecl :=
  { name := py"likes"
    first := .column likeUser .usual
    others := [.column likePost (.server true), .index { rawName := py"user_id", columns := [py"post_id"], itype := py"unique" } [], .bare likeUserFk .both]
    options := [] }

theorem shadowed_shadowed : shadowed.Shadowed likeUserFk := by
  refine ⟨by decide, ?_, ?_, ⟨_, _, rfl⟩, nofun, by decide, by decide, by decide,
    [.column likeUser .usual, .column likePost (.server true), .index { rawName := py"user_id", columns := [py"post_id"], itype := py"unique" } []], .both, _, _, rfl,
    List.mem_cons_of_mem _ (List.mem_cons_of_mem _ List.mem_cons_self), by decide, by decide, by decide, by decide⟩
  · intro x hx
    simp only [shadowed, TableDecl.defs, List.mem_cons, List.not_mem_nil, or_false] at hx
    rcases hx with rfl | rfl | rfl | rfl
    · refine ⟨⟨by decide, by decide, rfl, ⟨_, .one (by decide), by decide, ?_⟩, by decide, ?_, ?_⟩, usual_fits⟩ <;> intro v hv <;> cases hv
    · refine ⟨⟨by decide, by decide, rfl, ⟨_, .one (by decide), by decide, ?_⟩, by decide, ?_, ?_⟩, server_fits _ _⟩ <;> intro v hv <;> cases hv
    · exact ⟨⟨by decide, by decide⟩, .inr ⟨rfl, by decide⟩⟩
    · exact ⟨⟨by decide, by decide, by decide, by decide, by decide, by decide⟩, ⟨by decide, by decide⟩⟩
  · intro x hx
    simp only [shadowed, TableDecl.defs, List.mem_cons, List.not_mem_nil, or_false] at hx
    rcases hx with rfl | rfl | rfl | rfl
    · rintro v (h | h | h) <;> cases h
    · rintro v (h | h | h) <;> cases h
    · trivial
    · trivial

end Examples

/-- the hypotheses of `C55_shadow_refuted` hold for it -/
example : ∃ t, readSource (Examples.shadowed.sql ⟨[], py" ", []⟩) = ({ tables := [(py"likes", t)] }, none) ∧ t.name = py"likes" ∧
    (∃ c ∈ t.constraints.values, c.column = py"user_id" ∧ c.ftable = py"users") ∧ ∀ i ∈ t.indexes.values, py"user_id" ∉ i.columns :=
  C55_shadow_refuted Examples.shadowed _ Examples.shadowed_shadowed ⟨[], py" ", []⟩ ⟨by decide, by decide, by decide⟩

/-- the literal text of such a table -/
example :
    let read := readSource py"CREATE TABLE t (id INT, a INT, b INT, KEY a (b), FOREIGN KEY (a) REFERENCES u (id) ON DELETE CASCADE ON UPDATE CASCADE);"
    read.2 = none ∧ read.1.globalErrors = [] ∧ read.1.tables.map (fun e => (e.1, e.2.globalErrors)) = [(py"t", [])] ∧
    read.1.tables.map (fun e => e.2.constraints.map (fun k => (k.1, k.2.column))) = [[(py"t_a_u_fk", py"a")]] ∧
    read.1.tables.map (fun e => e.2.indexes.map (fun i => (i.1, i.2.columns))) = [[(py"a", [py"b"])]] := by
  decide +kernel

/-- **C55 fails**: if the declaration has keys with the column, but none in which it comes first, the table gets no key in which
it comes first, though MySQL needs one. -/
theorem C55_first_refuted {file : Str} {pre post : List Statement} {d : TableDecl} {l : Layout} (hf : SourceFile file (pre ++ .declare d l :: post))
    (hr : Readable (pre ++ .declare d l :: post)) (hlast : ∀ u ∈ tablesOf post, u.name ≠ d.name) {k : Constraint} {w : Actions} (hk : Src.bare k w ∈ d.defs)
    (hin : ∃ i v, Src.index i v ∈ d.defs ∧ k.column ∈ i.columns) (hfirst : ∀ i v, Src.index i v ∈ d.defs → i.columns.head? ≠ some k.column) :
    ∃ st table, readSource file = (st, none) ∧ st.globalErrors = [] ∧ st.tables.get? d.name = some table ∧ table.globalErrors = [] ∧
      ((d.name ++ py"_" ++ k.column ++ py"_" ++ k.ftable ++ py"_fk").take 64) ∈ table.constraints.keys ∧
      ∀ index ∈ table.indexes.values, index.columns.head? ≠ some k.column := by
  obtain ⟨st, table, fk, h1, h2, h3, h4, h5, _⟩ := C55_bare_partial hf hr hlast hk
  refine ⟨st, table, h1, h2, h3, h4, Dict.mem_keys_of_get? h5, ?_⟩
  obtain ⟨st', h1', h2'⟩ := file_read hf hr
  cases h1.symm.trans h1'
  have hlast' := lastNamed_of_split (pre := pre) (s := .declare d l) (t := d.table) rfl hlast
  rcases h2'.tables d.name with ⟨h6, _⟩ | ⟨t, t', h6, h7, h8, _⟩
  · rw [show d.name = d.table.name from rfl, hlast'] at h6; cases h6
  rw [show d.name = d.table.name from rfl, hlast'] at h6
  cases h6
  rw [h3] at h7
  cases h7
  intro index hi
  obtain ⟨e, he, rfl⟩ := List.mem_map.mp hi
  obtain ⟨e', he', _, hr'⟩ := h8.indexes.mem_right he
  rw [hr'.columns]
  rcases indexesOf_mem d.defs d.defs [] e' he' with h | h
  · obtain ⟨⟨v, hv⟩, _⟩ := h
    exact hfirst _ v hv
  · obtain ⟨k', _, _, rfl, hno⟩ := h
    intro e
    obtain ⟨i, v, hi1, hi2⟩ := hin
    have : k'.column = k.column := Option.some.inj e
    rw [this, List.any_eq_false] at hno
    exact hno _ hi1 (by simpa [Src.covers] using hi2)

namespace Examples

/-- a key of two columns, of which the second one is in a foreign key -/
def secondLikes : TableDecl :=
  { name := py"likes", first := .column likeUser .usual,
    others := [.column likePost (.server true), .bare likePostFk ⟨true, false⟩,
      .index { rawName := py"by_both", columns := [py"user_id", py"post_id"], itype := py"unique" } []],
    options := [] }

theorem secondLikes_ok : secondLikes.Ok := by
  refine ⟨by decide, ?_, ?_, ⟨_, _, rfl⟩, by simp [secondLikes], by decide, by decide, by decide, by decide, by decide⟩
  · intro x hx
    simp only [secondLikes, TableDecl.defs, List.mem_cons, List.not_mem_nil, or_false] at hx
    rcases hx with rfl | rfl | rfl | rfl
    · refine ⟨⟨by decide, by decide, rfl, ⟨_, .one (by decide), by decide, ?_⟩, by decide, ?_, ?_⟩, usual_fits⟩ <;> intro v hv <;> cases hv
    · refine ⟨⟨by decide, by decide, rfl, ⟨_, .one (by decide), by decide, ?_⟩, by decide, ?_, ?_⟩, server_fits _ _⟩ <;> intro v hv <;> cases hv
    · exact ⟨⟨by decide, by decide, by decide, by decide, by decide, by decide⟩, ⟨by decide, by decide⟩⟩
    · exact ⟨⟨by decide, by decide⟩, .inr ⟨rfl, by decide⟩⟩
  · intro x hx
    simp only [secondLikes, TableDecl.defs, List.mem_cons, List.not_mem_nil, or_false] at hx
    rcases hx with rfl | rfl | rfl | rfl
    · rintro v (h | h | h) <;> cases h
    · rintro v (h | h | h) <;> cases h
    · trivial
    · trivial

end Examples

open Examples in
example : ∃ st table, readSource (secondLikes.sql ⟨[], py" ", []⟩) = (st, none) ∧ st.globalErrors = [] ∧ st.tables.get? py"likes" = some table ∧
    table.globalErrors = [] ∧ py"likes_post_id_posts_fk" ∈ table.constraints.keys ∧ ∀ index ∈ table.indexes.values, index.columns.head? ≠ some py"post_id" := by
  refine C55_first_refuted (pre := []) (post := []) (d := secondLikes) (l := ⟨[], py" ", []⟩) (k := likePostFk) (w := ⟨true, false⟩) ?_ ?_ (by simp [tablesOf])
    (by simp [secondLikes, TableDecl.defs]) ⟨_, _, by simp [secondLikes, TableDecl.defs]; exact ⟨rfl, rfl⟩, by decide⟩ ?_
  · refine ⟨0, [], _, rfl, .nil, ?_, by decide, by intro h; cases h⟩
    have := Script.cons (blanks := []) (s := .declare secondLikes ⟨[], py" ", []⟩) (by decide) (.nil (blanks := []) (by decide))
    rwa [List.nil_append, List.append_nil] at this
  · refine ⟨?_, by simp⟩
    intro s hs
    rw [List.nil_append, List.mem_singleton] at hs
    subst hs
    exact ⟨secondLikes_ok, by decide, by decide, by decide⟩
  · intro i v hi
    simp only [secondLikes, TableDecl.defs, List.mem_cons, List.not_mem_nil, or_false, reduceCtorEq, false_or, Src.index.injEq] at hi
    rw [hi.1]
    decide

/-- The name has at most 64 characters, which is MySQL's limit. -/
theorem C55_length (table column reftable : Str) : ((table ++ py"_" ++ column ++ py"_" ++ reftable ++ py"_fk").take 64).length ≤ 64 := by
  simp only [List.length_take]; omega

end Mygrations
