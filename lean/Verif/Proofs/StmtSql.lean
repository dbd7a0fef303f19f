import Verif.Proofs.ColumnSql
import Verif.Proofs.Sql

/-!
# How MySQL reads keys, foreign keys, clauses and statements
-/

namespace Mygrations
open Sql

/-! ## Names in parentheses -/

theorem ident_noTick {s : Str} (h : Ident s) : '`' ∉ s := fun hm => absurd (h.2 _ hm) (by decide +kernel)

/-- the tokens of names between commas -/
def nameToks (cs : List Str) : List Tok := commas (cs.map (fun c => [.ident c]))

theorem lexes_cols : ∀ {cs : List Str}, cs ≠ [] → (∀ c ∈ cs, '`' ∉ c) → Lexes ('`' :: (join py"`,`" cs ++ ['`'])) (nameToks cs)
  | [], h, _ => absurd rfl h
  | [c], _, h => lexes_ident (h c List.mem_cons_self)
  | c :: d :: cs, _, h => by
    have ih := lexes_cols (cs := d :: cs) (by simp) (fun e he => h e (List.mem_cons_of_mem _ he))
    have := (lexes_ident (h c List.mem_cons_self)).append (goes_comma ih)
    simpa [nameToks, commas, join] using this

theorem names_cols : ∀ {cs : List Str}, cs ≠ [] → (∀ c ∈ cs, c ≠ []) → ∀ r, names (nameToks cs ++ .sym ')' :: r) = some (cs, r)
  | [], h, _, _ => absurd rfl h
  | [c], _, h, r => by
    have := h c List.mem_cons_self
    simp [nameToks, commas, names, nameTok, this]
  | c :: d :: cs, _, h, r => by
    have ih := names_cols (cs := d :: cs) (by simp) (fun e he => h e (List.mem_cons_of_mem _ he)) r
    have hc := h c List.mem_cons_self
    have he : nameToks (c :: d :: cs) ++ .sym ')' :: r = .ident c :: .sym ',' :: (nameToks (d :: cs) ++ .sym ')' :: r) := by
      simp [nameToks, commas]
    rw [he, names, nameTok_ident hc, ih]
    rfl

theorem nameToks_mem {cs : List Str} : ∀ t ∈ nameToks cs, t ≠ .sym '(' ∧ t ≠ .sym ')' := by
  induction cs with
  | nil => nofun
  | cons c cs ih =>
    intro t ht
    cases cs with
    | nil =>
      simp only [nameToks, List.map_cons, List.map_nil, commas, List.mem_singleton] at ht
      subst ht
      simp
    | cons d cs =>
      simp only [nameToks, List.map_cons, commas, List.cons_append, List.nil_append, List.mem_cons] at ht
      rcases ht with rfl | rfl | ht
      · simp
      · simp
      · exact ih t ht

theorem lexes_paren {cs : List Str} (hne : cs ≠ []) (h : ∀ c ∈ cs, '`' ∉ c) :
    Lexes ('(' :: '`' :: (join py"`,`" cs ++ py"`)")) (.sym '(' :: (nameToks cs ++ [.sym ')'])) := by
  have := lexes_nil.append (goes_open ((lexes_cols hne h).append (goes_close lexes_nil)))
  simpa using this

/-! ## Keys -/

/-- the tokens of a key -/
def Index.toks (i : Index) : List Tok :=
  (if i.indexType = py"PRIMARY" then [.word py"PRIMARY"] else if i.indexType = py"UNIQUE" then [.word py"UNIQUE"] else []) ++
  [.word py"KEY"] ++ (if i.rawName = [] then [] else [.ident i.rawName]) ++ .sym '(' :: (nameToks i.columns ++ [.sym ')'])

theorem lexes_kwKey : Lexes py"KEY" [.word py"KEY"] := ⟨_, _, _, rfl, rfl, rfl⟩
theorem lexes_kwUnique : Lexes py"UNIQUE" [.word py"UNIQUE"] := ⟨_, _, _, rfl, rfl, rfl⟩
theorem lexes_kwPrimary : Lexes py"PRIMARY" [.word py"PRIMARY"] := ⟨_, _, _, rfl, rfl, rfl⟩

theorem lexes_index {i : Index} (h : i.Plain) : Lexes i.render i.toks := by
  have hp := lexes_paren h.columns.1 (fun c hc => ident_noTick (h.columns.2 c hc))
  have hn : i.rawName ≠ [] → Ident i.rawName := by
    intro hne
    rcases h.type with ⟨_, h⟩ | ⟨_, h⟩ | ⟨_, h⟩
    · exact absurd h hne
    · exact h.resolve_left hne
    · exact h
  have tail : Goes ((if i.rawName = [] then [] else ' ' :: '`' :: (i.rawName ++ ['`'])) ++ ' ' :: '(' :: '`' :: (join py"`,`" i.columns ++ py"`)"))
      ((if i.rawName = [] then [] else [.ident i.rawName]) ++ .sym '(' :: (nameToks i.columns ++ [.sym ')'])) := by
    refine Goes.append (goes_if (fun _ => goes_nil) (fun hne => ?_)) (goes_space hp)
    exact goes_space (lexes_ident (ident_noTick (hn hne)))
  have fin : ∀ {k : Str} {tk : List Tok}, Lexes k tk → i.render = k ++ ((if i.rawName = [] then [] else ' ' :: '`' :: (i.rawName ++ ['`'])) ++
      ' ' :: '(' :: '`' :: (join py"`,`" i.columns ++ py"`)")) → i.toks = tk ++ ((if i.rawName = [] then [] else [.ident i.rawName]) ++
      .sym '(' :: (nameToks i.columns ++ [.sym ')'])) → Lexes i.render i.toks := by
    intro k tk hk h1 h2
    rw [h1, h2]
    exact hk.append tail
  rcases h.type with ⟨ht, hr⟩ | ⟨ht, _⟩ | ⟨ht, hr⟩
  · refine fin (lexes_kwPrimary.append (goes_space lexes_kwKey)) ?_ ?_
    · simp [Index.render, ht, hr, join]
    · simp [Index.toks, ht, hr]
  · refine fin (lexes_kwUnique.append (goes_space lexes_kwKey)) ?_ ?_
    · by_cases hr : i.rawName = []
      · simp [Index.render, ht, hr, join]
      · simp [Index.render, Index.name, ht, hr, join]
    · by_cases hr : i.rawName = [] <;> simp [Index.toks, ht, hr]
  · refine fin lexes_kwKey ?_ ?_
    · simp [Index.render, Index.name, ht, hr.1, join]
    · simp [Index.toks, ht, hr.1]

theorem keyTail_toks {i : Index} (h : i.Plain) (kind : KeyKind) :
    keyTail kind ((if i.rawName = [] then [] else [.ident i.rawName]) ++ .sym '(' :: (nameToks i.columns ++ [.sym ')'])) =
      some ⟨kind, if i.rawName = [] then none else some i.rawName, i.columns⟩ := by
  have hn := names_cols h.columns.1 (fun c hc => (h.columns.2 c hc).1) []
  by_cases hr : i.rawName = []
  · simp [hr, keyTail, hn]
  · simp [hr, keyTail, hn, nameTok]

theorem item_index {i : Index} (h : i.Plain) : item i.toks = some (.key i.sql) := by
  have hk := keyTail_toks h
  rcases h.type with ⟨ht, hr⟩ | ⟨ht, _⟩ | ⟨ht, hr⟩
  · have := hk .primary
    simp only [hr, if_true, List.nil_append] at this
    simp [Index.toks, Index.sql, item, isKw, ht, hr, this, show upper py"PRIMARY" = py"PRIMARY" from rfl, show upper py"KEY" = py"KEY" from rfl]
  · have := hk .unique
    simp [Index.toks, Index.sql, item, isKw, ht, this, show upper py"UNIQUE" = py"UNIQUE" from rfl, show upper py"KEY" = py"KEY" from rfl]
  · have := hk .plain
    simp only [hr.1, if_false] at this
    simp at this
    simp [Index.toks, Index.sql, item, isKw, ht, hr.1, this, show upper py"KEY" = py"KEY" from rfl]

theorem flat_paren_names (cs : List Str) : Flat (.sym '(' :: (nameToks cs ++ [.sym ')'])) := flat_paren nameToks_mem

theorem flat_index (i : Index) : Flat i.toks := by
  refine Flat.append (flat_noSym ?_) (flat_paren_names _)
  refine (NoSym.append ?_ (noSym_cons (by simp) noSym_nil)).append ?_
  · split
    · exact noSym_cons (by simp) noSym_nil
    · split
      · exact noSym_cons (by simp) noSym_nil
      · exact noSym_nil
  · split
    · exact noSym_nil
    · exact noSym_cons (by simp) noSym_nil

/-! ## Foreign keys -/

/-- the tokens of words between blanks -/
def wordToks (s : Str) : List Tok := (splitOn ' ' s).map .word

/-- the tokens of a foreign key -/
def Constraint.toks (k : Constraint) : List Tok :=
  [.word py"CONSTRAINT", .ident k.name, .word py"FOREIGN", .word py"KEY"] ++ (.sym '(' :: (nameToks [k.column] ++ [.sym ')'])) ++
  [.word py"REFERENCES", .ident k.ftable] ++ (.sym '(' :: (nameToks [k.fcolumn] ++ [.sym ')'])) ++
  ([.word py"ON", .word py"DELETE"] ++ wordToks k.onDelete ++ ([.word py"ON", .word py"UPDATE"] ++ wordToks k.onUpdate))

theorem lexes_action {a : Str} (h : a ∈ fkActions) : Lexes a (wordToks a) := by
  simp only [fkActions, List.mem_cons, List.not_mem_nil, or_false] at h
  rcases h with rfl | rfl | rfl | rfl | rfl <;> exact ⟨_, _, _, rfl, rfl, rfl⟩

theorem fkAction_toks {a : Str} (h : a ∈ fkActions) (r : List Tok) : fkAction (wordToks a ++ r) = some (a, r) := by
  simp only [fkActions, List.mem_cons, List.not_mem_nil, or_false] at h
  rcases h with rfl | rfl | rfl | rfl | rfl <;> rfl

theorem lexes_constraint {k : Constraint} (h : k.Plain) : Lexes k.render k.toks := by
  have hid : ∀ {s : Str}, Ident s → Lexes ('`' :: (s ++ ['`'])) [.ident s] := fun h => lexes_ident (ident_noTick h)
  have hp : ∀ {s : Str}, Ident s → Lexes ('(' :: '`' :: (s ++ py"`)")) (.sym '(' :: (nameToks [s] ++ [.sym ')'])) := by
    intro s hs
    exact lexes_paren (cs := [s]) (by simp) (by simpa using ident_noTick hs)
  have l1 : Lexes py"CONSTRAINT" [.word py"CONSTRAINT"] := ⟨_, _, _, rfl, rfl, rfl⟩
  have l2 : Lexes py"FOREIGN KEY" [.word py"FOREIGN", .word py"KEY"] := ⟨_, _, _, rfl, rfl, rfl⟩
  have l3 : Lexes py"REFERENCES" [.word py"REFERENCES"] := ⟨_, _, _, rfl, rfl, rfl⟩
  have l4 : Lexes py"ON DELETE" [.word py"ON", .word py"DELETE"] := ⟨_, _, _, rfl, rfl, rfl⟩
  have l5 : Lexes py"ON UPDATE" [.word py"ON", .word py"UPDATE"] := ⟨_, _, _, rfl, rfl, rfl⟩
  have := ((((((((l1.append (goes_space (hid h.name))).append (goes_space l2)).append (goes_space (hp h.column))).append (goes_space l3)).append
    (goes_space (hid h.ftable))).append (goes_space (hp h.fcolumn))).append (goes_space (l4.append (goes_space (lexes_action h.onDelete))))).append
    (goes_space (l5.append (goes_space (lexes_action h.onUpdate)))))
  simpa [Constraint.render, join, Constraint.toks] using this

theorem fkTail_toks {k : Constraint} (h : k.Plain) (x : FkSql) :
    fkTail x ([.word py"ON", .word py"DELETE"] ++ wordToks k.onDelete ++ ([.word py"ON", .word py"UPDATE"] ++ wordToks k.onUpdate)) =
      some { x with onDelete := some k.onDelete, onUpdate := some k.onUpdate } := by
  have h1 := fkAction_toks h.onDelete ([.word py"ON", .word py"UPDATE"] ++ wordToks k.onUpdate)
  have h2 := fkAction_toks h.onUpdate []
  rw [List.append_nil] at h2
  simp only [List.cons_append, List.nil_append] at h1 ⊢
  rw [fkTail]
  simp [isKw, h1, h2, show upper py"ON" = py"ON" from rfl, show upper py"DELETE" = py"DELETE" from rfl, show upper py"UPDATE" = py"UPDATE" from rfl]

theorem item_constraint {k : Constraint} (h : k.Plain) : item k.toks = some (.fk k.sql) := by
  have hc := fun r => names_cols (cs := [k.column]) (by simp) (by simpa using h.column.1) r
  have hf := fun r => names_cols (cs := [k.fcolumn]) (by simp) (by simpa using h.fcolumn.1) r
  have ht := fkTail_toks h ⟨some k.name, [k.column], k.ftable, [k.fcolumn], none, none⟩
  simp only [List.cons_append, List.nil_append] at ht
  simp [Constraint.toks, item, isKw, foreignKey, hc, hf, nameTok, h.name.1, h.ftable.1, ht, Constraint.sql, show upper py"CONSTRAINT" = py"CONSTRAINT" from rfl, show upper py"KEY" = py"KEY" from rfl,
    show upper py"FOREIGN" = py"FOREIGN" from rfl, show upper py"REFERENCES" = py"REFERENCES" from rfl]

theorem noSym_words (s : Str) : NoSym (wordToks s) := by
  intro t ht c
  obtain ⟨w, _, rfl⟩ := List.mem_map.mp ht
  simp

theorem flat_constraint (k : Constraint) : Flat k.toks := by
  refine ((((Flat.append (flat_noSym ?_) (flat_paren_names _)).append (flat_noSym ?_)).append (flat_paren_names _)).append (flat_noSym ?_))
  · intro t ht; simp at ht; rcases ht with rfl | rfl | rfl | rfl <;> simp
  · intro t ht; simp at ht; rcases ht with rfl | rfl <;> simp
  · exact (NoSym.append (noSym_cons (by simp) (noSym_cons (by simp) noSym_nil)) (noSym_words _)).append
      (NoSym.append (noSym_cons (by simp) (noSym_cons (by simp) noSym_nil)) (noSym_words _))

/-! ## Lists of definitions -/

/-- The text is a list of parts between commas, which are read like this. -/
def Reads {B : Type} (f : List Tok → Option B) (s : Str) (bs : List B) : Prop :=
  ∃ tss, tss ≠ [] ∧ (∀ ts ∈ tss, Flat ts) ∧ Lexes s (commas tss) ∧ every f tss = some bs

theorem Reads.one {B : Type} {f : List Tok → Option B} {s : Str} {ts : List Tok} {b : B} (h1 : Lexes s ts) (h2 : Flat ts) (h3 : f ts = some b) :
    Reads f s [b] := ⟨[ts], by simp, by simpa using h2, h1, by simp [every, h3]⟩

theorem every_append {A B : Type} (f : A → Option B) {as bs : List A} {xs ys : List B} (ha : every f as = some xs) (hb : every f bs = some ys) :
    every f (as ++ bs) = some (xs ++ ys) := by
  induction as generalizing xs with
  | nil => cases ha; exact hb
  | cons a as ih =>
    rw [List.cons_append, every]
    rw [every] at ha
    cases h : f a with
    | none => rw [h] at ha; cases ha
    | some b =>
      rw [h] at ha
      simp only [Option.map_eq_some_iff] at ha
      obtain ⟨zs, h1, rfl⟩ := ha
      simp [ih h1]

theorem commas_append {a b : List (List Tok)} (ha : a ≠ []) (hb : b ≠ []) : commas (a ++ b) = commas a ++ .sym ',' :: commas b := by
  induction a with
  | nil => exact absurd rfl ha
  | cons x a ih =>
    cases a with
    | nil =>
      cases b with
      | nil => exact absurd rfl hb
      | cons y b => rfl
    | cons y a =>
      have := ih (by simp)
      simp only [List.cons_append, commas] at this ⊢
      rw [this]
      simp

theorem Reads.append {B : Type} {f : List Tok → Option B} {a b : Str} {as bs : List B} (ha : Reads f a as) (hb : Reads f b bs)
    {c : Char} (hc : Breaks c) (hs : isSpace c = true) : Reads f (a ++ [',', c] ++ b) (as ++ bs) := by
  obtain ⟨ta, a1, a2, a3, a4⟩ := ha
  obtain ⟨tb, b1, b2, b3, b4⟩ := hb
  refine ⟨ta ++ tb, by simp [a1], ?_, ?_, every_append f a4 b4⟩
  · intro ts h
    rcases List.mem_append.mp h with h | h
    · exact a2 ts h
    · exact b2 ts h
  · rw [commas_append a1 b1, List.append_assoc]
    exact a3.append (goes_comma (lexes_nil.append (goes_blank hc hs b3)))

theorem reads_join {A B : Type} {f : List Tok → Option B} {c : Char} (hc : Breaks c) (hs : isSpace c = true) (g : A → Str) (h : A → List B) :
    ∀ {as : List A}, as ≠ [] → (∀ a ∈ as, Reads f (g a) (h a)) → Reads f (join [',', c] (as.map g)) (as.flatMap h)
  | [], hne, _ => absurd rfl hne
  | [a], _, ha => by simpa [join] using ha a List.mem_cons_self
  | a :: b :: as, _, ha => by
    have ih := reads_join hc hs g h (as := b :: as) (by simp) (fun x hx => ha x (List.mem_cons_of_mem _ hx))
    have := (ha a List.mem_cons_self).append ih hc hs
    simpa [join] using this

theorem parts_commas : ∀ {tss : List (List Tok)}, tss ≠ [] → (∀ ts ∈ tss, Flat ts) → ∀ {c : Char}, c = ';' ∨ c = ')' → ∀ r,
    parts 0 (commas tss ++ .sym c :: r) = (tss, .sym c :: r)
  | [], h, _, _, _, _ => absurd rfl h
  | [t], _, h, c, hc, r => by
    have h0 : parts 0 (.sym c :: r) = ([[]], .sym c :: r) := by rcases hc with rfl | rfl <;> simp [parts]
    rw [commas, h t List.mem_cons_self, h0]
    simp [pushAll]
  | t :: u :: tss, _, h, c, hc, r => by
    have ih := parts_commas (tss := u :: tss) (by simp) (fun x hx => h x (List.mem_cons_of_mem _ hx)) hc r
    rw [commas, List.append_assoc, h t List.mem_cons_self, List.cons_append]
    have h0 : ∀ x, parts 0 (.sym ',' :: x) = ([] :: (parts 0 x).1, (parts 0 x).2) := fun x => by simp [parts]
    rw [h0, ih]
    simp [pushAll]

/-! ## Columns -/

theorem column_render {c : Column} (hc : c.Sound) (h : c.CharsetLast) :
    ∃ t, Lexes c.render (.ident c.name :: t) ∧ Flat (.ident c.name :: t) ∧ ∀ rest, Ends rest → column (.ident c.name :: t ++ rest) = some (c.sql, rest) := by
  obtain ⟨tt, h1, ⟨⟨t, rfl⟩, h2⟩, h3⟩ := column_written hc (s := .usual) (fun _ => rfl) (fun _ _ h => .inl h)
    (.inr (fun hc => ⟨(h hc).1, (h hc).2, rfl, rfl⟩))
  rw [written_usual hc.plain] at h1
  refine ⟨t, h1, h2, ?_⟩
  have : c.sqlIn .usual = c.sql := by
    unfold Column.sqlIn Column.defaultIn Column.sql
    cases h : c.default with
    | none => simp [Style.usual]
    | some v => cases hn : isNumeric v <;> simp [Style.usual, hn]
  rw [← this]
  exact h3

theorem item_ident (n : Str) (t : List Tok) : item (.ident n :: t) = (column (.ident n :: t)).map (fun x => .column x.1 x.2) := by
  simp [item, isKw]

/-! ## Clauses -/

theorem lexes_add : Lexes py"ADD" [.word py"ADD"] := ⟨_, _, _, rfl, rfl, rfl⟩
theorem lexes_change : Lexes py"CHANGE" [.word py"CHANGE"] := ⟨_, _, _, rfl, rfl, rfl⟩
theorem lexes_drop : Lexes py"DROP" [.word py"DROP"] := ⟨_, _, _, rfl, rfl, rfl⟩
theorem lexes_first : Lexes py"FIRST" [.word py"FIRST"] := ⟨_, _, _, rfl, rfl, rfl⟩
theorem lexes_after : Lexes py"AFTER" [.word py"AFTER"] := ⟨_, _, _, rfl, rfl, rfl⟩
theorem lexes_dropKey : Lexes py"DROP KEY" [.word py"DROP", .word py"KEY"] := ⟨_, _, _, rfl, rfl, rfl⟩
theorem lexes_dropFk : Lexes py"DROP FOREIGN KEY" [.word py"DROP", .word py"FOREIGN", .word py"KEY"] := ⟨_, _, _, rfl, rfl, rfl⟩

theorem clause_add (ts : List Tok) : clause (.word py"ADD" :: ts) = addClause ts := rfl

theorem reads_add {s : Str} {ts : List Tok} {x : ClauseSql} (h1 : Lexes s ts) (h2 : Flat ts) (h3 : addClause ts = some x) :
    Reads clause (py"ADD " ++ s) [x] := by
  refine Reads.one (lexes_add.append (goes_space h1)) (Flat.append (flat_noSym (noSym_cons (by simp) noSym_nil)) h2) ?_
  exact h3

theorem reads_addKey {i : Index} (h : i.Plain) : Reads clause (py"ADD " ++ i.render) [.addKey i.sql] :=
  reads_add (lexes_index h) (flat_index i) (by simp [addClause, item_index h])

theorem reads_addFk {k : Constraint} (h : k.Plain) : Reads clause (py"ADD " ++ k.render) [.addFk k.sql] :=
  reads_add (lexes_constraint h) (flat_constraint k) (by simp [addClause, item_constraint h])

theorem reads_dropKey {n : Str} (h : Ident n) : Reads clause (py"DROP KEY `" ++ n ++ py"`") [.dropKey n] := by
  have := lexes_dropKey.append (goes_space (lexes_ident (ident_noTick h)))
  refine Reads.one (ts := [.word py"DROP", .word py"KEY", .ident n]) (by simpa using this) (flat_noSym ?_) ?_
  · exact noSym_cons (by simp) (noSym_cons (by simp) (noSym_cons (by simp) noSym_nil))
  · have : clause [.word py"DROP", .word py"KEY", .ident n] = (nameTok (.ident n)).map .dropKey := rfl
    rw [this, nameTok_ident h.1]
    rfl

theorem reads_dropFk {n : Str} (h : Ident n) : Reads clause (py"DROP FOREIGN KEY `" ++ n ++ py"`") [.dropFk n] := by
  have := lexes_dropFk.append (goes_space (lexes_ident (ident_noTick h)))
  refine Reads.one (ts := [.word py"DROP", .word py"FOREIGN", .word py"KEY", .ident n]) (by simpa using this) (flat_noSym ?_) ?_
  · exact noSym_cons (by simp) (noSym_cons (by simp) (noSym_cons (by simp) (noSym_cons (by simp) noSym_nil)))
  · have : clause [.word py"DROP", .word py"FOREIGN", .word py"KEY", .ident n] = (nameTok (.ident n)).map .dropFk := rfl
    rw [this, nameTok_ident h.1]
    rfl

theorem plain_keyName {i : Index} (h : i.Plain) : Ident i.name := by
  unfold Index.name
  split
  · rename_i hne
    rcases h.type with ⟨_, h⟩ | ⟨_, h⟩ | ⟨_, h⟩
    · exact absurd h hne
    · exact h.resolve_left hne
    · exact h
  · cases hc : i.columns with
    | nil => exact absurd hc h.columns.1
    | cons c cs => exact h.columns.2 c (by rw [hc]; exact List.mem_cons_self)

/-- Every clause is read as what it asks for. -/
theorem reads_op {o : AlterOp} (h : o.Sound) : ∃ cs, Reads clause o.render cs ∧ Paired ClauseSql.Is cs (MySQL.clauses o) := by
  have one : ∀ {x : ClauseSql} {y : MySQL.Clause}, ClauseSql.Is x y → Paired ClauseSql.Is [x] [y] := fun h => .cons h .nil
  cases o with
  | addColumn c p =>
    obtain ⟨hc, hl, hp⟩ := h
    obtain ⟨t, h1, h2, h3⟩ := column_render hc hl
    cases p with
    | last =>
      refine ⟨[.addColumn c.sql], ?_, one (.addColumn c)⟩
      have := reads_add h1 h2 (x := .addColumn c.sql) (by
        have := h3 [] ends_nil
        rw [List.append_nil] at this
        rw [addClause, item_ident, this]
        rfl)
      simpa [AlterOp.render] using this
    | first =>
      refine ⟨[.addColumnFirst c.sql], ?_, one (.addColumnFirst c)⟩
      have := reads_add (h1.append (goes_space lexes_first)) (h2.append (flat_noSym (noSym_cons (by simp) noSym_nil))) (x := .addColumnFirst c.sql) (by
        have := h3 [.word py"FIRST"] (ends_word (.inl rfl) [])
        rw [addClause, List.cons_append, item_ident, ← List.cons_append, this]
        rfl)
      simpa [AlterOp.render] using this
    | after a =>
      have ha := hp a rfl
      refine ⟨[.addColumnAfter c.sql a], ?_, one (.addColumnAfter c a)⟩
      have := reads_add (h1.append (goes_space (lexes_after.append (goes_space (lexes_ident (ident_noTick ha))))))
        (h2.append (flat_noSym (noSym_cons (by simp) (noSym_cons (by simp) noSym_nil)))) (x := .addColumnAfter c.sql a) (by
        have := h3 [.word py"AFTER", .ident a] (ends_word (.inr rfl) [.ident a])
        rw [addClause, List.cons_append]
        simp only [List.cons_append, List.nil_append] at this ⊢
        rw [item_ident, this]
        show (nameTok (.ident a)).map _ = _
        rw [nameTok_ident ha.1]
        rfl)
      simpa [AlterOp.render] using this
  | changeColumn c =>
    obtain ⟨hc, hl⟩ := h
    obtain ⟨t, h1, h2, h3⟩ := column_render hc hl
    refine ⟨[.changeColumn c.name c.sql], ?_, one (.changeColumn c c.name)⟩
    have hn := hc.plain.name
    have hl := lexes_change.append (goes_space ((lexes_ident (ident_noTick hn)).append (goes_space h1)))
    refine Reads.one (ts := .word py"CHANGE" :: .ident c.name :: (.ident c.name :: t)) (by simpa [AlterOp.render] using hl) ?_ ?_
    · exact Flat.append (a := [.word py"CHANGE", .ident c.name]) (flat_noSym (noSym_cons (by simp) (noSym_cons (by simp) noSym_nil))) h2
    · have := h3 [] ends_nil
      rw [List.append_nil] at this
      simp [clause, isKw, nameTok_ident hn.1, this, show upper py"CHANGE" = py"CHANGE" from rfl]
  | removeColumn c =>
    refine ⟨[.dropColumn c.name], ?_, one (.dropColumn c.name)⟩
    refine Reads.one (lexes_drop.append (goes_space (lexes_ofWord h.1.1 h.1.2))) (flat_noSym (noSym_cons (by simp) (noSym_cons (by simp) noSym_nil))) ?_
    have : clause [.word py"DROP", .word c.name] = (nameTok (.word c.name)).map .dropColumn := rfl
    show clause [.word py"DROP", .word c.name] = _
    rw [this]
    simp [nameTok, h.2]
  | addKey i => exact ⟨_, reads_addKey h, one (.addKey i)⟩
  | changeKey i =>
    refine ⟨_, ?_, .cons (.dropKey i.name) (one (.addKey i))⟩
    have := (reads_dropKey (plain_keyName h)).append (reads_addKey h) breaks_space rfl
    simpa [AlterOp.render] using this
  | removeKey i =>
    by_cases ht : i.indexType = py"PRIMARY"
    · refine ⟨[.dropPrimaryKey], ?_, ?_⟩
      · have hl : Lexes py"DROP PRIMARY KEY" [.word py"DROP", .word py"PRIMARY", .word py"KEY"] := ⟨_, _, _, rfl, rfl, rfl⟩
        simp only [AlterOp.render, ht, if_true]
        exact Reads.one hl (flat_noSym (noSym_cons (by simp) (noSym_cons (by simp) (noSym_cons (by simp) noSym_nil)))) rfl
      · have : MySQL.clauses (.removeKey i) = [.dropKey py"PRIMARY"] := by simp [MySQL.clauses, MySQL.keyName, Index.isPrimary, ht]
        rw [this]
        exact one .dropPrimaryKey
    · refine ⟨[.dropKey i.name], ?_, ?_⟩
      · simp only [AlterOp.render, ht, if_false]
        exact reads_dropKey (plain_keyName h)
      · have : MySQL.clauses (.removeKey i) = [.dropKey i.name] := by simp [MySQL.clauses, MySQL.keyName, Index.isPrimary, ht]
        rw [this]
        exact one (.dropKey _)
  | addConstraint k => exact ⟨_, reads_addFk h, one (.addFk k)⟩
  | changeConstraint k =>
    refine ⟨_, ?_, .cons (.dropFk k.name) (one (.addFk k))⟩
    have := (reads_dropFk h.name).append (reads_addFk h) breaks_space rfl
    simpa [AlterOp.render] using this
  | removeConstraint k => exact ⟨_, reads_dropFk h.name, one (.dropFk _)⟩

/-! ## Statements -/

theorem Sql.Lexes.read {s : Str} {ts : List Tok} (h : Lexes s ts) : readStatement s = stmt ts := by
  rw [readStatement, h.tokens]
  rfl

theorem paired_flatMap {A B C : Type} {R : B → C → Prop} {f : A → List B} {g : A → List C} :
    ∀ {as : List A}, (∀ a ∈ as, Paired R (f a) (g a)) → Paired R (as.flatMap f) (as.flatMap g)
  | [], _ => .nil
  | a :: as, h => by
    have ih := paired_flatMap (fun b hb => h b (List.mem_cons_of_mem _ hb))
    have ha := h a List.mem_cons_self
    simp only [List.flatMap_cons]
    generalize f a = x at ha ⊢
    generalize g a = y at ha ⊢
    clear h
    induction ha with
    | nil => exact ih
    | cons h1 _ ih' => exact .cons h1 ih'

theorem read_alter {a : Alter} (hn : Ident a.table) (hne : a.ops ≠ []) (h : ∀ o ∈ a.ops, o.Sound) :
    ∃ cs, readStatement a.render = some (.alterTable a.table cs) ∧ Paired ClauseSql.Is cs (a.ops.flatMap MySQL.clauses) := by
  classical
  let f : AlterOp → List ClauseSql := fun o => if h : o.Sound then Classical.choose (reads_op h) else []
  have hf : ∀ o ∈ a.ops, Reads clause o.render (f o) ∧ Paired ClauseSql.Is (f o) (MySQL.clauses o) := by
    intro o ho
    have := Classical.choose_spec (reads_op (h o ho))
    simpa only [f, dif_pos (h o ho)] using this
  obtain ⟨tss, h1, h2, h3, h4⟩ := reads_join breaks_space rfl AlterOp.render f hne (fun o ho => (hf o ho).1)
  refine ⟨_, ?_, paired_flatMap (fun o ho => (hf o ho).2)⟩
  have l : Lexes py"ALTER TABLE" [.word py"ALTER", .word py"TABLE"] := ⟨_, _, _, rfl, rfl, rfl⟩
  have hl := (l.append (goes_space (lexes_ident (ident_noTick hn)))).append ((goes_space h3).append goes_end)
  have hl' : Lexes a.render ([.word py"ALTER", .word py"TABLE", .ident a.table] ++ (commas tss ++ [.sym ';'])) := by
    simpa [Alter.render] using hl
  rw [hl'.read]
  have hp := parts_commas h1 h2 (c := ';') (.inl rfl) []
  simp [stmt, isKw, hp, nameTok_ident hn.1, h4, show upper py"ALTER" = py"ALTER" from rfl, show upper py"TABLE" = py"TABLE" from rfl]

theorem reads_column {c : Column} (hc : c.Sound) (h : c.CharsetLast) : Reads definition c.render [.column c.sql []] := by
  obtain ⟨t, h1, h2, h3⟩ := column_render hc h
  refine Reads.one h1 h2 ?_
  have := h3 [] ends_nil
  rw [List.append_nil] at this
  rw [definition, item_ident, this]
  rfl

theorem reads_index {i : Index} (h : i.Plain) : Reads definition i.render [.key i.sql] :=
  Reads.one (lexes_index h) (flat_index i) (by rw [definition, item_index h])

theorem reads_constraint {k : Constraint} (h : k.Plain) : Reads definition k.render [.fk k.sql] :=
  Reads.one (lexes_constraint h) (flat_constraint k) (by rw [definition, item_constraint h])

/-! ### Options -/

theorem lexes_words : ∀ {s : Str}, (∀ w ∈ splitOn ' ' s, Ident w) → Lexes s (wordToks s)
  | s, h => by
    have key : ∀ ws : List Str, ws ≠ [] → (∀ w ∈ ws, Ident w) → Lexes (join py" " ws) (ws.map .word) := by
      intro ws
      induction ws with
      | nil => intro h; exact absurd rfl h
      | cons w ws ih =>
        intro _ hw
        have h1 := hw w List.mem_cons_self
        cases ws with
        | nil => exact lexes_ofWord h1.1 h1.2
        | cons v ws =>
          have := (lexes_ofWord h1.1 h1.2).append (goes_space (ih (by simp) (fun x hx => hw x (List.mem_cons_of_mem _ hx))))
          simpa [join] using this
    have hj : ∀ s : Str, splitOn ' ' s ≠ [] ∧ join py" " (splitOn ' ' s) = s := by
      intro s
      induction s with
      | nil => exact ⟨by simp [splitOn], rfl⟩
      | cons c s ih =>
        rw [splitOn]
        split
        · rename_i hc
          subst hc
          refine ⟨by simp, ?_⟩
          cases hs : splitOn ' ' s with
          | nil => exact absurd hs ih.1
          | cons w ws =>
            rw [hs] at ih
            simp [join, ih.2]
        · cases hs : splitOn ' ' s with
          | nil => exact absurd hs ih.1
          | cons w ws =>
            refine ⟨by simp, ?_⟩
            rw [hs] at ih
            cases ws with
            | nil => simpa [join] using ih.2
            | cons v ws => simpa [join] using ih.2
    have := key _ (hj s).1 h
    rwa [(hj s).2] at this

/-- the tokens of an option -/
def TableOpt.toks (o : TableOpt) : List Tok := wordToks o.name ++ [.sym '=', .word o.value]

theorem lexes_option {o : TableOpt} (h1 : ∀ w ∈ splitOn ' ' o.name, Ident w) (h2 : Ident o.value) : Lexes (o.name ++ py"=" ++ o.value) o.toks := by
  have := (lexes_words h1).append (goes_equals (lexes_ofWord h2.1 h2.2))
  simpa [TableOpt.toks] using this

theorem options_words : ∀ (ws vs : List Str) (r : List Tok), options vs (ws.map .word ++ r) = options (vs ++ ws) r
  | [], vs, r => by simp
  | w :: ws, vs, r => by
    have := options_words ws (vs ++ [w]) r
    simp [options, this]

theorem splitOn_ne (c : Char) (s : Str) : splitOn c s ≠ [] := by
  cases s with
  | nil => simp [splitOn]
  | cons d s =>
    rw [splitOn]
    split
    · simp
    · split <;> simp

theorem options_toks (os : List TableOpt) : options [] (os.flatMap TableOpt.toks ++ [.sym ';']) = some (os.map (fun o => (splitOn ' ' o.name, o.value))) := by
  induction os with
  | nil => rfl
  | cons o os ih =>
    have : ((o :: os).flatMap TableOpt.toks ++ [.sym ';']) = (splitOn ' ' o.name).map .word ++ (.sym '=' :: .word o.value :: (os.flatMap TableOpt.toks ++ [.sym ';'])) := by
      simp [TableOpt.toks, wordToks]
    rw [this, options_words, List.nil_append, options, if_neg (splitOn_ne _ _), ih]
    rfl

theorem goes_options : ∀ {os : List TableOpt}, (∀ o ∈ os, (∀ w ∈ splitOn ' ' o.name, Ident w) ∧ Ident o.value) →
    Goes (if os.isEmpty then [] else py" " ++ join py" " (os.map (fun o => o.name ++ py"=" ++ o.value))) (os.flatMap TableOpt.toks)
  | [], _ => goes_nil
  | [o], h => by
    have ho := h o List.mem_cons_self
    have := goes_space (lexes_option ho.1 ho.2)
    simpa [join] using this
  | o :: p :: os, h => by
    have ih := goes_options (os := p :: os) (fun x hx => h x (List.mem_cons_of_mem _ hx))
    have ho := h o List.mem_cons_self
    have := (goes_space (lexes_option ho.1 ho.2)).append ih
    simpa [join] using this

theorem read_create {t : Table} (h : t.Sound) : readStatement (t.renderCreate false) = some (.createTable t.name
    (t.columns.values.map (fun c => .column c.sql []) ++ t.indexes.values.map (fun i => .key i.sql) ++ t.constraints.values.map (fun k => .fk k.sql))
    (t.options.map (fun o => (splitOn ' ' o.name, o.value)))) := by
  let items : List (Str × ItemSql) := t.columns.values.map (fun c => (c.render, .column c.sql [])) ++ t.indexes.values.map (fun i => (i.render, .key i.sql)) ++
    t.constraints.values.map (fun k => (k.render, .fk k.sql))
  have hne : items ≠ [] := by
    have : t.columns.values ≠ [] := by
      have := h.hasColumns
      intro e
      exact this (List.map_eq_nil_iff.mp e)
    intro e
    have e1 := (List.append_eq_nil_iff.mp (List.append_eq_nil_iff.mp e).1).1
    exact this (List.map_eq_nil_iff.mp e1)
  have hi : ∀ x ∈ items, Reads definition x.1 [x.2] := by
    intro x hx
    rcases List.mem_append.mp hx with hx | hx
    · rcases List.mem_append.mp hx with hx | hx
      · obtain ⟨c, hc, rfl⟩ := List.mem_map.mp hx
        exact reads_column (h.columns c hc).1 (h.columns c hc).2
      · obtain ⟨i, hi, rfl⟩ := List.mem_map.mp hx
        exact reads_index (h.indexes i hi)
    · obtain ⟨k, hk, rfl⟩ := List.mem_map.mp hx
      exact reads_constraint (h.constraints k hk)
  obtain ⟨tss, h1, h2, h3, h4⟩ := reads_join breaks_newline rfl Prod.fst (fun x => [x.2]) hne hi
  have l : Lexes py"CREATE TABLE" [.word py"CREATE", .word py"TABLE"] := ⟨_, _, _, rfl, rfl, rfl⟩
  have ho := goes_options h.options
  have hl := (((l.append (goes_space (lexes_ident (ident_noTick h.name)))).append (goes_space (lexes_nil.append (goes_open h3)))).append
    (goes_close lexes_nil)).append (ho.append goes_end)
  have hl' : Lexes (t.renderCreate false) ([.word py"CREATE", .word py"TABLE", .ident t.name, .sym '('] ++ (commas tss ++ .sym ')' ::
      (t.options.flatMap TableOpt.toks ++ [.sym ';']))) := by
    simpa [Table.renderCreate, items, Function.comp_def] using hl
  rw [hl'.read]
  have hp := parts_commas h1 h2 (c := ')') (.inr rfl) (t.options.flatMap TableOpt.toks ++ [.sym ';'])
  have he : items.flatMap (fun x => [x.2]) = t.columns.values.map (fun c => .column c.sql []) ++ t.indexes.values.map (fun i => .key i.sql) ++
      t.constraints.values.map (fun k => .fk k.sql) := by
    rw [show items.flatMap (fun x => [x.2]) = items.map Prod.snd from List.map_eq_flatMap.symm]
    simp [items, Function.comp_def]
  rw [he] at h4
  simp [stmt, isKw, hp, nameTok_ident h.name.1, h4, options_toks, show upper py"CREATE" = py"CREATE" from rfl, show upper py"TABLE" = py"TABLE" from rfl]

/-! ### Rows -/

theorem literal_valueTok (v : Option Str) : literal (valueTok v) = some v := by
  cases v <;> simp [literal, valueTok, show upper py"NULL" = py"NULL" from rfl]

theorem valueTok_ne (v : Option Str) (c : Char) : valueTok v ≠ .sym c := by
  cases v <;> simp [valueTok]

theorem literals_toks : ∀ {vs : List (Option Str)}, vs ≠ [] → ∀ r, literals (commas (vs.map (fun v => [valueTok v])) ++ .sym ')' :: r) = some (vs, r)
  | [], h, _ => absurd rfl h
  | [v], _, r => by
    simp [commas, literals, literal_valueTok]
  | v :: w :: vs, _, r => by
    have ih := literals_toks (vs := w :: vs) (by simp) r
    have he : commas ((v :: w :: vs).map (fun v => [valueTok v])) ++ .sym ')' :: r =
        valueTok v :: .sym ',' :: (commas ((w :: vs).map (fun v => [valueTok v])) ++ .sym ')' :: r) := by simp [commas]
    rw [he, literals, literal_valueTok, ih]
    rfl

theorem assignments_toks (i : Str) : ∀ {es : List (Str × Option Str)}, es ≠ [] → (∀ e ∈ es, e.1 ≠ []) →
    assignments (commas (es.map (fun e => [.ident e.1, .sym '=', valueTok e.2])) ++ [.word py"WHERE", .word py"id", .sym '=', .str i, .sym ';']) =
      some (es.map (fun e => ⟨e.1, e.2⟩), ⟨py"id", some i⟩)
  | [], h, _ => absurd rfl h
  | [e], _, h => by
    have h1 := nameTok_ident (h e List.mem_cons_self)
    have h2 : nameTok (.word py"id") = some py"id" := by decide +kernel
    have h3 : literal (.str i) = some (some i) := rfl
    simp [commas, assignments, literal_valueTok, h1, h2, h3, isKw, show upper py"WHERE" = py"WHERE" from rfl]
  | e :: f :: es, _, h => by
    have ih := assignments_toks i (es := f :: es) (by simp) (fun x hx => h x (List.mem_cons_of_mem _ hx))
    have h1 := nameTok_ident (h e List.mem_cons_self)
    have he : ∀ r, commas ((e :: f :: es).map (fun e => [Tok.ident e.1, .sym '=', valueTok e.2])) ++ r =
        .ident e.1 :: .sym '=' :: valueTok e.2 :: .sym ',' :: (commas ((f :: es).map (fun e => [Tok.ident e.1, .sym '=', valueTok e.2])) ++ r) := by
      intro r
      simp [commas]
    rw [he, assignments]
    simp only [h1, literal_valueTok, if_true, ih]
    rfl

end Mygrations
