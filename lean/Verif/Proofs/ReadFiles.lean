import Verif.Proofs.ReadScript
import Verif.Proofs.ReadDeclare

/-! # Scripts and files are read as they are meant -/

namespace Mygrations

/-! ## Statements -/

/-- what reading a statement does -/
def StmtEff : Statement → ReaderState → ReaderState → Prop
  | .create t _, st, st' => ∃ t', SameTable t t' ∧ (t'.JustRead ∧ t'.noted = t.columns.map (fun e => (e.1, e.2.remarks .usual))) ∧ st' = { st with tables := st.tables.set t.name t' }
  | .declare d _, st, st' => ∃ t', SameTable d.table t' ∧ (t'.JustRead ∧ t'.noted = d.defs.filterMap Src.remarks?) ∧ st' = { st with tables := st.tables.set d.table.name t' }
  | .insert i _, st, st' => st' = { st with rows := st.rows.set i.table ((st.rows.get? i.table).getD [] ++ [i.meaning]) }
  | .comment _, st, st' => st' = st

/-- the item describes the statement -/
structure ItemOf (s : Statement) (i : Item) : Prop where
  is : i.is s.sql
  eff : ∀ {st st'}, i.eff st st' → StmtEff s st st'
  quiet : s.Quiet → i.quiet
  fussy : i.fussy → s.isCreate = true

/-- the statement as the parser lemmas have it -/
def TableDecl.stmt (d : TableDecl) : Stmt := ⟨d.name, d.first, d.others, d.options⟩

theorem TableDecl.stmt_ok {d : TableDecl} (h : d.Ok) : d.stmt.Ok :=
  ⟨h.name, h.plain, h.quiet, h.column, h.options, h.few, h.fewOptions⟩

theorem TableDecl.sql_text (d : TableDecl) (l : Layout) : d.sql l = d.stmt.text l [] := by
  unfold TableDecl.sql
  have h1 := join_defs l.sep [] (l.trail ++ (py")" ++ optTail d.options (py";" ++ []))) d.first d.others
  have h2 : ∀ (os : List TableOpt) (e : Str), os.flatMap (fun o => py" " ++ o.name ++ py"=" ++ o.value) ++ e = optTail os e := by
    intro os e
    induction os with
    | nil => rfl
    | cons o os ih => rw [List.flatMap_cons, List.append_assoc, ih]; simp [optTail]
  unfold TableDecl.text Stmt.text createText TableDecl.defs TableDecl.stmt
  rw [← h2] at h1 ⊢
  simp only [List.append_assoc, quoted, List.cons_append, List.nil_append, List.append_nil] at h1 ⊢
  rw [h1]

theorem exists_item {s : Statement} (h : s.Ok) : ∃ i, ItemOf s i := by
  cases s with
  | create t nice =>
    obtain ⟨x, hx, hn, ho, hd⟩ := Table.Readable.stmt h
    have hp : ∀ xs, AllRead (x.d :: x.ds) xs → ∃ t', createProcess (createVals x.name xs x.os) = .ok t' ∧ SameTable t t' ∧ t'.JustRead ∧
        t'.noted = t.columns.map (fun e => (e.1, e.2.remarks .usual)) := by
      intro xs hxs
      rw [← hd] at hxs
      rw [hn, ho]
      exact create_process h hxs
    refine ⟨createItem t _ x hx hp, ⟨layoutOf nice, layoutOf_ok nice, ?_⟩, fun h => h, fun _ => trivial, fun _ => rfl⟩
    have := renderCreate_text (Table.Readable.columns h) (Table.Readable.indexes h) hn ho hd nice []
    rwa [List.append_nil] at this
  | declare d l =>
    exact ⟨createItem d.table _ d.stmt (TableDecl.stmt_ok h.1) (fun xs hxs => declare_process h.1 hxs), ⟨l, h.2, d.sql_text l⟩, fun h => h, fun _ => trivial, fun _ => rfl⟩
  | insert i l =>
    obtain ⟨h1, h2, h3⟩ := h
    obtain ⟨r, rs, he⟩ := rows_split h1
    refine ⟨insertItem i h1 h3 r rs he, ⟨l, h2, ?_⟩, fun h => h, ?_, fun h => h.elim⟩
    · have := insert_sql i l he []
      rwa [List.append_nil] at this
    · rintro ⟨h4, h5⟩
      exact ⟨fun r hr c hc => ⟨(h4 r hr c hc).1, (h4 r hr c hc).2⟩, h5⟩
  | comment body =>
    exact ⟨commentItem (Statement.comment body).Quiet, ⟨body, h, fun hq => hq, rfl⟩, fun h => h, fun h => h, fun h => h.elim⟩

theorem Script.text {s : Str} {ss : List Statement} (h : Script s ss) (hok : ∀ x ∈ ss, x.Ok) : ∃ is, Paired ItemOf ss is ∧ Text s is := by
  induction h with
  | nil hg => exact ⟨[], .nil, .nil hg⟩
  | @cons g x more ss hg _ ih =>
    obtain ⟨is, h1, h2⟩ := ih (fun y hy => hok y (List.mem_cons_of_mem _ hy))
    obtain ⟨i, hi⟩ := exists_item (hok x List.mem_cons_self)
    rw [List.append_assoc]
    exact ⟨i :: is, .cons hi h1, .cons hg hi.is h2⟩

theorem items_pairwise {ss : List Statement} {is : List Item} (h : Paired ItemOf ss is) (hp : ss.Pairwise (fun a b => a.isCreate = true → b.Quiet)) :
    is.Pairwise (fun a b => a.fussy → b.quiet) := by
  induction h with
  | nil => exact .nil
  | @cons x i ss is hx hm ih =>
    rw [List.pairwise_cons] at hp ⊢
    refine ⟨?_, ih hp.2⟩
    have h1 := hp.1
    clear ih hp
    induction hm with
    | nil => intro j hj; cases hj
    | @cons y j ss is hy _ ih =>
      intro k hk
      rcases List.mem_cons.mp hk with rfl | hk
      · exact fun hf => hy.quiet (h1 y List.mem_cons_self (hx.fussy hf))
      · exact ih (fun z hz => h1 z (List.mem_cons_of_mem _ hz)) k hk

theorem Paired.length {A B : Type} {R : A → B → Prop} {a : List A} {b : List B} (h : Paired R a b) : a.length = b.length := by
  induction h with
  | nil => rfl
  | cons _ _ ih => simp [ih]

/-! ## What was read -/

/-- the last table of this name -/
def lastNamed (n : Str) (ts : List Table) : Option Table := (ts.filter (fun t => t.name = n)).getLast?

/-- the state of the reader after some statements -/
structure ReadAs (ss : List Statement) (st : ReaderState) : Prop where
  errors : st.globalErrors = []
  rowKeys : st.rows.keys.Nodup
  rows : ∀ n, st.rows.get? n = if insertsFor n ss = [] then none else some ((insertsFor n ss).map InsertStmt.meaning)
  tableKeys : st.tables.keys.Nodup
  names : ∀ n t, st.tables.get? n = some t → t.name = n
  tables : ∀ n, (lastNamed n (tablesOf ss) = none ∧ st.tables.get? n = none) ∨
    ∃ t t', lastNamed n (tablesOf ss) = some t ∧ st.tables.get? n = some t' ∧ SameTable t t' ∧ t'.JustRead
  order : ((tablesOf ss).map (·.name)).Nodup → Paired (fun (t : Table) e => e.1 = t.name ∧ SameTable t e.2 ∧ e.2.JustRead) (tablesOf ss) st.tables
  noted : ((tablesOf ss).map (·.name)).Nodup → st.tables.map (fun e => (e.1, e.2.noted)) = remarksOf ss

theorem readAs_nil : ReadAs [] {} :=
  ⟨rfl, List.nodup_nil, fun _ => rfl, List.nodup_nil, (fun _ _ h => (by cases h)), fun _ => Or.inl ⟨rfl, rfl⟩, fun _ => .nil, fun _ => rfl⟩

theorem paired_snoc {A B : Type} {R : A → B → Prop} {as : List A} {bs : List B} {a : A} {b : B} (h : Paired R as bs) (hab : R a b) : Paired R (as ++ [a]) (bs ++ [b]) := by
  induction h with
  | nil => exact .cons hab .nil
  | cons h _ ih => exact .cons h ih

theorem readAs_table {pre : List Statement} {st : ReaderState} {s : Statement} {t t' : Table} (h : ReadAs pre st) (h1 : tablesOf (pre ++ [s]) = tablesOf pre ++ [t])
    (h2 : ∀ n, insertsFor n (pre ++ [s]) = insertsFor n pre) (hs : SameTable t t') (hj : t'.JustRead)
    (h3 : remarksOf (pre ++ [s]) = remarksOf pre ++ [(t.name, t'.noted)]) :
    ReadAs (pre ++ [s]) { st with tables := st.tables.set t.name t' } := by
  have hln : ∀ n, lastNamed n (tablesOf pre ++ [t]) = if t.name = n then some t else lastNamed n (tablesOf pre) := by
    intro n
    by_cases hn : t.name = n <;> simp [lastNamed, hn]
  refine ⟨h.errors, h.rowKeys, by simpa only [h2] using h.rows, Dict.keys_set_nodup _ _ h.tableKeys, ?_, ?_, ?_, ?_⟩
  · intro n u hu
    simp only [Dict.get?_set] at hu
    split at hu
    · rename_i he
      cases hu
      rw [hs.name]
      exact he
    · exact h.names n u hu
  · intro n
    rw [h1, hln]
    simp only [Dict.get?_set]
    by_cases hn : t.name = n
    · subst hn
      exact Or.inr ⟨t, t', by simp, by simp, hs, hj⟩
    · have : ¬ n = t.name := fun e => hn e.symm
      have := h.tables n
      simpa [hn, *] using this
  · intro hnd
    rw [h1] at hnd ⊢
    rw [List.map_append, List.nodup_append] at hnd
    have hp := h.order hnd.1
    have hnot : t.name ∉ Dict.keys st.tables := by
      rw [hp.keys.1]
      intro hm
      exact hnd.2.2 _ hm t.name (by simp) rfl
    rw [Dict.set_of_not_mem _ hnot]
    exact paired_snoc hp ⟨rfl, hs, hj⟩
  · intro hnd
    rw [h1] at hnd
    rw [List.map_append, List.nodup_append] at hnd
    have hp := h.order hnd.1
    have hnot : t.name ∉ Dict.keys st.tables := by
      rw [hp.keys.1]
      intro hm
      exact hnd.2.2 _ hm t.name (by simp) rfl
    simp only [Dict.set_of_not_mem _ hnot]
    rw [List.map_append, h.noted hnd.1, h3]
    rfl

theorem readAs_step {pre : List Statement} {st st' : ReaderState} {s : Statement} (h : ReadAs pre st) (he : StmtEff s st st') : ReadAs (pre ++ [s]) st' := by
  cases s with
  | comment body =>
    cases he
    have h1 : tablesOf (pre ++ [.comment body]) = tablesOf pre := by simp [tablesOf]
    have h2 : ∀ n, insertsFor n (pre ++ [.comment body]) = insertsFor n pre := by intro n; simp [insertsFor, insertsOf]
    exact ⟨h.errors, h.rowKeys, by simpa only [h2] using h.rows, h.tableKeys, h.names, by simpa only [h1] using h.tables, by simpa only [h1] using h.order, fun hnd => by
      rw [h1] at hnd
      rw [h.noted hnd]
      simp [remarksOf, Statement.remarks?]⟩
  | insert i l =>
    cases he
    have h1 : tablesOf (pre ++ [.insert i l]) = tablesOf pre := by simp [tablesOf]
    refine ⟨h.errors, Dict.keys_set_nodup _ _ h.rowKeys, ?_, h.tableKeys, h.names, by simpa only [h1] using h.tables, by simpa only [h1] using h.order, fun hnd => by
      rw [h1] at hnd
      rw [h.noted hnd]
      simp [remarksOf, Statement.remarks?]⟩
    intro n
    have h2 : insertsFor n (pre ++ [.insert i l]) = insertsFor n pre ++ (if i.table = n then [i] else []) := by
      by_cases hn : i.table = n <;> simp [insertsFor, insertsOf, hn]
    rw [h2]
    simp only [Dict.get?_set, h.rows]
    by_cases hn : i.table = n
    · subst hn
      by_cases hz : insertsFor i.table pre = []
      · simp [hz]
      · simp [hz]
    · simp [hn]
  | create t nice =>
    obtain ⟨t', hs, ⟨hj, hw⟩, rfl⟩ := he
    exact readAs_table h (by simp [tablesOf]) (fun n => by simp [insertsFor, insertsOf]) hs hj (by rw [hw]; simp [remarksOf, Statement.remarks?, TableDecl.table])
  | declare d l =>
    obtain ⟨t', hs, ⟨hj, hw⟩, rfl⟩ := he
    exact readAs_table h (by simp [tablesOf]) (fun n => by simp [insertsFor, insertsOf]) hs hj (by rw [hw]; simp [remarksOf, Statement.remarks?, TableDecl.table])

theorem readAs_effects : ∀ {is : List Item} {ss pre : List Statement} {st st' : ReaderState}, Paired ItemOf ss is → Effects is st st' → ReadAs pre st →
    ReadAs (pre ++ ss) st'
  | _, _, pre, _, _, .nil, .nil, h => by simpa using h
  | _, _, pre, _, _, .cons (a := s) hi hp, .cons he hr, h => by
    have h1 := readAs_step h (hi.eff he)
    have h2 := readAs_effects hp hr h1
    simpa using h2

/-! ## Comments at the start -/

theorem readLoop_strip (n : Nat) (st : ReaderState) {s : Str} (h : strip s ≠ []) : readLoop n st (strip s) = readLoop n st s := by
  have hs : s ≠ [] := by rintro rfl; exact h rfl
  cases n with
  | zero => rw [readLoop_zero st h, readLoop_zero st hs]
  | succ n => rw [readLoop_succ n st h, readLoop_succ n st hs, strip_strip]

theorem dropWhile_line {body : Str} (h : '\n' ∉ body) (r : Str) : (body ++ '\n' :: r).dropWhile (· ≠ '\n') = '\n' :: r := by
  induction body with
  | nil => simp
  | cons c cs ih =>
    rw [List.mem_cons, not_or] at h
    have : c ≠ '\n' := fun e => h.1 e.symm
    rw [List.cons_append, List.dropWhile_cons, if_pos (by simpa using this), ih h.2]

theorem dropWhile_noline {body : Str} (h : '\n' ∉ body) : body.dropWhile (· ≠ '\n') = [] := by
  induction body with
  | nil => simp
  | cons c cs ih =>
    rw [List.mem_cons, not_or] at h
    have : c ≠ '\n' := fun e => h.1 e.symm
    rw [List.dropWhile_cons, if_pos (by simpa using this), ih h.2]

theorem mem_rstrip {c : Char} : ∀ {s : Str}, c ∈ rstrip s → c ∈ s
  | [], h => by cases h
  | d :: s, h => by
    rw [rstrip_cons] at h
    split at h
    · cases h
    · rcases List.mem_cons.mp h with rfl | h
      · exact List.mem_cons_self
      · exact List.mem_cons_of_mem _ (mem_rstrip h)

/-- stripping a text with a line break -/
theorem rstrip_line (x r : Str) : (strip r = [] ∧ rstrip (x ++ '\n' :: r) = rstrip x) ∨ (strip r ≠ [] ∧ rstrip (x ++ '\n' :: r) = x ++ '\n' :: rstrip r) := by
  induction x with
  | nil =>
    by_cases hr : rstrip r = []
    · left
      refine ⟨by rw [← strip_rstrip, hr]; rfl, ?_⟩
      rw [List.nil_append, rstrip_cons, if_pos ⟨hr, by decide⟩]; rfl
    · right
      refine ⟨?_, ?_⟩
      · intro h
        apply hr
        have h2 : ∀ {r : Str}, strip r = [] → rstrip r = [] := by
          intro r
          induction r with
          | nil => intro _; rfl
          | cons c r ih =>
            intro h
            by_cases hc : isSpace c = true
            · rw [strip_cons_space hc] at h
              rw [rstrip_cons, if_pos ⟨ih h, hc⟩]
            · rw [strip_cons_char (by simpa using hc)] at h
              exact h
        exact h2 h
      · rw [List.nil_append, rstrip_cons, if_neg (by simp [hr])]; rfl
  | cons c x ih =>
    rcases ih with ⟨h1, h2⟩ | ⟨h1, h2⟩
    · left
      refine ⟨h1, ?_⟩
      rw [List.cons_append, rstrip_cons, h2, ← rstrip_cons]
    · right
      refine ⟨h1, ?_⟩
      rw [List.cons_append, rstrip_cons, h2, if_neg (by simp)]
      rfl

theorem parse_line {start body : Str} (hs : start = py"#" ∨ start = py"--") (hb : '\n' ∉ body) (r : Str) :
    parseComment (strip (start ++ body ++ '\n' :: r)) = strip r ∧ strip (start ++ body ++ '\n' :: r) ≠ [] ∧ startsComment (strip (start ++ body ++ '\n' :: r)) = true := by
  have hb' : '\n' ∉ start ++ body := by
    rcases hs with rfl | rfl <;> simp [hb]
  have hhead : ∃ c cs, start = c :: cs ∧ isSpace c = false := by
    rcases hs with rfl | rfl
    · exact ⟨_, _, rfl, by decide⟩
    · exact ⟨_, _, rfl, by decide⟩
  obtain ⟨c, cs, hc, hsp⟩ := hhead
  have hstrip : strip (start ++ body ++ '\n' :: r) = rstrip (start ++ body ++ '\n' :: r) := by
    rw [hc]; exact strip_cons_char hsp _
  have hrt : RTrim start := by rcases hs with rfl | rfl <;> rfl
  have hst : ∀ x : Str, strip (start ++ x) = start ++ rstrip x := by
    intro x
    rw [← rstrip_append hrt, hc]; exact strip_cons_char hsp _
  have hcom : ∀ x : Str, (start ++ x).head? = some '#' ∨ (start ++ x).take 2 = py"--" := by
    intro x; rcases hs with rfl | rfl
    · exact Or.inl rfl
    · exact Or.inr rfl
  have hstart : ∀ x : Str, startsComment (start ++ x) = true := by
    intro x; rcases hs with rfl | rfl
    · simp [startsComment]
    · simp [startsComment]
  have hne : ∀ x : Str, start ++ x ≠ [] := by intro x; rw [hc]; simp
  have key : ∀ x : Str, strip (start ++ x) = start ++ x → parseComment (start ++ x) = match (start ++ x).dropWhile (· ≠ '\n') with | [] => [] | _ :: rest => strip rest := by
    intro x hx
    unfold parseComment
    simp only [hx]
    rw [if_pos (hcom x)]
    rfl
  rcases rstrip_line (start ++ body) r with ⟨h1, h2⟩ | ⟨h1, h2⟩
  · rw [hstrip, h2, rstrip_append hrt, h1]
    refine ⟨?_, hne _, hstart _⟩
    rw [key _ (by rw [hst, rstrip_rstrip]), ← rstrip_append hrt, dropWhile_noline (fun hm => hb' (mem_rstrip hm))]
  · rw [hstrip, h2, List.append_assoc]
    refine ⟨?_, hne _, hstart _⟩
    have hx : strip (start ++ (body ++ '\n' :: rstrip r)) = start ++ (body ++ '\n' :: rstrip r) := by
      rw [← List.append_assoc, ← h2, ← hstrip, strip_strip]
    rw [key _ hx, ← List.append_assoc, dropWhile_line hb']
    exact strip_rstrip r

theorem parse_block {body : Str} (hb : ¬ py"*/" <:+: py"*" ++ body) (r : Str) :
    parseComment (strip (py"/*" ++ body ++ py"*/" ++ r)) = strip r ∧ strip (py"/*" ++ body ++ py"*/" ++ r) ≠ [] ∧ startsComment (strip (py"/*" ++ body ++ py"*/" ++ r)) = true := by
  have hs : strip (py"/*" ++ body ++ py"*/" ++ r) = py"/*" ++ body ++ py"*/" ++ rstrip r := by
    have e1 : py"/*" ++ body ++ py"*/" ++ r = '/' :: (py"*" ++ body ++ py"*/" ++ r) := rfl
    rw [e1, strip_cons_char (by decide), ← e1, rstrip_append (rtrim_append (by rfl) (by simp))]
  rw [hs]
  refine ⟨?_, by simp, rfl⟩
  unfold parseComment
  have hs' : strip (py"/*" ++ body ++ py"*/" ++ rstrip r) = py"/*" ++ body ++ py"*/" ++ rstrip r := by rw [← hs, strip_strip]
  simp only [hs']
  have h2 : ¬ ((py"/*" ++ body ++ py"*/" ++ rstrip r).head? = some '#' ∨ (py"/*" ++ body ++ py"*/" ++ rstrip r).take 2 = py"--") := by
    rintro (h | h)
    · cases h
    · cases h
  rw [if_neg h2, comment_close hb]
  exact strip_rstrip r

theorem header_read {k : Nat} {h : Str} (hh : Header k h) : ∀ (n : Nat) (st : ReaderState) (rest : Str),
    readLoop (n + k) st (h ++ rest) = readLoop n st (if k = 0 then rest else strip rest) := by
  have step : ∀ {s x h : Str} {n k : Nat} {st : ReaderState} {rest : Str}, strip s = x → x ≠ [] → startsComment x = true → parseComment x = strip (h ++ rest) →
      (k = 0 → h = []) → (0 < k → strip (h ++ rest) ≠ []) → readLoop (n + k) st (h ++ rest) = readLoop n st (if k = 0 then rest else strip rest) →
      readLoop (n + (k + 1)) st s = readLoop n st (strip rest) := by
    intro s x h n k st rest h1 h2 h3 h4 h5 h6 ih
    rw [show n + (k + 1) = (n + k) + 1 from rfl, readLoop_comment _ _ h1 h2 h3, h4]
    by_cases hk : k = 0
    · subst hk
      rw [h5 rfl]
      rfl
    · rw [readLoop_strip _ _ (h6 (by omega)), ih, if_neg hk]
  have hzero : ∀ {k : Nat} {h : Str}, Header k h → k = 0 → h = [] := by
    intro k h hh hk
    cases hh with
    | nil => rfl
    | line => omega
    | block => omega
  have hpos : ∀ {k : Nat} {h : Str}, Header k h → 0 < k → ∀ rest : Str, strip (h ++ rest) ≠ [] := by
    intro k h hh hk rest
    cases hh with
    | nil => omega
    | @line g start body more n hg hs hb _ =>
      have e : g ++ start ++ body ++ py"\n" ++ more ++ rest = g ++ (start ++ body ++ '\n' :: (more ++ rest)) := by simp
      rw [e, strip_blanks hg]
      exact (parse_line hs hb _).2.1
    | @block g body more n hg hb _ =>
      have e : g ++ py"/*" ++ body ++ py"*/" ++ more ++ rest = g ++ (py"/*" ++ body ++ py"*/" ++ (more ++ rest)) := by simp
      rw [e, strip_blanks hg]
      exact (parse_block hb _).2.1
  induction hh with
  | nil => intro n st rest; simp
  | @line g start body more k hg hs hb hm ih =>
    intro n st rest
    have e : g ++ start ++ body ++ py"\n" ++ more ++ rest = g ++ (start ++ body ++ '\n' :: (more ++ rest)) := by simp
    obtain ⟨h1, h2, h3⟩ := parse_line hs hb (more ++ rest)
    rw [if_neg (Nat.succ_ne_zero k), e]
    exact step (strip_blanks hg _) h2 h3 h1 (hzero hm) (fun hk => hpos hm hk rest) (ih n st rest)
  | @block g body more k hg hb hm ih =>
    intro n st rest
    have e : g ++ py"/*" ++ body ++ py"*/" ++ more ++ rest = g ++ (py"/*" ++ body ++ py"*/" ++ (more ++ rest)) := by simp
    obtain ⟨h1, h2, h3⟩ := parse_block hb (more ++ rest)
    rw [if_neg (Nat.succ_ne_zero k), e]
    exact step (strip_blanks hg _) h2 h3 h1 (hzero hm) (fun hk => hpos hm hk rest) (ih n st rest)

/-! ## Files -/

/-- a file is read as it is meant -/
theorem file_read {s : Str} {ss : List Statement} (h : SourceFile s ss) (hr : Readable ss) : ∃ st, readSource s = (st, none) ∧ ReadAs ss st := by
  obtain ⟨k, hd, body, rfl, hh, hsc, hlen, hne⟩ := h
  obtain ⟨is, h1, h2⟩ := hsc.text hr.ok
  have hl := h1.length
  have hfuel : 10000 = (10000 - k - is.length + is.length) + k := by omega
  have main : ∀ b : Str, Text b is → (is = [] → b = []) → readLoop 10000 {} (hd ++ body) = readLoop (10000 - k - is.length + is.length) {} b →
      ∃ st, readSource (hd ++ body) = (st, none) ∧ ReadAs ss st := by
    intro b hb hnil heq
    obtain ⟨st', he, hloop⟩ := Text.loop is b (10000 - k - is.length) {} hb hnil (items_pairwise h1 hr.quiet)
    refine ⟨st', by unfold readSource; rw [heq, hloop], ?_⟩
    have := readAs_effects h1 he readAs_nil
    simpa using this
  have hrd := header_read hh (10000 - k - is.length + is.length) {} body
  rw [← hfuel] at hrd
  by_cases hk : k = 0
  · rw [if_pos hk] at hrd
    refine main body h2 ?_ hrd
    intro hi
    have hz : hd ++ body = [] := hne (by rw [hk, hl, hi]; rfl)
    exact (List.append_eq_nil_iff.mp hz).2
  · rw [if_neg hk] at hrd
    refine main (strip body) h2.strip ?_ hrd
    intro hi
    rw [hi] at h2
    exact h2.nothing

end Mygrations
