import Verif.Proofs.ReadFiles
import Verif.Proofs.Run
import Verif.Spec.Live

/-! # A `CREATE TABLE` without its closing semicolon is read as well -/

namespace Mygrations

/-- what the rules of a `CREATE TABLE` without a semicolon leave behind -/
def endVals (name : Str) (xs : List Definition) (os : List TableOpt) : Dict (TVal CreateNode) :=
  openVals name xs ++ (if os = [] then [] else [(py"table_options", .nodes (os.map .option))])

theorem create_end {name lead sep trail : Str} {d : Src} {ds : List Src} {os : List TableOpt} {s : Str} (hn : Ident name) (hl : Gap lead) (hs : Gap sep)
    (ht : Gap trail) (hd : ∀ x ∈ d :: ds, x.Plain) (ho : ∀ o ∈ os, o.Ok) (hnd : ds.length + 1 < 1000) (hno : os.length < 1000)
    (htext : normalize s = openText name lead sep trail d ds os []) :
    ∃ xs, AllRead (d :: ds) xs ∧ topParse createRules s = .ok ⟨true, endVals name xs os, []⟩ := by
  obtain ⟨xs, hxs, hopen⟩ := create_open hn hl hs ht hd ho (e := []) rfl hnd htext
  refine ⟨xs, hxs, ?_⟩
  rw [hopen]
  have hoploop := options_loop (e := []) (by simp) rfl os (1000 - os.length) [] ho
  rw [show 1000 - os.length + os.length = 1000 by omega] at hoploop
  have hend : ∀ done, childrenLoop [tableOption.map CreateNode.option] (1000 - os.length) (strip []) done = .ok (some (done, [])) := by
    intro done
    cases 1000 - os.length <;> rfl
  rw [hend] at hoploop
  cases hos : os with
  | nil => rfl
  | cons o os' =>
    have hflat : flat true (o.name ++ py"=" ++ o.value ++ optTail os' []) = true := by
      rw [flat_append (option_flat (ho o (by rw [hos]; exact List.mem_cons_self)))]
      exact optTail_flat rfl (fun x hx => ho x (by rw [hos]; exact List.mem_cons_of_mem _ hx))
    have hne : strip (optTail (o :: os') []) ≠ [] := by
      show strip (' ' :: (o.name ++ py"=" ++ o.value ++ optTail os' [])) ≠ []
      rw [strip_space hflat]; simp
    rw [if_neg hne, ← hos]
    have r7 : optionsRule.kind.parse (strip (optTail os [])) = .ok (some (.nodes (os.map .option), [])) := by
      have : childrenParse [tableOption.map CreateNode.option] (strip (optTail os [])) = .ok (some (os.map .option, [])) := hoploop
      simp only [optionsRule, TopKind.parse, this]
    rw [run_end (r := optionsRule) r7]
    rw [endVals, if_neg (by simp [hos])]
    rfl

/-- the text of a statement without its semicolon -/
def Stmt.openText (s : Stmt) (l : Layout) : Str := Mygrations.openText s.name l.lead l.sep l.trail s.d s.ds s.os []

theorem Stmt.openText_head (s : Stmt) (l : Layout) : ∃ cs, s.openText l = 'C' :: cs := ⟨_, rfl⟩

theorem tame_openText {name lead sep trail : Str} {d : Src} {ds : List Src} {os : List TableOpt} (hn : Ident name) (hl : ∀ c ∈ lead, isSpace c = true)
    (hs : ∀ c ∈ sep, isSpace c = true) (ht : ∀ c ∈ trail, isSpace c = true) (hd : ∀ x ∈ d :: ds, x.Plain) (hq : ∀ x ∈ d :: ds, x.Quiet) (ho : ∀ o ∈ os, o.Plain) :
    Tame (Mygrations.openText name lead sep trail d ds os []) := by
  have h1 : Tame (optTail os []) := tame_optTail tame_nil ho
  have h2 : Tame (trail ++ (py")" ++ optTail os [])) := tame_dull (fun c hc => blank_dull (ht c hc)) (tame_dull (by decide) h1)
  have h3 := tame_defTail hs h2 (fun x hx => hd x (List.mem_cons_of_mem _ hx)) (fun x hx => hq x (List.mem_cons_of_mem _ hx))
  have h4 := tame_sep (hd d List.mem_cons_self) (hq d List.mem_cons_self) (c := '(') (Or.inl rfl) hl h3
  exact tame_dull (by decide) (tame_cons (by decide) (tame_dull (quoted_dull hn) (tame_cons (by decide) h4)))

theorem Stmt.trimmed_open {s : Stmt} (h : s.Ok) {l : Layout} (hl : l.Ok) : trimmed (s.openText l) = s.openText l.squeeze := by
  have h2 := trimmed_optTail (e := []) (e' := []) rfl (fun o ho => (h.options o ho).ok)
  have h3 : trimmed (l.trail ++ (py")" ++ optTail s.os [])) = l.squeeze.trail ++ (py")" ++ optTail s.os []) := by
    have := trimmed_blanks hl.trail (d := ')') (by decide) (optTail s.os [])
    refine this.trans ?_
    have h4 : trimmed (py")" ++ optTail s.os []) = _ := trimmed_append (by decide) _
    rw [h2] at h4
    show Mygrations.squeeze l.trail ++ trimmed (py")" ++ optTail s.os []) = _
    rw [h4]
    rfl
  have h4 := trimmed_defTail hl.sep h3 (fun x hx => h.plain x (List.mem_cons_of_mem _ hx))
  have h5 := trimmed_src hl.lead (h.plain s.d List.mem_cons_self) (defTail l.sep s.ds (l.trail ++ (py")" ++ optTail s.os [])))
  rw [h4] at h5
  have e1 : s.openText l = (py"CREATE TABLE" ++ ' ' :: (quoted '`' s.name ++ ' ' :: py"(")) ++
      (l.lead ++ (s.d.render ++ defTail l.sep s.ds (l.trail ++ (py")" ++ optTail s.os [])))) := by
    simp [Stmt.openText, Mygrations.openText]
  rw [e1, trimmed_append (create_head_flat h.name), h5]
  simp [Stmt.openText, Mygrations.openText, Layout.squeeze]

theorem Stmt.read_open {x : Stmt} (hx : x.Ok) {l : Layout} (hl : l.Ok) :
    ∃ xs, AllRead (x.d :: x.ds) xs ∧ topParse createRules (cleanCreate (x.openText l)) = .ok ⟨true, endVals x.name xs x.os, []⟩ := by
  have hclean := (tame_openText hx.name hl.lead hl.sep hl.trail hx.plain hx.quiet hx.options).clean
  have hnorm : normalize (x.openText l) = x.openText l.squeeze := by
    rw [← Stmt.trimmed_open hx hl]
    obtain ⟨cs, hcs⟩ := x.openText_head l
    rw [hcs, normalize_lead (by decide)]
    exact (trimmed_append (a := ['C']) (by decide) cs).symm
  obtain ⟨xs, hxs, hp⟩ := create_end hx.name (squeeze_gap l.lead) (squeeze_gap l.sep) (squeeze_gap l.trail) hx.plain (fun o ho => (hx.options o ho).ok)
    hx.few hx.fewOptions hnorm
  refine ⟨xs, hxs, ?_⟩
  rw [show cleanCreate (x.openText l) = x.openText l from hclean]
  exact hp

theorem declare_end {d : TableDecl} {xs : List Definition} (h : d.Ok) (hxs : AllRead d.defs xs) :
    ∃ t', createProcess (endVals d.name xs d.options) = .ok { t' with globalErrors := [py"Missing ending semicolon for table " ++ d.name] } ∧
      SameTable d.table t' ∧ t'.JustRead := by
  have hdefs : (topNodes (endVals d.name xs d.options) py"definitions").filterMap CreateNode.toDefinition = xs := by
    have : topNodes (endVals d.name xs d.options) py"definitions" = xs.map .definition := rfl
    rw [this, filterMap_definitions]
  have hopts : (topNodes (endVals d.name xs d.options) py"table_options").filterMap CreateNode.toOption = d.options := by
    unfold endVals
    split
    · rename_i ho; rw [ho]; rfl
    · exact filterMap_options d.options
  have hname : stripTicks (topText (endVals d.name xs d.options) py"name") = d.name := quoted_strip h.name
  have hsemi : Dict.has (endVals d.name xs d.options) py"closing_semicolon" = false := by
    unfold endVals
    split <;> rfl
  obtain ⟨t', h1, h2, h3⟩ := add_all (name := d.name) hxs h.plain h.columnNames h.indexNames h.constraintNames d.defs xs []
    { name := d.name, options := d.options.filter (fun o => o.name ≠ py"AUTO_INCREMENT") } hxs rfl
    ⟨rfl, .nil, (fun e he => by cases he), rfl, .nil, .nil, rfl, rfl, rfl, rfl⟩
  refine ⟨t', ?_, ⟨h2.named, h2.columns, h2.indexes, h2.constraints, h3⟩, ⟨h2.errors, h2.rows, h2.tracking, fun e he => (h2.usual e he).1, fun e he => (h2.usual e he).2⟩⟩
  unfold createProcess
  simp only [hdefs, hopts, hname, hsemi, Bool.false_eq_true, if_false]
  rw [h1]
  simp only [h2.errors, h2.named, List.nil_append]

theorem TableDecl.text_open (d : TableDecl) (l : Layout) : d.text l = d.stmt.openText l := by
  have h1 := join_defs l.sep [] (l.trail ++ (py")" ++ optTail d.options [])) d.first d.others
  have h2 : ∀ (os : List TableOpt) (e : Str), os.flatMap (fun o => py" " ++ o.name ++ py"=" ++ o.value) ++ e = optTail os e := by
    intro os e
    induction os with
    | nil => rfl
    | cons o os ih => rw [List.flatMap_cons, List.append_assoc, ih]; simp [optTail]
  unfold TableDecl.text Stmt.openText Mygrations.openText TableDecl.defs TableDecl.stmt
  rw [← h2] at h1 ⊢
  simp only [List.append_assoc, quoted, List.cons_append, List.nil_append, List.append_nil] at h1 ⊢
  rw [h1]

theorem opts_last : ∀ {os : List TableOpt} (a : Str) (x : Char), isSpace x = false → (∀ o ∈ os, o.Plain) →
    ∃ b y, isSpace y = false ∧ (a ++ [x]) ++ optTail os [] = b ++ [y]
  | [], a, x, hx, _ => ⟨a, x, hx, by simp [optTail]⟩
  | o :: os, a, x, hx, h => by
    have ho := (h o List.mem_cons_self).ok.value
    obtain ⟨v, y, hv⟩ : ∃ v y, o.value = v ++ [y] := ⟨o.value.dropLast, o.value.getLast ho.1, (List.dropLast_concat_getLast ho.1).symm⟩
    have hy : isSpace y = false := (ho.2 y (by rw [hv]; simp)).1
    obtain ⟨b, z, hz, hb⟩ := opts_last (a ++ [x] ++ ' ' :: (o.name ++ py"=" ++ v)) y hy (fun q hq => h q (List.mem_cons_of_mem _ hq))
    refine ⟨b, z, hz, ?_⟩
    rw [← hb]
    simp [optTail, hv]

theorem defTail_last (sep : Str) : ∀ (ds : List Src) (a : Str), ∃ b, ∀ e, defTail sep ds (a ++ e) = b ++ e
  | [], a => ⟨a, fun _ => rfl⟩
  | d :: ds, a => by
    obtain ⟨b, hb⟩ := defTail_last sep ds a
    exact ⟨_, fun e => by rw [defTail, hb, ← List.append_assoc]⟩

theorem Stmt.strip_open {s : Stmt} (h : s.Ok) (l : Layout) : strip (s.openText l) = s.openText l := by
  obtain ⟨b, y, hy, hb⟩ := opts_last [] ')' (by decide) h.options
  obtain ⟨a, ha⟩ := defTail_last l.sep s.ds l.trail
  have e : s.openText l = (py"CREATE TABLE" ++ ' ' :: (quoted '`' s.name ++ ' ' :: (py"(" ++ (l.lead ++ (s.d.render ++ (a ++ b)))))) ++ [y] := by
    unfold Stmt.openText Mygrations.openText
    have : py")" ++ optTail s.os [] = b ++ [y] := hb
    rw [this, ha]
    simp
  obtain ⟨cs, hcs⟩ := s.openText_head l
  rw [hcs, strip_cons_char (by decide), ← hcs, e]
  simp [Mygrations.rstrip, hy]

/-- an answer of the server is read as the table -/
theorem answer_read {d : TableDecl} (h : d.Ok) {l : Layout} (hl : l.Ok) :
    ∃ t, SameTable d.table t ∧ t.rows = none ∧ t.tracking = false ∧ (∀ e ∈ t.columns, e.2.UsualLength) ∧
      readSource (d.text l) = ({ tables := [(d.name, t)] }, none) := by
  obtain ⟨xs, hxs, hparse⟩ := Stmt.read_open (TableDecl.stmt_ok h) hl
  obtain ⟨t, hproc, hsame, hread⟩ := declare_end h hxs
  refine ⟨{ t with globalErrors := [py"Missing ending semicolon for table " ++ d.name] },
    ⟨hsame.name, hsame.columns, hsame.indexes, hsame.constraints, hsame.options⟩, hread.noRows, hread.untracked, hread.lengths, ?_⟩
  rw [d.text_open]
  have hpc : parseCreate (d.stmt.openText l) = .ok ({ t with globalErrors := [py"Missing ending semicolon for table " ++ d.name] }, []) := by
    unfold parseCreate
    rw [hparse]
    simp only [if_true]
    rw [show d.stmt.name = d.name from rfl, show d.stmt.os = d.options from rfl, hproc]
  unfold readSource
  rw [readLoop_create 9999 {} (Stmt.strip_open (TableDecl.stmt_ok h) l) (by obtain ⟨cs, hcs⟩ := d.stmt.openText_head l; rw [hcs]; simp) rfl
    (by show lower (py"CREATE") = py"create"; decide) hpc, readLoop_nil]
  simp only [hsame.name]
  rfl

/-- a table which was read from the server -/
structure ReadLive (d : TableDecl) (e : Str × Table) : Prop where
  key : e.1 = d.name
  same : SameTable d.table e.2
  rows : e.2.rows = none
  tracking : e.2.tracking = false
  lengths : ∀ c ∈ e.2.columns, c.2.UsualLength

theorem load_read : ∀ (ds : List TableDecl) (texts : List Str) (db : Database), (∀ d ∈ ds, d.Ok) →
    Paired (fun (d : TableDecl) text => ∃ l : Layout, l.Ok ∧ text = d.text l) ds texts → (Dict.keys db.tables ++ ds.map (·.name)).Nodup →
    ∃ new, Paired ReadLive ds new ∧ LiveDatabase.loadTables db texts = .ok { db with tables := db.tables ++ new }
  | [], [], db, _, .nil, _ => ⟨[], .nil, by simp [LiveDatabase.loadTables]⟩
  | d :: ds, text :: texts, db, hok, .cons hx hr, hn => by
    obtain ⟨l, hl, rfl⟩ := hx
    obtain ⟨t, h1, h2, h3, h4, h5⟩ := answer_read (hok d List.mem_cons_self) hl
    have hname : t.name = d.name := h1.name
    have hnot : d.name ∉ Dict.keys db.tables := by
      intro hm
      rw [List.nodup_append] at hn
      exact hn.2.2 _ hm d.name (by simp) rfl
    have h0 : Dict.has db.tables t.name = false := Dict.has_eq_false.mpr (by rw [hname]; exact hnot)
    obtain ⟨new, h6, h7⟩ := load_read ds texts { db with tables := db.tables ++ [(d.name, t)] } (fun x hx => hok x (List.mem_cons_of_mem _ hx)) hr
      (by simpa [Dict.keys] using hn)
    refine ⟨(d.name, t) :: new, .cons ⟨rfl, h1, h2, h3, h4⟩ h6, ?_⟩
    have hst : LiveDatabase.storeTables db (Dict.values [(d.name, t)]) = { db with tables := db.tables ++ [(d.name, t)] } := by
      show LiveDatabase.storeTables db [t] = _
      simp only [LiveDatabase.storeTables, h0, Bool.false_eq_true, if_false]
      rw [hname, Dict.set_of_not_mem _ hnot]
    simp only [LiveDatabase.loadTables, h5, Option.filter_none]
    rw [hst, h7]
    simp

/-- the live database has the tables of the server -/
theorem live_read {srv : Server} {ds : List TableDecl} (h : srv.Has ds) :
    ∃ new, Paired ReadLive ds new ∧ (LiveDatabase.new srv).result = .ok { tables := new } := by
  have hans : ∃ ts : Dict Str, Paired (fun (d : TableDecl) (e : Str × Str) => e.1 = d.name ∧ (∃ l : Layout, l.Ok ∧ e.2 = d.text l) ∧
      srv.createText e.1 = .ok (some e.2)) ds ts := by
    have h1 := h.answers
    clear h
    induction ds with
    | nil => exact ⟨[], .nil⟩
    | cons d ds ih =>
      obtain ⟨ts, hts⟩ := ih (fun x hx => h1 x (List.mem_cons_of_mem _ hx))
      obtain ⟨l, hl, ha⟩ := h1 d List.mem_cons_self
      exact ⟨(d.name, d.text l) :: ts, .cons ⟨rfl, ⟨l, hl, rfl⟩, ha⟩ hts⟩
  obtain ⟨ts, hts⟩ := hans
  have hkeys : Dict.keys ts = ds.map (·.name) := by
    clear h
    induction hts with
    | nil => rfl
    | cons hx _ ih => simp [hx.1, ih]
  have hmem : ∀ e ∈ ts, srv.createText e.1 = .ok (some e.2) := by
    clear h hkeys
    induction hts with
    | nil => intro e he; cases he
    | cons hx _ ih =>
      intro e he
      rcases List.mem_cons.mp he with rfl | he
      · exact hx.2.2
      · exact ih e he
  have hvals : Paired (fun (d : TableDecl) text => ∃ l : Layout, l.Ok ∧ text = d.text l) ds (Dict.values ts) := by
    clear h hkeys hmem
    induction hts with
    | nil => exact .nil
    | cons hx _ ih => exact .cons hx.2.1 ih
  have htab : (Driver.tables srv).result = .ok ts := by
    unfold Driver.tables
    rw [Run.bind_ok (a := ()) rfl]
    exact (Driver.showCreates_result srv _ ts).mpr ⟨by rw [hkeys, h.names], fun n text hm => hmem (n, text) hm⟩
  obtain ⟨new, h1, h2⟩ := load_read ds (Dict.values ts) {} h.ok hvals (by simpa [Dict.keys] using h.distinct)
  refine ⟨new, h1, ?_⟩
  unfold LiveDatabase.new
  rw [Run.bind_ok htab]
  show LiveDatabase.loadTables {} (Dict.values ts) = _
  rw [h2]
  simp

end Mygrations
