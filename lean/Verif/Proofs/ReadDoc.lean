import Verif.Proofs.ReadClean
import Verif.Proofs.ReadLoop

/-! # The text of a schema is read table by table -/

namespace Mygrations

/-- blanks -/
def Blanks (s : Str) : Prop := ∀ c ∈ s, isSpace c = true

/-- blanks, normalised -/
def squeeze (g : Str) : Str := if g.isEmpty then [] else py" "

theorem squeeze_gap (g : Str) : Gap (squeeze g) := by
  unfold squeeze Gap
  split <;> simp

theorem Gap.blanks {g : Str} (h : Gap g) : Blanks g := by
  rcases h with rfl | rfl
  · intro c hc; cases hc
  · intro c hc; simp at hc; subst hc; decide

theorem Blanks.rstrip {g : Str} (h : Blanks g) : rstrip g = [] := by
  unfold Mygrations.rstrip
  have : List.dropWhile isSpace g.reverse = [] := by
    have : ∀ l : Str, (∀ c ∈ l, isSpace c = true) → List.dropWhile isSpace l = [] := by
      intro l
      induction l with
      | nil => intro _; rfl
      | cons x xs ih => intro hl; simp [hl x List.mem_cons_self, ih (fun c hc => hl c (List.mem_cons_of_mem _ hc))]
    exact this _ (fun c hc => h c (by simpa using hc))
  rw [this]; rfl

/-! ## Normalisation -/

/-- the normalisation of a text which follows another -/
def trimmed (s : Str) : Str := rstrip (collapse s)

theorem trimmed_append {a : Str} (h : flat true a = true) (c : Str) : trimmed (a ++ c) = a ++ trimmed c := by
  unfold trimmed collapse
  rw [collapseAux_append (flat_false_of_true h), rstrip_append (flat_rtrim h)]

theorem trimmed_blanks {bs : Str} (h : Blanks bs) {d : Char} (hd : isSpace d = false) (t : Str) : trimmed (bs ++ d :: t) = squeeze bs ++ trimmed (d :: t) := by
  have h1 : trimmed (d :: t) = d :: rstrip (collapseAux false t) := by
    unfold trimmed collapse
    have := rstrip_append (a := [d]) (by simp [RTrim, rstrip, hd]) (collapseAux false t)
    simpa [collapseAux, hd] using this
  rw [h1]
  unfold trimmed collapse
  rw [collapse_blanks h d hd t false]
  have := rstrip_append (a := squeeze bs ++ [d]) (by
    have : ∀ x : Str, RTrim (x ++ [d]) := by intro x; simp [RTrim, rstrip, hd]
    exact this _) (collapseAux false t)
  simpa [squeeze] using this

theorem trimmed_all_blanks {bs : Str} (h : Blanks bs) : trimmed bs = [] := by
  have : ∀ b : Bool, Blanks bs → Blanks (collapseAux b bs) := by
    induction bs with
    | nil => intro b _; exact h
    | cons x xs ih =>
      intro b hb
      have hx := hb x List.mem_cons_self
      have hxs : Blanks xs := fun c hc => hb c (List.mem_cons_of_mem _ hc)
      cases b
      · simp only [collapseAux, hx]
        intro c hc
        simp at hc
        rcases hc with rfl | hc
        · decide
        · exact ih hxs true hxs c hc
      · simp only [collapseAux, hx]
        exact ih hxs true hxs
  exact (this false h).rstrip

theorem head_space {d : Src} (h : d.Plain) : ∃ c cs, d.render = c :: cs ∧ isSpace c = false := flat_true_head (Src.flat h)

theorem trimmed_src {bs : Str} (hb : Blanks bs) {d : Src} (h : d.Plain) (e : Str) : trimmed (bs ++ (d.render ++ e)) = squeeze bs ++ (d.render ++ trimmed e) := by
  obtain ⟨c, cs, hc, hs⟩ := head_space h
  have h1 := trimmed_append (Src.flat h) e
  rw [hc] at h1 ⊢
  rw [List.cons_append, trimmed_blanks hb hs, ← List.cons_append, h1]

theorem trimmed_defTail {sep : Str} (hs : Blanks sep) {e e' : Str} (he : trimmed e = e') : ∀ {ds : List Src}, (∀ d ∈ ds, d.Plain) →
    trimmed (defTail sep ds e) = defTail (squeeze sep) ds e'
  | [], _ => he
  | d :: ds, h => by
    have ih := trimmed_defTail hs he (fun x hx => h x (List.mem_cons_of_mem _ hx))
    have : trimmed (defTail sep (d :: ds) e) = trimmed (py"," ++ (sep ++ (d.render ++ defTail sep ds e))) := by simp [defTail]
    rw [this, trimmed_append (by decide), trimmed_src hs (h d List.mem_cons_self), ih]
    simp [defTail]

theorem TableOpt.Plain.ok {o : TableOpt} (h : o.Plain) : o.Ok := by
  have hne : o.name ≠ [] := by intro hh; have := h.nameLength.1; rw [hh] at this; simp at this
  refine ⟨?_, h.nameLength.2, ?_, h.value.1, fun c hc => ⟨(h.value.2 c hc).1, (h.value.2 c hc).2.1⟩⟩
  · rcases normal_normalize o.name with hn | hn
    · rw [h.nameBlanks] at hn; exact absurd hn hne
    · rw [h.nameBlanks] at hn; exact hn
  · intro hc
    rcases h.nameChars _ hc with h | h
    · exact absurd h (by decide)
    · exact absurd h (by decide)

theorem trimmed_optTail {e e' : Str} (he : trimmed e = e') : ∀ {os : List TableOpt}, (∀ o ∈ os, o.Ok) → trimmed (optTail os e) = optTail os e'
  | [], _ => he
  | o :: os, h => by
    have ih := trimmed_optTail he (fun x hx => h x (List.mem_cons_of_mem _ hx))
    have ho := h o List.mem_cons_self
    obtain ⟨c, cs, hc, hs⟩ := flat_true_head (option_flat ho)
    have h1 := trimmed_append (option_flat ho) (optTail os e)
    show trimmed (' ' :: (o.name ++ py"=" ++ o.value ++ optTail os e)) = ' ' :: (o.name ++ py"=" ++ o.value ++ optTail os e')
    rw [hc] at h1 ⊢
    have := trimmed_blanks (bs := [' ']) (by intro c hc; simp at hc; subst hc; decide) hs (cs ++ optTail os e)
    rw [← List.cons_append, h1, ih] at this
    exact this

/-- the parts of a statement -/
structure Stmt where
  name : Str
  d : Src
  ds : List Src
  os : List TableOpt

/-- the statement can be written down -/
structure Stmt.Ok (s : Stmt) : Prop where
  name : Ident s.name
  plain : ∀ x ∈ s.d :: s.ds, x.Plain
  quiet : ∀ x ∈ s.d :: s.ds, x.Quiet
  column : ∃ c y, s.d = .column c y
  options : ∀ o ∈ s.os, o.Plain
  few : s.ds.length + 1 < 1000
  fewOptions : s.os.length < 1000

/-- the layout, normalised -/
def Layout.squeeze (l : Layout) : Layout := ⟨Mygrations.squeeze l.lead, Mygrations.squeeze l.sep, Mygrations.squeeze l.trail⟩

theorem Layout.squeeze_ok (l : Layout) : l.squeeze.Ok := ⟨(squeeze_gap _).blanks, (squeeze_gap _).blanks, (squeeze_gap _).blanks⟩

/-- the text of a statement and what follows -/
def Stmt.text (s : Stmt) (l : Layout) (more : Str) : Str := createText s.name l.lead l.sep l.trail s.d s.ds s.os more

theorem optTail_append : ∀ (os : List TableOpt) (e m : Str), optTail os (e ++ m) = optTail os e ++ m
  | [], _, _ => rfl
  | o :: os, e, m => by simp [optTail, optTail_append os e m]

theorem defTail_append : ∀ (sep : Str) (ds : List Src) (e m : Str), defTail sep ds (e ++ m) = defTail sep ds e ++ m
  | _, [], _, _ => rfl
  | sep, d :: ds, e, m => by simp [defTail, defTail_append sep ds e m]

theorem Stmt.text_append (s : Stmt) (l : Layout) (a more : Str) : s.text l (a ++ more) = s.text l a ++ more := by
  unfold Stmt.text createText
  rw [← List.append_assoc py";", optTail_append, ← List.append_assoc py")", ← List.append_assoc l.trail, defTail_append]
  simp

theorem defTail_end (sep : Str) : ∀ (ds : List Src) (a : Str) (c : Char), ∃ b, defTail sep ds (a ++ [c]) = b ++ [c]
  | [], a, c => ⟨a, rfl⟩
  | d :: ds, a, c => by
    obtain ⟨b, hb⟩ := defTail_end sep ds a c
    exact ⟨_, by rw [defTail, hb, ← List.append_assoc]⟩

theorem optTail_end : ∀ (os : List TableOpt) (a : Str) (c : Char), ∃ b, optTail os (a ++ [c]) = b ++ [c]
  | [], a, c => ⟨a, rfl⟩
  | o :: os, a, c => by
    obtain ⟨b, hb⟩ := optTail_end os a c
    exact ⟨' ' :: (o.name ++ py"=" ++ o.value ++ b), by rw [optTail, hb]; simp⟩

theorem Stmt.text_end (s : Stmt) (l : Layout) : ∃ b, s.text l [] = b ++ [';'] := by
  obtain ⟨b, hb⟩ := optTail_end s.os [] ';'
  obtain ⟨b', hb'⟩ := defTail_end l.sep s.ds (l.trail ++ (py")" ++ b)) ';'
  refine ⟨py"CREATE TABLE" ++ ' ' :: (quoted '`' s.name ++ ' ' :: (py"(" ++ (l.lead ++ (s.d.render ++ b')))), ?_⟩
  have h1 : optTail s.os (py";" ++ []) = b ++ [';'] := hb
  unfold Stmt.text createText
  rw [h1, ← List.append_assoc py")", ← List.append_assoc l.trail, hb']
  simp

theorem Stmt.text_split (s : Stmt) (l : Layout) (more : Str) : s.text l more = s.text l [] ++ more := by
  have := s.text_append l [] more
  simpa using this

theorem Stmt.rtrim (s : Stmt) (l : Layout) : RTrim (s.text l []) := by
  obtain ⟨b, hb⟩ := s.text_end l
  rw [hb]
  simp [RTrim, Mygrations.rstrip, show isSpace ';' = false from by decide]

theorem Stmt.rstrip_text (s : Stmt) (l : Layout) (more : Str) : rstrip (s.text l more) = s.text l (rstrip more) := by
  rw [s.text_split l more, rstrip_append (s.rtrim l), ← s.text_split]

theorem create_head_flat {n : Str} (hn : Ident n) : flat true (py"CREATE TABLE" ++ ' ' :: (quoted '`' n ++ ' ' :: py"(")) = true := by
  rw [flat_space (by decide)]
  exact pre_flat (by simp [quoted]) (quoted_noSpace hn) (by decide)

theorem Stmt.trimmed_text {s : Stmt} (h : s.Ok) {l : Layout} (hl : l.Ok) (more : Str) : trimmed (s.text l more) = s.text l.squeeze (trimmed more) := by
  have h1 : trimmed (py";" ++ more) = py";" ++ trimmed more := trimmed_append (by decide) more
  have h2 := trimmed_optTail h1 (fun o ho => (h.options o ho).ok)
  have h3 : trimmed (l.trail ++ (py")" ++ optTail s.os (py";" ++ more))) = l.squeeze.trail ++ (py")" ++ optTail s.os (py";" ++ trimmed more)) := by
    have := trimmed_blanks hl.trail (d := ')') (by decide) (optTail s.os (py";" ++ more))
    refine this.trans ?_
    have h4 : trimmed (py")" ++ optTail s.os (py";" ++ more)) = _ := trimmed_append (by decide) _
    rw [h2] at h4
    show Mygrations.squeeze l.trail ++ trimmed (py")" ++ optTail s.os (py";" ++ more)) = _
    rw [h4]
    rfl
  have h4 := trimmed_defTail hl.sep h3 (fun x hx => h.plain x (List.mem_cons_of_mem _ hx))
  have h5 := trimmed_src hl.lead (h.plain s.d List.mem_cons_self) (defTail l.sep s.ds (l.trail ++ (py")" ++ optTail s.os (py";" ++ more))))
  rw [h4] at h5
  have e1 : s.text l more = (py"CREATE TABLE" ++ ' ' :: (quoted '`' s.name ++ ' ' :: py"(")) ++
      (l.lead ++ (s.d.render ++ defTail l.sep s.ds (l.trail ++ (py")" ++ optTail s.os (py";" ++ more))))) := by
    simp [Stmt.text, createText]
  rw [e1, trimmed_append (create_head_flat h.name), h5]
  simp [Stmt.text, createText, Layout.squeeze]

/-! ## Documents -/

/-- a text which consists of statements and blanks -/
inductive Doc : Str → List Stmt → Prop
  | nil {g : Str} : Blanks g → Doc g []
  | cons {g : Str} {s : Stmt} {l : Layout} {more : Str} {ss : List Stmt} : Blanks g → l.Ok → Doc more ss → Doc (g ++ s.text l more) (s :: ss)

theorem Stmt.text_head (s : Stmt) (l : Layout) (more : Str) : ∃ cs, s.text l more = 'C' :: cs := ⟨_, rfl⟩

theorem Doc.rstrip {s : Str} {ss : List Stmt} (h : Doc s ss) : Doc (rstrip s) ss := by
  induction h with
  | nil hg => rw [hg.rstrip]; exact .nil (by intro c hc; cases hc)
  | @cons g s l more ss hg hl _ ih =>
    have hr : RTrim (g ++ s.text l []) := by
      obtain ⟨b, hb⟩ := s.text_end l
      rw [hb, ← List.append_assoc]
      simp [RTrim, Mygrations.rstrip, show isSpace ';' = false from by decide]
    rw [s.text_split l more, ← List.append_assoc, rstrip_append hr, List.append_assoc, ← s.text_split]
    exact .cons hg hl ih

theorem Doc.trimmed {s : Str} {ss : List Stmt} (h : Doc s ss) (hok : ∀ x ∈ ss, x.Ok) : Doc (trimmed s) ss := by
  induction h with
  | nil hg => rw [trimmed_all_blanks hg]; exact .nil (by intro c hc; cases hc)
  | @cons g s l more ss hg hl _ ih =>
    obtain ⟨cs, hcs⟩ := s.text_head l more
    rw [hcs, trimmed_blanks hg (by decide), ← hcs, Stmt.trimmed_text (hok s List.mem_cons_self) hl]
    exact .cons (squeeze_gap g).blanks l.squeeze_ok (ih (fun x hx => hok x (List.mem_cons_of_mem _ hx)))

theorem strip_blanks {g : Str} (hg : Blanks g) (t : Str) : strip (g ++ t) = strip t := by
  induction g with
  | nil => rfl
  | cons x xs ih =>
    rw [List.cons_append, strip_cons_space (hg x List.mem_cons_self), ih (fun c hc => hg c (List.mem_cons_of_mem _ hc))]

theorem Doc.strip {s : Str} {ss : List Stmt} (h : Doc s ss) : Doc (strip s) ss := by
  cases h with
  | nil hg =>
    have := strip_blanks hg []
    rw [List.append_nil] at this
    rw [this]
    exact .nil (by intro c hc; cases hc)
  | @cons g s l more ss hg hl hm =>
    rw [strip_blanks hg]
    obtain ⟨cs, hcs⟩ := s.text_head l more
    rw [hcs, strip_cons_char (by decide), ← hcs, s.rstrip_text l more]
    exact .cons (g := []) (by intro c hc; cases hc) hl hm.rstrip

/-- a stripped document starts with its first statement -/
theorem Doc.start {s : Str} {x : Stmt} {ss : List Stmt} (h : Doc s (x :: ss)) : ∃ l more, Layout.Ok l ∧ Doc more ss ∧ Mygrations.strip s = x.text l more := by
  cases h with
  | @cons g s l more ss hg hl hm =>
    refine ⟨l, Mygrations.rstrip more, hl, hm.rstrip, ?_⟩
    rw [strip_blanks hg]
    obtain ⟨cs, hcs⟩ := x.text_head l more
    rw [hcs, strip_cons_char (by decide), ← hcs, x.rstrip_text l more]

theorem Doc.nothing {s : Str} (h : Doc s []) : Mygrations.strip s = [] := by
  cases h with
  | nil hg =>
    have := strip_blanks hg []
    rw [List.append_nil] at this
    rw [this]; rfl

theorem Doc.tame {s : Str} {ss : List Stmt} (h : Doc s ss) (hok : ∀ x ∈ ss, x.Ok) : Tame s := by
  induction h with
  | @nil g hg =>
    have := tame_dull (s := []) (fun c hc => blank_dull (hg c hc)) tame_nil
    simpa using this
  | @cons g s l more ss hg hl _ ih =>
    have ho := hok s List.mem_cons_self
    exact tame_dull (fun c hc => blank_dull (hg c hc)) (tame_create ho.name hl.lead hl.sep hl.trail ho.plain ho.quiet ho.options
      (ih (fun x hx => hok x (List.mem_cons_of_mem _ hx))))

/-! ## No option swallows the next statement -/

/-- no `=` among the first characters -/
def EqFar (n : Nat) (s : Str) : Prop := '=' ∉ s.take n

theorem eqFar_append {n : Nat} {a s : Str} (ha : '=' ∉ a) (h : EqFar (n - a.length) s) : EqFar n (a ++ s) := by
  unfold EqFar at *
  rw [List.take_append]
  intro hm
  rcases List.mem_append.mp hm with hm | hm
  · exact ha (List.mem_of_mem_take hm)
  · exact h hm

theorem eqFar_mono {m n : Nat} {s : Str} (h : EqFar n s) (hmn : m ≤ n) : EqFar m s := by
  intro hm
  have : s.take m = (s.take n).take m := by rw [List.take_take, Nat.min_eq_left hmn]
  rw [this] at hm
  exact h (List.mem_of_mem_take hm)

theorem eqFar_zero (s : Str) : EqFar 0 s := by simp [EqFar]

/-- a text which starts with enough characters other than `=` -/
theorem eqFar_long {n : Nat} {a s : Str} (ha : '=' ∉ a) (h : n ≤ a.length) : EqFar n (a ++ s) :=
  eqFar_append ha (by rw [Nat.sub_eq_zero_of_le h]; exact eqFar_zero s)

theorem word_noEq {n : Str} (h : ∀ c ∈ n, isWord c = true) : '=' ∉ n := fun hc => absurd (h _ hc) (by decide)

theorem quoted_noEq {n : Str} (h : Ident n) : '=' ∉ quoted '`' n := by
  have := word_noEq h.2
  simp [quoted, this]

theorem quoted_len {n : Str} (h : Ident n) : 3 ≤ (quoted '`' n).length := by
  have := List.length_pos_iff.mpr h.1
  simp [quoted]; omega

/-- a keyword and a value -/
theorem eqFar_keyword {kw k r s : Str} (h : Spelled kw k) (hk : '=' ∉ kw) (hl : 5 ≤ kw.length) : EqFar 6 (' ' :: (k ++ r ++ s)) := by
  have h1 : '=' ∉ k := h.not_mem (Or.inl (by decide)) hk
  have h2 := h.length
  have := eqFar_long (n := 6) (a := ' ' :: k) (s := r ++ s) (by simp [h1]) (by simp; omega)
  simpa using this

theorem eqFar_word {w : Word} (hw : w.Ok) (h : ∀ b, w ≠ .junk b) {s : Str} (hs : EqFar 1 s) : EqFar 6 (' ' :: (w.text ++ s)) := by
  have key : ∀ {kw k : Str}, Spelled kw k → '=' ∉ kw → 5 ≤ kw.length → EqFar 6 (' ' :: (k ++ s)) := by
    intro kw k h1 h2 h3
    have := eqFar_keyword (r := []) (s := s) h1 h2 h3
    rwa [List.append_nil] at this
  cases w with
  | unsigned k => exact key hw (by decide) (by decide)
  | null k =>
    have h1 : '=' ∉ k := Spelled.not_mem hw (Or.inl (by decide)) (by decide)
    have h2 : k.length = 4 := Spelled.length hw
    refine eqFar_append (a := ' ' :: k) (by simp [h1]) (eqFar_mono hs ?_)
    simp; omega
  | notNull k => exact key hw (by decide) (by decide)
  | default k q v => exact eqFar_keyword hw.1 (by decide) (by decide)
  | stamp k a b => exact eqFar_keyword hw.1 (by decide) (by decide)
  | junk b => exact absurd rfl (h b)
  | auto k => exact key hw (by decide) (by decide)
  | charset k q v => exact eqFar_keyword hw.1 (by decide) (by decide)
  | collate k q v => exact eqFar_keyword hw.1 (by decide) (by decide)

theorem eqFar_words {s : Str} (hs : EqFar 6 s) : ∀ {ws : List Word}, (∀ w ∈ ws, w.Ok) → (∀ w ∈ ws, ∀ b, w ≠ .junk b) → EqFar 6 (wordsTail ws s)
  | [], _, _ => hs
  | w :: ws, hw, h => by
    have ih := eqFar_words hs (ws := ws) (fun x hx => hw x (List.mem_cons_of_mem _ hx)) (fun x hx => h x (List.mem_cons_of_mem _ hx))
    exact eqFar_word (hw w List.mem_cons_self) (h w List.mem_cons_self) (eqFar_mono ih (by omega))

theorem eqFar_len {l : LenText} (hl : l.Ok) {s : Str} (hs : EqFar 6 s) : EqFar 6 (l.text ++ s) := by
  refine eqFar_append ?_ (eqFar_mono hs (by omega))
  cases l with
  | none => simp [LenText.text]
  | one d =>
    have := word_noEq (digits_word hl).2
    simp [LenText.text, this]
  | two a b =>
    have h1 := word_noEq (digits_word hl.1).2
    have h2 := word_noEq (digits_word hl.2).2
    simp [LenText.text, h1, h2]

theorem type_long : ∀ cls : ColClass, ∀ t ∈ plainTypes cls, 3 ≤ t.length := by
  intro cls; cases cls <;> decide

theorem eqFar_column {c : Column} {s : Style} (h : c.Plain) (hs : s.Fits c) {e : Str} (he : EqFar 6 e) : EqFar 13 (c.written s ++ e) := by
  obtain ⟨l, ws, hl, hok, hj, _, htext⟩ := column_shape h hs e
  rw [htext]
  have ht := Spelled.ident (hs.spell c.columnType) (type_facts _ _ h.type).1
  have h1 := eqFar_len hl (eqFar_words he hok hj)
  have hlen := type_long _ _ h.type
  have hlen : 3 ≤ (s.spell c.columnType).length := by rw [Spelled.length (hs.spell c.columnType)]; exact hlen
  have hnl := List.length_pos_iff.mpr h.name.1
  unfold colText
  refine eqFar_append (by have := word_noEq h.name.2; simp [this]) ?_
  refine eqFar_append (a := ' ' :: s.spell c.columnType) (by have := word_noEq ht.2; simp [this]) ?_
  exact eqFar_mono h1 (by simp; omega)

theorem eqFar_src {d : Src} (h : d.Plain) {e : Str} (he : EqFar 6 e) : EqFar 6 (d.render ++ e) := by
  cases d with
  | column c s => exact eqFar_mono (eqFar_column (c := c) h.1 h.2 he) (by omega)
  | index i w =>
    obtain ⟨v, r, hv, hr, hlen, htext⟩ := index_shape (i := i) h.1 h.2 e
    show EqFar 6 (i.written w ++ e)
    rw [htext]
    have hrn : '=' ∉ r := by
      intro hc
      rcases hr _ hc with h | h | h
      · exact absurd h (by decide)
      · exact absurd h (by decide)
      · exact absurd h (by decide)
    have hvn : '=' ∉ v := by
      rcases hv with rfl | rfl | hv
      · decide
      · decide
      · exact word_noEq (keyWords_facts v hv).2.1
    have := eqFar_long (n := 6) (a := v ++ ' ' :: r) (s := '(' :: colList i.columns e) (by simp [hrn, hvn])
      (by simp; omega)
    simpa using this
  | constraint k w =>
    show EqFar 6 ((py"CONSTRAINT `" ++ k.name ++ py"` " ++ k.body w) ++ e)
    rw [constraint_text]
    exact eqFar_long (by decide) (by decide)
  | bare k w =>
    rw [bare_text]
    exact eqFar_long (by decide) (by decide)

theorem blanks_noEq {g : Str} (h : Blanks g) : '=' ∉ g := fun hc => absurd (h _ hc) (by decide)

theorem eqFar_defTail {sep : Str} (hs : Blanks sep) {e : Str} (he : EqFar 6 e) : ∀ {ds : List Src}, (∀ d ∈ ds, d.Plain) → EqFar 6 (defTail sep ds e)
  | [], _ => he
  | d :: ds, h => by
    have ih := eqFar_defTail hs he (fun x hx => h x (List.mem_cons_of_mem _ hx))
    have h1 := eqFar_src (h d List.mem_cons_self) ih
    have : defTail sep (d :: ds) e = (py"," ++ sep) ++ (d.render ++ defTail sep ds e) := by simp [defTail]
    rw [this]
    exact eqFar_append (by have := blanks_noEq hs; simp [this]) (eqFar_mono h1 (by omega))

theorem eqFar_optTail {os : List TableOpt} (h : ∀ o ∈ os, o.Plain) {e : Str} (he : EqFar 5 e) : EqFar 5 (optTail os e) := by
  cases os with
  | nil => exact he
  | cons o os =>
    have ho := h o List.mem_cons_self
    have := eqFar_long (n := 5) (a := ' ' :: o.name) (s := py"=" ++ o.value ++ optTail os e) (by have := ho.ok.nameEq; simp [this]) (by
      have := ho.nameLength.1; simp; omega)
    simpa [optTail] using this

/-- no `=` soon after the start of a statement -/
theorem Stmt.far {s : Stmt} (ho : s.Ok) {l : Layout} (hl : l.Ok) {more : Str} (ihm : EqFar 31 more) : EqFar 31 (s.text l more) := by
  have h1 : EqFar 5 (py";" ++ more) := eqFar_append (by decide) (eqFar_mono ihm (by decide))
  have h2 := eqFar_optTail ho.options h1
  have h3 : EqFar 6 (py")" ++ optTail s.os (py";" ++ more)) := eqFar_append (by decide) h2
  have h4 : EqFar 6 (l.trail ++ (py")" ++ optTail s.os (py";" ++ more))) := eqFar_append (blanks_noEq hl.trail) (eqFar_mono h3 (by omega))
  have h5 := eqFar_defTail hl.sep h4 (fun x hx => ho.plain x (List.mem_cons_of_mem _ hx))
  obtain ⟨c, y, hc⟩ := ho.column
  have hpl := ho.plain s.d List.mem_cons_self
  have h6 : EqFar 13 (s.d.render ++ defTail l.sep s.ds (l.trail ++ (py")" ++ optTail s.os (py";" ++ more)))) := by
    rw [hc] at hpl ⊢
    exact eqFar_column (c := c) hpl.1 hpl.2 h5
  have h7 := eqFar_append (blanks_noEq hl.lead) (eqFar_mono h6 (Nat.sub_le _ _))
  have hq := quoted_len ho.name
  have := eqFar_append (n := 31) (a := py"CREATE TABLE" ++ ' ' :: (quoted '`' s.name ++ ' ' :: py"(")) (s := l.lead ++ (s.d.render ++ defTail l.sep s.ds (l.trail ++ (py")" ++ optTail s.os (py";" ++ more)))))
    (by have := quoted_noEq ho.name; simp [this]) (eqFar_mono h7 (by simp; omega))
  simpa [Stmt.text, createText] using this

/-- no `=` soon after the start of a document -/
theorem Doc.eqFar {s : Str} {ss : List Stmt} (h : Doc s ss) (hok : ∀ x ∈ ss, x.Ok) : EqFar 31 s := by
  induction h with
  | @nil g hg =>
    intro hm
    exact absurd (hg _ (List.mem_of_mem_take hm)) (by decide)
  | @cons g s l more ss hg hl hm ih =>
    have h8 := Stmt.far (hok s List.mem_cons_self) hl (ih (fun x hx => hok x (List.mem_cons_of_mem _ hx)))
    exact eqFar_append (blanks_noEq hg) (eqFar_mono h8 (Nat.sub_le _ _))

/-! ## Reading -/

theorem Stmt.comment (s : Stmt) (l : Layout) (more : Str) : startsComment (s.text l more) = false := rfl

theorem Stmt.create (s : Stmt) (l : Layout) (more : Str) : lower ((s.text l more).take 6) = py"create" := by
  show lower (py"CREATE") = py"create"
  decide

/-- one statement is read, if what follows is harmless -/
theorem Stmt.read {x : Stmt} (hx : x.Ok) {l : Layout} (hl : l.Ok) {more : Str} (htame : Tame more) (hfar : EqFar 31 (trimmed more)) :
    ∃ xs, AllRead (x.d :: x.ds) xs ∧ topParse createRules (cleanCreate (x.text l more)) = .ok ⟨true, createVals x.name xs x.os, strip (trimmed more)⟩ := by
  have hclean := (tame_create hx.name hl.lead hl.sep hl.trail hx.plain hx.quiet hx.options htame).clean
  have hnorm : normalize (x.text l more) = x.text l.squeeze (trimmed more) := by
    rw [← Stmt.trimmed_text hx hl]
    obtain ⟨cs, hcs⟩ := x.text_head l more
    rw [hcs, normalize_lead (by decide)]
    exact (trimmed_append (a := ['C']) (by decide) cs).symm
  have hflat : flat false (trimmed more) = true := by
    have h1 := normal_normalize (x.text l more)
    rw [hnorm] at h1
    obtain ⟨cs, hcs⟩ := x.text_head l.squeeze (trimmed more)
    rcases h1 with h1 | h1
    · rw [hcs] at h1; cases h1
    · obtain ⟨b, hb⟩ := x.text_end l.squeeze
      rw [x.text_split, hb, List.append_assoc] at h1
      rcases flat_suffix h1 (List.suffix_append b ([';'] ++ trimmed more)) with h2 | ⟨b', h2⟩
      · cases h2
      · exact flat_tail h2
  have hmiss : tableOption.tryParse (py";" ++ trimmed more) = .ok none := by
    refine option_miss (semicolon_flat hflat) ?_
    exact eqFar_append (n := 32) (a := py";") (by decide) hfar
  obtain ⟨xs, hxs, hp⟩ := create_read hx.name (squeeze_gap l.lead) (squeeze_gap l.sep) (squeeze_gap l.trail) hx.plain (fun o ho => (hx.options o ho).ok) hflat hmiss
    hx.few hx.fewOptions hnorm
  refine ⟨xs, hxs, ?_⟩
  rw [show cleanCreate (x.text l more) = x.text l more from hclean]
  exact hp

/-- one statement is read: the definitions and the rest -/
theorem Doc.statement {x : Stmt} {ss : List Stmt} {l : Layout} {more : Str} (hl : l.Ok) (hm : Doc more ss) (hok : ∀ y ∈ x :: ss, y.Ok) :
    ∃ xs rest, AllRead (x.d :: x.ds) xs ∧ Doc rest ss ∧ rest = Mygrations.strip rest ∧
      topParse createRules (cleanCreate (x.text l more)) = .ok ⟨true, createVals x.name xs x.os, rest⟩ := by
  have hss : ∀ y ∈ ss, y.Ok := fun y hy => hok y (List.mem_cons_of_mem _ hy)
  have hm' := hm.trimmed hss
  obtain ⟨xs, hxs, hp⟩ := Stmt.read (hok x List.mem_cons_self) hl (hm.tame hss) (hm'.eqFar hss)
  exact ⟨xs, _, hxs, hm'.strip, (strip_strip _).symm, hp⟩

/-! ## Tables -/

/-- the statement of a table, given its first column and its other definitions -/
theorem Table.Readable.stmt {t : Table} (h : t.Readable) : ∃ s : Stmt, s.Ok ∧ s.name = t.name ∧ s.os = t.options ∧ t.srcs = s.d :: s.ds := by
  obtain ⟨⟨k, c⟩, cs, hcs⟩ := List.exists_cons_of_ne_nil h.hasColumns
  have hsrcs : t.srcs = .column c .usual :: (Dict.values cs |>.map (Src.column · .usual)) ++ (t.indexes.values.map (Src.index · py"KEY") ++ t.constraints.values.map (Src.constraint · .both)) := by
    simp [Table.srcs, hcs, Dict.values]
  refine ⟨⟨t.name, .column c .usual, (Dict.values cs |>.map (Src.column · .usual)) ++ (t.indexes.values.map (Src.index · py"KEY") ++ t.constraints.values.map (Src.constraint · .both)), t.options⟩, ?_, rfl, rfl, hsrcs⟩
  have hall : ∀ x ∈ t.srcs, x.Plain ∧ x.Quiet := by
    intro x hx
    simp only [Table.srcs, List.mem_append, List.mem_map] at hx
    rcases hx with ⟨c, hc, rfl⟩ | ⟨i, hi, rfl⟩ | ⟨k, hk, rfl⟩
    · exact ⟨⟨h.columns c hc, usual_fits⟩, h.noComment c hc⟩
    · exact ⟨⟨h.indexes i hi, .inl (by decide)⟩, trivial⟩
    · exact ⟨⟨h.constraints k hk, ⟨by simp [Actions.both], by simp [Actions.both]⟩⟩, trivial⟩
  rw [hsrcs] at hall
  refine ⟨h.name, fun x hx => (hall x hx).1, fun x hx => (hall x hx).2, ⟨c, .usual, rfl⟩, h.options, ?_, h.fewOptions⟩
  have := h.fewDefinitions
  simp only [hcs, List.length_cons] at this
  simp only [List.length_append, List.length_map, Dict.values]
  omega

/-- the layouts of `CREATE TABLE` statements -/
def layoutOf (nice : Bool) : Layout := if nice then ⟨py"\n  ", py"\n  ", py"\n"⟩ else ⟨[], py"\n", []⟩

theorem layoutOf_ok (nice : Bool) : (layoutOf nice).Ok := by
  cases nice <;> constructor <;> intro c hc <;> revert c <;> decide

theorem join_defs (sep pad : Str) (e : Str) : ∀ (d : Src) (ds : List Src),
    join (py"," ++ sep) ((d :: ds).map (fun x => pad ++ x.render)) ++ e = pad ++ (d.render ++ defTail (sep ++ pad) ds e)
  | d, [] => by simp [join, defTail]
  | d, d' :: ds => by
    have := join_defs sep pad e d' ds
    simp only [List.map_cons, join, List.append_assoc] at this ⊢
    rw [this]
    simp [defTail]

theorem join_opts (e : Str) : ∀ (os : List TableOpt),
    (if os.isEmpty then [] else py" " ++ join py" " (os.map (fun o => o.name ++ py"=" ++ o.value))) ++ e = optTail os e
  | [] => rfl
  | [o] => by simp [join, optTail]
  | o :: o' :: os => by
    have := join_opts e (o' :: os)
    simp only [List.isEmpty_cons, Bool.false_eq_true, if_false, List.map_cons, join, List.append_assoc] at this ⊢
    rw [this]
    simp [optTail]

theorem renderCreate_text {t : Table} {s : Stmt} (hc : ∀ c ∈ t.columns.values, c.Plain) (hi : ∀ i ∈ t.indexes.values, i.Plain) (hn : s.name = t.name) (ho : s.os = t.options) (hd : t.srcs = s.d :: s.ds) (nice : Bool) (more : Str) :
    t.renderCreate nice ++ more = s.text (layoutOf nice) more := by
  have hbody : ∀ pad : Str, t.columns.values.map (fun c => pad ++ c.render) ++ t.indexes.values.map (fun i => pad ++ i.render) ++
      t.constraints.values.map (fun k => pad ++ k.render) = t.srcs.map (fun x => pad ++ x.render) := by
    intro pad
    have h1 : t.columns.values.map (fun c => pad ++ c.render) = t.columns.values.map (fun c => pad ++ c.written .usual) :=
      List.map_congr_left (fun c hm => by rw [written_usual (hc c hm)])
    have h2 : t.constraints.values.map (fun k => pad ++ k.render) = t.constraints.values.map (fun k => pad ++ (Src.constraint k .both).render) :=
      List.map_congr_left (fun k _ => by rw [← constraint_both]; rfl)
    have h3 : t.indexes.values.map (fun i => pad ++ i.render) = t.indexes.values.map (fun i => pad ++ i.written py"KEY") :=
      List.map_congr_left (fun i hm => by rw [render_written i (hi i hm)])
    rw [h1, h2, h3]
    simp [Table.srcs, Src.render, Function.comp_def]
  unfold Table.renderCreate Stmt.text createText
  simp only [hbody]
  rw [hd, ← hn, ← ho]
  cases nice with
  | true =>
    have h1 := join_defs py"\n" py"  " (py"\n" ++ (py")" ++ optTail s.os (py";" ++ more))) s.d s.ds
    have h2 := join_opts (py";" ++ more) s.os
    simp only [layoutOf, if_true] at h1 ⊢
    rw [← h2] at h1 ⊢
    simp only [List.append_assoc, quoted, List.cons_append, List.nil_append] at h1 ⊢
    rw [h1]
  | false =>
    have h1 := join_defs py"\n" [] (py")" ++ optTail s.os (py";" ++ more)) s.d s.ds
    have h2 := join_opts (py";" ++ more) s.os
    simp only [layoutOf, Bool.false_eq_true, if_false] at h1 ⊢
    rw [← h2] at h1 ⊢
    simp only [List.append_assoc, quoted, List.cons_append, List.nil_append] at h1 ⊢
    rw [h1]

/-- a text with the statements of these tables -/
inductive TableDoc : Str → List Table → Prop
  | mk {s : Str} {ss : List Stmt} {ts : List Table} : Doc s ss → (∀ x ∈ ss, x.Ok) →
      Paired (fun (t : Table) (x : Stmt) => t.Readable ∧ x.name = t.name ∧ x.os = t.options ∧ t.srcs = x.d :: x.ds) ts ss → TableDoc s ts

/-- the tables of a document are read one after the other -/
theorem TableDoc.loop : ∀ (ts : List Table) (s : Str) (n : Nat) (st : ReaderState), TableDoc s ts → (ts = [] → s = []) →
    (Dict.keys st.tables ++ ts.map (·.name)).Nodup →
    ∃ new : Dict Table, Paired (fun t e => e.1 = t.name ∧ SameTable t e.2 ∧ e.2.JustRead) ts new ∧
      readLoop (n + ts.length) st s = ({ st with tables := st.tables ++ new }, none)
  | [], s, n, st, _, hs, _ => ⟨[], .nil, by rw [hs rfl, readLoop_nil]; simp⟩
  | t :: ts, s, n, st, .mk hdoc hok hp, _, hnd => by
    cases hp with
    | @cons _ x _ ss hx hp =>
      obtain ⟨hread, hn, ho, hd⟩ := hx
      obtain ⟨l, more, hl, hm, hstrip⟩ := hdoc.start
      obtain ⟨xs, rest, hxs, hrest, hrs, hparse⟩ := Doc.statement hl hm hok
      rw [← hd] at hxs
      obtain ⟨t', hproc, hsame, hfresh, _⟩ := create_process hread hxs
      have hname := hsame.name
      have hpc : parseCreate (x.text l more) = .ok (t', rest) := by
        unfold parseCreate
        rw [hparse]
        simp only [if_true]
        rw [hn, ho, hproc]
      have hnot : t'.name ∉ Dict.keys st.tables := by
        rw [hname]
        intro hmem
        rw [List.nodup_append] at hnd
        exact hnd.2.2 _ hmem t.name (by simp) rfl
      obtain ⟨new, h1, h2⟩ := TableDoc.loop ts rest n { st with tables := st.tables ++ [(t'.name, t')] } (.mk hrest (fun y hy => hok y (List.mem_cons_of_mem _ hy)) hp)
        (by rintro rfl; cases hp; rw [hrs]; exact hrest.nothing)
        (by simpa [Dict.keys, hname] using hnd)
      refine ⟨(t'.name, t') :: new, .cons ⟨hname, hsame, hfresh⟩ h1, ?_⟩
      have hnt : x.text l more ≠ [] := by
        obtain ⟨cs, hcs⟩ := x.text_head l more
        rw [hcs]; simp
      rw [show n + (t :: ts).length = (n + ts.length) + 1 from rfl]
      rw [readLoop_create _ _ hstrip hnt (x.comment l more) (x.create l more) hpc, Dict.set_of_not_mem _ hnot, h2]
      simp

/-- a file with the statements of some tables -/
theorem dump_doc {nice : Bool} {s : Str} {ts : List Table} (h : Dump nice s ts) (hr : ∀ t ∈ ts, t.Readable) : TableDoc s ts := by
  induction h with
  | nil hg => exact .mk (.nil hg) (by simp) .nil
  | @cons g t more ts hg _ ih =>
    obtain ⟨x, hok, hn, ho, hd⟩ := (hr t List.mem_cons_self).stmt
    obtain ⟨hdoc, hoks, hp⟩ := ih (fun y hy => hr y (List.mem_cons_of_mem _ hy))
    rw [List.append_assoc, renderCreate_text (hr t List.mem_cons_self).columns (hr t List.mem_cons_self).indexes hn ho hd nice more]
    refine .mk (.cons hg (layoutOf_ok nice) hdoc) ?_ (.cons ⟨hr t List.mem_cons_self, hn, ho, hd⟩ hp)
    intro y hy
    rcases List.mem_cons.mp hy with rfl | hy
    · exact hok
    · exact hoks y hy

theorem dump_read {nice : Bool} {s : Str} {ts : List Table} (h : Dump nice s ts) (hne : ts ≠ []) (hr : ∀ t ∈ ts, t.Readable) (hlen : ts.length ≤ 10000)
    (hnd : (ts.map (·.name)).Nodup) :
    ∃ new : Dict Table, Paired (fun t e => e.1 = t.name ∧ SameTable t e.2 ∧ e.2.JustRead) ts new ∧ readSource s = ({ tables := new }, none) := by
  obtain ⟨new, h1, h2⟩ := TableDoc.loop ts s (10000 - ts.length) {} (dump_doc h hr) (fun h => absurd h hne) (by simpa [Dict.keys] using hnd)
  refine ⟨new, h1, ?_⟩
  unfold readSource
  rw [show 10000 - ts.length + ts.length = 10000 by omega] at h2
  rw [h2]
  rfl

section
variable [PyNum]

omit [PyNum] in
theorem Paired.keys {ts : List Table} {new : Dict Table} (h : Paired (fun (t : Table) e => e.1 = t.name ∧ SameTable t e.2 ∧ e.2.JustRead) ts new) :
    Dict.keys new = ts.map (·.name) ∧ ∀ e ∈ new, e.2.name = e.1 := by
  induction h with
  | nil => simp
  | cons hab _ ih =>
    refine ⟨by simp [ih.1, hab.1], ?_⟩
    intro e he
    rcases List.mem_cons.mp he with rfl | he
    · rw [hab.2.1.name, hab.1]
    · exact ih.2 e he

theorem store_new : ∀ (new : Dict Table) (d : Database), (∀ e ∈ new, e.2.name = e.1) → (Dict.keys d.tables ++ Dict.keys new).Nodup →
    FileDatabase.storeTables d new.values = .ok { d with tables := d.tables ++ new }
  | [], d, _, _ => by simp [Dict.values, FileDatabase.storeTables]
  | (k, t) :: new, d, hn, hnd => by
    have hk : t.name = k := hn (k, t) List.mem_cons_self
    have hnot : k ∉ Dict.keys d.tables := by
      intro hm
      rw [List.nodup_append] at hnd
      exact hnd.2.2 k hm k (by simp) rfl
    have h0 : Dict.has d.tables k = false := Dict.has_eq_false.mpr hnot
    have ih := store_new new { d with tables := d.tables ++ [(k, t)] } (fun e he => hn e (List.mem_cons_of_mem _ he)) (by simpa [Dict.keys] using hnd)
    show FileDatabase.storeTables d (t :: Dict.values new) = _
    simp only [FileDatabase.storeTables, hk, h0, Bool.false_eq_true, if_false]
    rw [Dict.set_of_not_mem _ hnot, ih]
    simp

omit [PyNum] in
theorem Paired.append {A B : Type} {R : A → B → Prop} {a a' : List A} {b b' : List B} (h : Paired R a b) (h' : Paired R a' b') : Paired R (a ++ a') (b ++ b') := by
  induction h with
  | nil => exact h'
  | cons hab _ ih => exact .cons hab ih

theorem dump_readAll {nice : Bool} : ∀ (files : List Str) (tss : List (List Table)) (d : Database), Paired (Dump nice) files tss → (∀ ts ∈ tss, ts ≠ [] ∧ ts.length ≤ 10000) →
    (∀ t ∈ tss.flatten, t.Readable) → (Dict.keys d.tables ++ tss.flatten.map (·.name)).Nodup →
    ∃ new : Dict Table, Paired (fun t e => e.1 = t.name ∧ SameTable t e.2 ∧ e.2.JustRead) tss.flatten new ∧
      FileDatabase.readAll d files = .ok { d with tables := d.tables ++ new }
  | [], _, d, .nil, _, _, _ => ⟨[], .nil, by simp [FileDatabase.readAll]⟩
  | f :: fs, _, d, .cons (b := ts) (bs := tss) hf hfs, hlen, hr, hnd => by
    simp only [List.flatten_cons, List.map_append] at hnd hr ⊢
    have hndd : (ts.map (·.name)).Nodup := by
      have := (List.nodup_append.mp hnd).2.1
      exact (List.nodup_append.mp this).1
    obtain ⟨new, h1, h2⟩ := dump_read hf (hlen ts List.mem_cons_self).1 (fun t ht => hr t (List.mem_append_left _ ht)) (hlen ts List.mem_cons_self).2 hndd
    have hk := h1.keys
    have hst := store_new new d hk.2 (by
      rw [hk.1]
      rw [← List.append_assoc] at hnd
      exact (List.nodup_append.mp hnd).1)
    have hread : FileDatabase.read d f = .ok { d with tables := d.tables ++ new } := by
      unfold FileDatabase.read
      rw [h2]
      simp only [Option.filter_none, hst]
      simp [FileDatabase.storeRows, Dict.values]
    obtain ⟨new', h3, h4⟩ := dump_readAll fs tss { d with tables := d.tables ++ new } hfs (fun x hx => hlen x (List.mem_cons_of_mem _ hx))
      (fun t ht => hr t (List.mem_append_right _ ht)) (by
        have : Dict.keys (d.tables ++ new) = Dict.keys d.tables ++ ts.map (·.name) := by rw [Dict.keys_append, hk.1]
        rw [this]
        simpa using hnd)
    refine ⟨new ++ new', h1.append h3, ?_⟩
    simp only [FileDatabase.readAll, hread]
    rw [h4]
    simp

theorem dump_new {nice : Bool} (files : List Str) (tss : List (List Table)) (hf : Paired (Dump nice) files tss) (hlen : ∀ ts ∈ tss, ts ≠ [] ∧ ts.length ≤ 10000)
    (hr : ∀ t ∈ tss.flatten, t.Readable) (hnd : (tss.flatten.map (·.name)).Nodup) :
    ∃ new : Dict Table, Paired (fun t e => e.1 = t.name ∧ SameTable t e.2 ∧ e.2.JustRead) tss.flatten new ∧ FileDatabase.new files = .ok { tables := new } := by
  obtain ⟨new, h1, h2⟩ := dump_readAll files tss {} hf hlen hr (by simpa [Dict.keys] using hnd)
  refine ⟨new, h1, ?_⟩
  unfold FileDatabase.new
  rw [h2]
  rfl
end

end Mygrations
