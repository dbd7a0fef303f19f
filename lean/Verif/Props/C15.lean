import Verif.Proofs.Widths
import Verif.Props.C65

/-!
# C15: the display width of integers

`SameButWidth`, `Table.AgreesButWidths` and `Widened` are in `Spec/Live.lean`, `Uses` is in `Spec/Plan.lean`.
-/

namespace Mygrations
open Command Table Mygration

/-- Some foreign key uses a column whose display width differs. -/
def WidenedKey (f t : Dict Table) : Prop := ∃ n s k m c, f.get? n = some s ∧ k ∈ s.constraints.values ∧ Uses n k m c ∧ Widened f t m c

theorem widened_changes {f t : Dict Table} (h : Agree Table.AgreesButWidths f t) {n c : Str} (hw : Widened f t n c) : TypeChanges f t n c := by
  obtain ⟨s, s', a, b, hs, hs', ha, hb, hne⟩ := hw
  refine ⟨s, s', a, b, hs, hs', ha, hb, ?_⟩
  rcases (h.get hs hs').columns.get ha hb with hab | ⟨_, _, hab⟩
  · exact absurd hab hne
  · refine .inr (.inl fun hl => hne ?_)
    have : { a with len := b.len } = a := by rw [← hl]
    rwa [this] at hab

/-- **C15, databases** (partial).  Two databases differ in the display width of integers only.  A plan is made.  It does not touch any
column: all it does is drop and add foreign keys which use such a column.  It is empty exactly if there are none.

What is missing: foreign keys which use a column whose width differs, see `C15_refuted`. -/
theorem C15_partial [PyNum] (f t : Dict Table) (h : Agree Table.AgreesButWidths f t) (hkf : KeyedTables f)
    (hf : ∀ s ∈ f.values, ∀ e ∈ s.columns, e.2.UsualLength) (ht : ∀ s ∈ t.values, ∀ e ∈ s.columns, e.2.UsualLength)
    (hn : ∀ s ∈ f.values, ∀ e ∈ s.columns, e.2.cls = .numeric → e.2.NumberDefault) :
    ∃ ops, Mygration.process t (some f) false = .ok ops ∧
      (∀ op ∈ ops, ∃ a, op = .alter a ∧ ∀ o ∈ a.ops, ∃ s k k' m c, f.get? a.table = some s ∧ k ∈ s.constraints.values ∧ SameConstraint k k' ∧
        Uses a.table k m c ∧ Widened f t m c ∧ (o = .removeConstraint k ∨ o = .addConstraint k')) ∧
      (ops = [] ↔ ¬ WidenedKey f t) := by
  refine ⟨_, width_process h hn, ?_, ?_⟩
  · have hcyc : ∀ x ∈ cycles (some f) t, ∃ s m c, f.get? x.table = some s ∧ x.source ∈ s.constraints.values ∧ Uses x.table x.source m c ∧ Widened f t m c ∧
        ∀ k n, x.target = some (k, n) → SameConstraint x.source k := by
      intro x hx
      obtain ⟨s, hs, hk, hi, hc⟩ := mem_fksToCycle hx
      have hget := Dict.get?_of_mem hkf.nodup hs
      obtain ⟨m, c, hm, hu⟩ : ∃ m c, (m, c) ∈ changingColumns f t (overlap f t) ∧ Uses x.table x.source m c := by
        simp only [involves, Bool.or_eq_true, List.contains_iff_mem] at hi
        rcases hi with hi | hi
        · exact ⟨_, _, hi, .inl ⟨rfl, rfl⟩⟩
        · exact ⟨_, _, hi, .inr ⟨rfl, rfl⟩⟩
      refine ⟨s, m, c, hget, Dict.mem_values.mpr ⟨_, hk⟩, hu, width_changing hf ht hkf hm, ?_⟩
      intro k n hkn
      obtain ⟨s', hs'⟩ := Dict.exists_get? (h.keys.mp (Dict.mem_keys_of_get? hget))
      have hag := h.get hget hs'
      have hsk := Dict.get?_of_mem (hkf.keyed _ _ hs).fkNodup hk
      obtain ⟨k', hk'⟩ := Dict.exists_get? (hag.constraints.keys.mp (Dict.mem_keys_of_get? hsk))
      have hkk := hag.constraints.get hsk hk'
      simp only [cycleFor, hs', hk', Option.some.injEq] at hc
      rw [← hc] at hkn
      cases hkn
      exact hkk
    intro op hop
    rw [List.mem_append, List.mem_map, List.mem_map] at hop
    rcases hop with ⟨a, ha, rfl⟩ | ⟨a, ha, rfl⟩
    · refine ⟨a, rfl, fun o ho => ?_⟩
      rw [mem_groupAlters ha, List.mem_map] at ho
      obtain ⟨e, he, rfl⟩ := ho
      obtain ⟨he, hea⟩ := List.mem_filter.mp he
      obtain ⟨x, hx, rfl⟩ := List.mem_map.mp he
      obtain ⟨s, m, c, h1, h2, h3, h4, _⟩ := hcyc x hx
      have : x.table = a.table := of_decide_eq_true hea
      rw [← this]
      exact ⟨s, x.source, x.source, m, c, h1, h2, ⟨rfl, rfl, rfl, rfl, rfl, rfl⟩, h3, h4, .inl rfl⟩
    · refine ⟨a, rfl, fun o ho => ?_⟩
      rw [mem_groupAlters ha, List.mem_map] at ho
      obtain ⟨e, he, rfl⟩ := ho
      obtain ⟨he, hea⟩ := List.mem_filter.mp he
      obtain ⟨x, hx, k, n, hxk, rfl, _⟩ := mem_cycleAdds he
      obtain ⟨s, m, c, h1, h2, h3, h4, h5⟩ := hcyc x hx
      have : x.table = a.table := of_decide_eq_true hea
      rw [← this]
      exact ⟨s, x.source, k, m, c, h1, h2, h5 k n hxk, h3, h4, .inr rfl⟩
  · constructor
    · rintro hnil ⟨n, s, k, m, c, hs, hk, hu, hw⟩
      obtain ⟨j, hj⟩ := Dict.mem_values.mp hk
      have hi : involves (changingColumns f t (overlap f t)) n k = true := (involves_iff hkf).mpr ⟨m, c, widened_changes h hw, hu⟩
      obtain ⟨s', hs'⟩ := Dict.exists_get? (h.keys.mp (Dict.mem_keys_of_get? hs))
      have hsk := Dict.get?_of_mem (hkf.keyed _ _ (Dict.mem_of_get? hs)).fkNodup hj
      obtain ⟨k', hk'⟩ := Dict.exists_get? ((h.get hs hs').constraints.keys.mp (Dict.mem_keys_of_get? hsk))
      have hx : (⟨n, j, k, some (k', j)⟩ : Cycle) ∈ cycles (some f) t := fksToCycle_mem (Dict.mem_of_get? hs) hj hi (by simp [cycleFor, hs', hk'])
      have hd : (n, AlterOp.removeConstraint k) ∈ cycleDrops (cycles (some f) t) := List.mem_map.mpr ⟨_, hx, rfl⟩
      have hempty : groupAlters (cycleDrops (cycles (some f) t)) = [] := by
        have := (List.append_eq_nil_iff.mp hnil).1
        exact List.map_eq_nil_iff.mp this
      have hget := groups_get? (cycleDrops (cycles (some f) t)) n
      rw [groupAlters_eq, List.map_eq_nil_iff] at hempty
      rw [hempty] at hget
      have hm : AlterOp.removeConstraint k ∈ ((cycleDrops (cycles (some f) t)).filter (fun e => e.1 = n)).map Prod.snd :=
        List.mem_map.mpr ⟨_, List.mem_filter.mpr ⟨hd, by simp⟩, rfl⟩
      rw [← hget] at hm
      cases hm
    · intro hno
      have : cycles (some f) t = [] := by
        rw [List.eq_nil_iff_forall_not_mem]
        intro x hx
        obtain ⟨s, hs, hk, hi, _⟩ := mem_fksToCycle hx
        simp only [involves, Bool.or_eq_true, List.contains_iff_mem] at hi
        rcases hi with hi | hi
        · exact hno ⟨_, s, x.source, _, _, Dict.get?_of_mem hkf.nodup hs, Dict.mem_values.mpr ⟨_, hk⟩, .inl ⟨rfl, rfl⟩, width_changing hf ht hkf hi⟩
        · exact hno ⟨_, s, x.source, _, _, Dict.get?_of_mem hkf.nodup hs, Dict.mem_values.mpr ⟨_, hk⟩, .inr ⟨rfl, rfl⟩, width_changing hf ht hkf hi⟩
      rw [this]
      rfl

/-! ## From the files and the server on -/

/-- The same tables up to display widths, in any order. -/
structure SameButWidths (as bs : List Table) : Prop where
  forth : ∀ a ∈ as, ∃ b ∈ bs, b.name = a.name ∧ a.AgreesButWidths b
  back : ∀ b ∈ bs, ∃ a ∈ as, a.name = b.name

/-- Some foreign key uses a column whose display width differs. -/
def FkWidened (as bs : List Table) : Prop :=
  ∃ a ∈ as, ∃ b ∈ bs, a.name = b.name ∧ ∃ c x y, a.columns.get? c = some x ∧ b.columns.get? c = some y ∧ ¬ SameColumn x y ∧
    ∃ a' ∈ as, ∃ k ∈ a'.constraints.values, Uses a'.name k a.name c

theorem SameButWidth.left {a a' b : Column} (h1 : SameColumn a a') (h2 : SameButWidth a b) : SameButWidth a' b := by
  rcases h2 with h2 | ⟨h2, h3, h4⟩
  · exact .inl (h1.symm.trans h2)
  · refine .inr ⟨h1.cls.trans h2, by rw [h1.type]; exact h3, SameColumn.trans (b := { a with len := b.len }) ?_ h4⟩
    exact ⟨h1.cls.symm, h1.name.symm, h1.type.symm, .inl rfl, h1.null.symm, h1.default.symm, h1.unsigned.symm, h1.autoInc.symm, h1.charset.symm, h1.collate.symm, h1.enumValues.symm⟩

theorem SameButWidth.right {a b b' : Column} (h1 : SameColumn b b') (h2 : SameButWidth a b) : SameButWidth a b' := by
  rcases h2 with h2 | ⟨h2, h3, h4⟩
  · exact .inl (h2.trans h1)
  · refine .inr ⟨h2, h3, ?_⟩
    have := h4.trans h1
    exact ⟨this.cls, this.name, this.type, .inl rfl, this.null, this.default, this.unsigned, this.autoInc, this.charset, this.collate, this.enumValues⟩

theorem read_agreeButWidths {ds : List TableDecl} {ss : List Statement} {b : Table → Bool} {live files : Dict Table} (hl : Paired ReadLive ds live) (hdn : (ds.map (·.name)).Nodup)
    (hf : Paired (fun t e => TableRead ss (b t) t e) (tablesOf ss) files) (hn : ((tablesOf ss).map (·.name)).Nodup)
    (hs : SameButWidths (ds.map (·.table)) (tablesOf ss)) : Agree Table.AgreesButWidths live files := by
  have hfk : Dict.keys files = (tablesOf ss).map (·.name) := by
    clear hs hn
    generalize tablesOf ss = l at hf
    induction hf with
    | nil => rfl
    | cons hx _ ih => simp [hx.name, ih]
  refine agree_of (fun k => ?_) (fun k x y hx hy => ?_)
  · rw [readLive_keys hl, hfk]
    constructor
    · intro hk
      obtain ⟨d, hd, rfl⟩ := List.mem_map.mp hk
      obtain ⟨t, ht, hname, _⟩ := hs.forth d.table (List.mem_map_of_mem hd)
      exact List.mem_map.mpr ⟨t, ht, hname⟩
    · intro hk
      obtain ⟨t, ht, rfl⟩ := List.mem_map.mp hk
      obtain ⟨a, ha, hname⟩ := hs.back t ht
      obtain ⟨d, hd, rfl⟩ := List.mem_map.mp ha
      exact List.mem_map.mpr ⟨d, hd, hname⟩
  · have hk := Dict.mem_keys_of_get? hx
    rw [readLive_keys hl] at hk
    obtain ⟨d, hd, rfl⟩ := List.mem_map.mp hk
    obtain ⟨x', hx', hr⟩ := readLive_get hl hdn hd
    rw [hx] at hx'
    cases hx'
    obtain ⟨t, ht, hname, hag⟩ := hs.forth d.table (List.mem_map_of_mem hd)
    obtain ⟨y', hy', hry⟩ := lookup_table hf (fun t e h => h.name) hn ht hname
    have hyy : y' = y := Option.some.inj (hy'.symm.trans hy)
    subst hyy
    have h1 : d.table.Agrees x := hr.same.agrees
    have h2 : t.Agrees y' := hry.same.agrees
    refine ⟨?_, ?_, ?_⟩
    · have : Agree SameButWidth x.columns t.columns := h1.columns.chain hag.columns (fun _ _ _ p q => q.left p)
      exact (Agree.chain (S := fun v u => SameButWidth u v) (T := SameColumn) (c := t.columns) (a := x.columns) (b := y'.columns)
        (agree_of (fun k => (this.keys).symm) (fun k v u hv hu => this.get hu hv)) h2.columns (fun _ _ _ p q => p.right q))
    · exact (h1.indexes.chain hag.indexes (Q := SameIndex) (fun _ _ _ p q => p.symm.trans q)) |> fun g =>
        Agree.chain (S := fun v u => SameIndex u v) (T := SameIndex) (c := t.indexes) (agree_of (fun k => g.keys.symm) (fun k v u hv hu => g.get hu hv)) h2.indexes
          (fun _ _ _ p q => p.trans q)
    · exact (h1.constraints.chain hag.constraints (Q := SameConstraint) (fun _ _ _ p q => p.symm.trans q)) |> fun g =>
        Agree.chain (S := fun v u => SameConstraint u v) (T := SameConstraint) (c := t.constraints) (agree_of (fun k => g.keys.symm) (fun k v u hv hu => g.get hu hv)) h2.constraints
          (fun _ _ _ p q => p.trans q)

theorem files_agrees {ss : List Statement} {b : Table → Bool} {l : List Table} {files : Dict Table} (hf : Paired (fun t e => TableRead ss (b t) t e) l files)
    {n : Str} {y : Table} (hy : (n, y) ∈ files) : ∃ t ∈ l, t.name = n ∧ t.Agrees y ∧ ∀ e ∈ y.columns, e.2.UsualLength := by
  induction hf with
  | nil => cases hy
  | @cons a e _ _ hx _ ih =>
    rcases List.mem_cons.mp hy with he | hy
    · rw [← he] at hx
      exact ⟨a, List.mem_cons_self, hx.name.symm, hx.same.agrees, hx.lengths⟩
    · obtain ⟨t, ht, h⟩ := ih hy
      exact ⟨t, List.mem_cons_of_mem _ ht, h⟩

theorem live_agrees {ds : List TableDecl} {live : Dict Table} (hl : Paired ReadLive ds live)
    {n : Str} {y : Table} (hy : (n, y) ∈ live) : ∃ d ∈ ds, d.name = n ∧ d.table.Agrees y ∧ ∀ e ∈ y.columns, e.2.UsualLength := by
  induction hl with
  | nil => cases hy
  | @cons a e _ _ hx _ ih =>
    rcases List.mem_cons.mp hy with he | hy
    · rw [← he] at hx
      exact ⟨a, List.mem_cons_self, hx.key.symm, hx.same.agrees, hx.lengths⟩
    · obtain ⟨t, ht, h⟩ := ih hy
      exact ⟨t, List.mem_cons_of_mem _ ht, h⟩

/-- **C15** (partial).  As `C65_nothing_partial`, but display widths may differ: files with `INT(10)` and a server which says `int`.  No foreign
key uses a column whose width differs.  Then nothing is planned, and `apply` only reads.

What is missing: foreign keys which use such a column, see `C15_refuted`; tables for which `TableDecl.Ok` or `Statement.Ok` does not hold. -/
theorem C15_nothing_partial [PyNum] (srv : Server) (ds : List TableDecl) (sources : List Str) (contents : List (List Statement)) (force : Bool)
    (hsrv : srv.Has ds) (hf : Paired SourceFile sources contents) (hr : ∀ ss ∈ contents, Readable ss)
    (hn : ((tablesOf contents.flatten).map (·.name)).Nodup) (hg : GoodRows contents.flatten)
    (hs : SameButWidths (ds.map (·.table)) (tablesOf contents.flatten)) (hfk : ¬ FkWidened (ds.map (·.table)) (tablesOf contents.flatten))
    (hnum : ∀ d ∈ ds, ∀ c ∈ d.table.columns.values, c.cls = .numeric → c.NumberDefault) (hrows : RowsAgree srv contents)
    (hcheck : ∃ o, (check sources).result = .ok o) :
    (plan srv sources force).result = .ok ⟨[], true⟩ ∧ (Command.apply srv sources force).result = .ok ⟨[], true⟩ ∧
      ∀ e ∈ (Command.apply srv sources force).events, OnlyReads e ∨ e = .committed := by
  obtain ⟨new, h1, h2⟩ := live_read hsrv
  obtain ⟨ts, rows, h3, h4⟩ := files_new sources contents hf hr hn hg
  have hagree := read_agreeButWidths h1 hsrv.distinct h4 hn hs
  refine nothing_planned force hsrv h3 h2 h4 (fun n => hagree.keys) (fun live' hl' => ?_) hrows hcheck
  have hk0 := (LiveDatabase.new_kept h2).1
  have hkl := readTracked_kept _ _ _ hk0 hl'
  have hst := readTracked_structure _ _ _ hl'
  have hlive : ∀ n x, live'.tables.get? n = some x → ∃ d ∈ ds, d.name = n ∧ d.table.Agrees x ∧ ∀ e ∈ x.columns, e.2.UsualLength := by
    intro n x hx
    obtain ⟨z, hz, e1, e2, e3⟩ := hst n x hx
    obtain ⟨d, hd, hdn, ha, hlen⟩ := live_agrees h1 (Dict.mem_of_get? hz)
    exact ⟨d, hd, hdn, ⟨by rw [e1]; exact ha.columns, by rw [e2]; exact ha.indexes, by rw [e3]; exact ha.constraints⟩, by rw [e1]; exact hlen⟩
  have hag : Agree Table.AgreesButWidths live'.tables ts := by
    refine agree_of (fun k => ?_) (fun k x y hx hy => ?_)
    · rw [readTracked_keys _ _ _ hl' k]
      exact hagree.keys
    · obtain ⟨z, hz, e1, e2, e3⟩ := hst k x hx
      have := hagree.get hz hy
      exact ⟨by rw [e1]; exact this.columns, by rw [e2]; exact this.indexes, by rw [e3]; exact this.constraints⟩
  have hvl : ∀ s ∈ live'.tables.values, ∃ n, live'.tables.get? n = some s := by
    intro s hsv
    obtain ⟨k, hk⟩ := Dict.mem_values.mp hsv
    exact ⟨k, Dict.get?_of_mem hkl.nodup hk⟩
  obtain ⟨ops, hops, _, hiff⟩ := C15_partial live'.tables ts hag hkl.toKeyedTables
    (by
      intro s hsv
      obtain ⟨k, hk⟩ := hvl s hsv
      obtain ⟨_, _, _, _, h⟩ := hlive k s hk
      exact h)
    (by
      intro s hsv
      obtain ⟨k, hk⟩ := Dict.mem_values.mp hsv
      obtain ⟨_, _, _, _, h⟩ := files_agrees h4 hk
      exact h)
    (by
      intro s hsv e he hc v hv
      obtain ⟨k, hk⟩ := hvl s hsv
      obtain ⟨d, hd, _, ha, _⟩ := hlive k s hk
      have hkd := hkl.keyed k s (Dict.mem_of_get? hk)
      have hge := Dict.get?_of_mem hkd.colNodup he
      obtain ⟨w, hw⟩ := Dict.exists_get? (ha.columns.keys.mpr (Dict.mem_keys_of_get? hge))
      have hsame := ha.columns.get hw hge
      exact hnum d hd w (Dict.mem_values.mpr ⟨_, Dict.mem_of_get? hw⟩) (hsame.cls ▸ hc) v (by rw [← hsame.default]; exact hv))
  rw [hops, hiff.mpr]
  rintro ⟨n, s, k, m, c, hsn, hk, hu, x, y, a, b, hx, hy, ha, hb, hne⟩
  apply hfk
  obtain ⟨d', hd', rfl, ha', _⟩ := hlive n s hsn
  obtain ⟨d, hd, rfl, hax, _⟩ := hlive m x hx
  obtain ⟨t, ht, htn, hty, _⟩ := files_agrees h4 (Dict.mem_of_get? hy)
  obtain ⟨a0, ha0⟩ := Dict.exists_get? (hax.columns.keys.mpr (Dict.mem_keys_of_get? ha))
  obtain ⟨b0, hb0⟩ := Dict.exists_get? (hty.columns.keys.mpr (Dict.mem_keys_of_get? hb))
  obtain ⟨j, hj⟩ := Dict.mem_values.mp hk
  have hgk := Dict.get?_of_mem (hkl.keyed _ s (Dict.mem_of_get? hsn)).fkNodup hj
  obtain ⟨k0, hk0'⟩ := Dict.exists_get? (ha'.constraints.keys.mpr (Dict.mem_keys_of_get? hgk))
  have hkk := ha'.constraints.get hk0' hgk
  refine ⟨d.table, List.mem_map_of_mem hd, t, ht, htn.symm, c, a0, b0, ha0, hb0, fun hsame => hne ?_, d'.table, List.mem_map_of_mem hd', k0,
    Dict.mem_values.mpr ⟨_, Dict.mem_of_get? hk0'⟩, ?_⟩
  · exact ((hax.columns.get ha0 ha).symm.trans hsame).trans (hty.columns.get hb0 hb)
  · rcases hu with ⟨e1, e2⟩ | ⟨e1, e2⟩
    · exact .inl ⟨e1, by rw [← hkk.column]; exact e2⟩
    · exact .inr ⟨by rw [← hkk.ftable]; exact e1, by rw [← hkk.fcolumn]; exact e2⟩

/-! ## Examples -/

namespace Examples

/-- `id INT(10) UNSIGNED NOT NULL`, and without the width -/
def wideId : Column := { cls := .numeric, name := py"id", ctype := py"INT", len := .str py"10", null := false, unsigned := some true }
def slimId : Column := { wideId with len := .str [] }
/-- `parent INT(10) UNSIGNED`, and without the width -/
def wideParent : Column := { cls := .numeric, name := py"parent", ctype := py"INT", len := .str py"10", unsigned := some true, hasDefault := true, default := some py"0" }
def slimParent : Column := { wideParent with len := .str [] }

def parentFk : Constraint := ⟨py"nodes_fk", py"parent", py"nodes", py"id", py"CASCADE", py"CASCADE", []⟩

/-- a table whose widths differ -/
def wideNodes (ks : Dict Constraint) : Table :=
  { name := py"nodes", columns := [(py"id", wideId), (py"parent", wideParent)], indexes := [(py"parent", { rawName := py"parent", columns := [py"parent"], itype := py"index" })], constraints := ks }
def slimNodes (ks : Dict Constraint) : Table :=
  { wideNodes ks with columns := [(py"parent", slimParent), (py"id", slimId)] }

theorem nodes_agree (ks : Dict Constraint) : Agree Table.AgreesButWidths ([(py"nodes", slimNodes ks)] : Dict Table) [(py"nodes", wideNodes ks)] := by
  refine agree_of (fun k => Iff.rfl) (fun k x y hx hy => ?_)
  have hk := Dict.mem_keys_of_get? hx
  simp only [Dict.keys, List.map_cons, List.map_nil, List.mem_singleton] at hk
  subst hk
  cases hx
  cases hy
  refine ⟨?_, agree_refl SameIndex.refl (fun _ _ => rfl), agree_refl SameConstraint.refl (fun _ _ => rfl)⟩
  refine agree_of (fun c => ?_) (fun c x y hx hy => ?_)
  · have h1 : Dict.keys (slimNodes ks).columns = [py"parent", py"id"] := rfl
    have h2 : Dict.keys (wideNodes ks).columns = [py"id", py"parent"] := rfl
    rw [h1, h2]
    simp [or_comm]
  · have hk := Dict.mem_keys_of_get? hx
    have h1 : Dict.keys (slimNodes ks).columns = [py"parent", py"id"] := rfl
    rw [h1] at hk
    simp only [List.mem_cons, List.not_mem_nil, or_false] at hk
    rcases hk with rfl | rfl
    · cases hx; cases hy
      exact .inr ⟨rfl, by decide, rfl, rfl, rfl, .inl rfl, rfl, rfl, rfl, rfl, rfl, rfl, rfl⟩
    · cases hx; cases hy
      exact .inr ⟨rfl, by decide, rfl, rfl, rfl, .inl rfl, rfl, rfl, rfl, rfl, rfl, rfl, rfl⟩

theorem nodes_usual (t : Table) (ht : t = slimNodes [] ∨ t = wideNodes []) : ∀ e ∈ t.columns, e.2.UsualLength := by
  have h : ∀ e ∈ (slimNodes []).columns ++ (wideNodes []).columns, e.2.UsualLength := by
    unfold Column.UsualLength
    decide
  rcases ht with rfl | rfl
  · exact fun e he => h e (List.mem_append.mpr (.inl he))
  · exact fun e he => h e (List.mem_append.mpr (.inr he))

/-- the table on the server and in the file -/
def liveNodes : TableDecl :=
  { name := py"nodes", first := .column slimParent (.server false), others := [.column slimId (.server false), .index { rawName := py"parent", columns := [py"parent"], itype := py"index" } py"KEY"], options := [⟨py"ENGINE", py"InnoDB"⟩] }
def fileNodes : TableDecl :=
  { name := py"nodes", first := .column wideId .usual, others := [.column wideParent .usual, .index { rawName := py"parent", columns := [py"parent"], itype := py"index" } py"index"], options := [] }

def nodesServer : Server where
  tableNames := [py"nodes"]
  createText _ := .ok (some py"CREATE TABLE `nodes` (\n  `parent` int unsigned DEFAULT '0',\n  `id` int unsigned NOT NULL,\n  KEY `parent` (`parent`)\n) ENGINE=InnoDB")
  select _ := .ok []
  fails _ _ := none

theorem liveNodes_ok : liveNodes.Ok := by
  refine ⟨by decide, ?_, ?_, ⟨_, _, rfl⟩, ?_, by decide, by decide, by decide, by decide, by decide⟩
  · intro x hx
    simp only [liveNodes, TableDecl.defs, List.mem_cons, List.not_mem_nil, or_false] at hx
    rcases hx with rfl | rfl | rfl
    · refine ⟨⟨by decide, by decide, rfl, ⟨_, .empty, by decide, ?_⟩, by decide, ?_, ?_⟩, server_fits _ _⟩ <;> intro v hv <;> cases hv
      exact ⟨.inl ⟨by decide, by decide⟩, by decide⟩
    · refine ⟨⟨by decide, by decide, rfl, ⟨_, .empty, by decide, ?_⟩, by decide, ?_, ?_⟩, server_fits _ _⟩ <;> intro v hv <;> cases hv
    · exact ⟨⟨by decide, by decide⟩, .inl (by decide)⟩
  · intro x hx
    simp only [liveNodes, TableDecl.defs, List.mem_cons, List.not_mem_nil, or_false] at hx
    rcases hx with rfl | rfl | rfl
    · rintro v (h | h | h) <;> cases h
      unfold NoComment; decide
    · rintro v (h | h | h) <;> cases h
    · trivial
  · intro o ho
    simp only [liveNodes, List.mem_cons, List.not_mem_nil, or_false] at ho
    subst ho
    exact ⟨by decide, by decide, by decide, by decide, by unfold NoComment; decide⟩

theorem fileNodes_ok : fileNodes.Ok := by
  refine ⟨by decide, ?_, ?_, ⟨_, _, rfl⟩, (by intro o ho; cases ho), by decide, by decide, by decide, by decide, by decide⟩
  · intro x hx
    simp only [fileNodes, TableDecl.defs, List.mem_cons, List.not_mem_nil, or_false] at hx
    rcases hx with rfl | rfl | rfl
    · refine ⟨⟨by decide, by decide, rfl, ⟨_, .one (by decide), by decide, ?_⟩, by decide, ?_, ?_⟩, usual_fits⟩ <;> intro v hv <;> cases hv
    · refine ⟨⟨by decide, by decide, rfl, ⟨_, .one (by decide), by decide, ?_⟩, by decide, ?_, ?_⟩, usual_fits⟩ <;> intro v hv <;> cases hv
      exact ⟨.inl ⟨by decide, by decide⟩, by decide⟩
    · exact ⟨⟨by decide, by decide⟩, .inl (by decide)⟩
  · intro x hx
    simp only [fileNodes, TableDecl.defs, List.mem_cons, List.not_mem_nil, or_false] at hx
    rcases hx with rfl | rfl | rfl
    · rintro v (h | h | h) <;> cases h
    · rintro v (h | h | h) <;> cases h
      unfold NoComment; decide
    · trivial

def nodesScript : List Statement := [.declare fileNodes fileLayout]

theorem nodes_same : SameButWidths ([liveNodes].map (·.table)) (tablesOf [nodesScript].flatten) := by
  refine ⟨?_, by decide⟩
  intro a ha
  simp only [List.map_cons, List.map_nil, List.mem_singleton] at ha
  subst ha
  refine ⟨fileNodes.table, by decide, rfl, ?_⟩
  have := (nodes_agree []).get (k := py"nodes") rfl rfl
  exact ⟨this.columns, this.indexes, this.constraints⟩

end Examples

section
open Examples
attribute [local instance] exactNum

/-- for `C15_partial` -/
example : let f : Dict Table := [(py"nodes", slimNodes [])]
    let t : Dict Table := [(py"nodes", wideNodes [])]
    Agree Table.AgreesButWidths f t ∧ KeyedTables f ∧ (∀ s ∈ f.values, ∀ e ∈ s.columns, e.2.UsualLength) ∧ (∀ s ∈ t.values, ∀ e ∈ s.columns, e.2.UsualLength) ∧
    (∀ s ∈ f.values, ∀ e ∈ s.columns, e.2.cls = .numeric → e.2.NumberDefault) ∧ Widened f t py"nodes" py"id" ∧ ¬ WidenedKey f t := by
  refine ⟨nodes_agree [], ⟨by decide, ?_, ?_⟩, ?_, ?_, ?_, ?_, ?_⟩
  · intro k t h; rw [List.mem_singleton] at h; cases h; rfl
  · intro k t h; rw [List.mem_singleton] at h; cases h
    refine ⟨by decide, ?_, by decide, ?_, by decide, ?_⟩ <;> intro k x hx
    · have hall : ∀ e ∈ (slimNodes []).columns, e.2.name = e.1 := by decide
      exact hall _ hx
    · have hall : ∀ e ∈ (slimNodes []).indexes, e.2.name = e.1 := by decide
      exact hall _ hx
    · cases hx
  · intro s hs; exact nodes_usual s (.inl (List.mem_singleton.mp hs))
  · intro s hs; exact nodes_usual s (.inr (List.mem_singleton.mp hs))
  · intro s hs e he _ v hv
    obtain rfl := List.mem_singleton.mp hs
    have hall : ∀ e ∈ (slimNodes []).columns, e.2.default = none ∨ e.2.default = some py"0" := by decide
    rcases hall e he with h | h <;> rw [h] at hv <;> cases hv
    exact ⟨(⟨0, 0⟩ : Dec), rfl, rfl⟩
  · exact ⟨_, _, slimId, wideId, rfl, rfl, rfl, rfl, fun h => by rcases h.len with e | e <;> revert e <;> decide⟩
  · rintro ⟨n, s, k, m, c, hs, hk, _⟩
    have hn := Dict.mem_keys_of_get? hs
    obtain rfl := List.mem_singleton.mp hn
    cases hs
    cases hk

/-- for `C15_nothing_partial` -/
example : nodesServer.Has [liveNodes] ∧ Paired SourceFile [fileNodes.sql fileLayout] [nodesScript] ∧ (∀ ss ∈ [nodesScript], Readable ss) ∧
    ((tablesOf [nodesScript].flatten).map (·.name)).Nodup ∧ GoodRows [nodesScript].flatten ∧
    SameButWidths ([liveNodes].map (·.table)) (tablesOf [nodesScript].flatten) ∧ ¬ FkWidened ([liveNodes].map (·.table)) (tablesOf [nodesScript].flatten) ∧
    (∀ d ∈ [liveNodes], ∀ c ∈ d.table.columns.values, c.cls = .numeric → c.NumberDefault) ∧ RowsAgree nodesServer [nodesScript] ∧
    (check [fileNodes.sql fileLayout]).result = .ok ⟨[], true⟩ := by
  refine ⟨⟨rfl, by decide, ?_, ?_⟩, .cons ⟨0, [], _, rfl, .nil, ?_, by decide, by intro h; cases h⟩ .nil, ?_, by decide, ⟨by decide, by decide, by decide, ?_⟩,
    nodes_same, ?_, ?_, ?_, by decide +kernel⟩
  · intro d hd; obtain rfl := List.mem_singleton.mp hd; exact liveNodes_ok
  · intro d hd; obtain rfl := List.mem_singleton.mp hd; exact ⟨liveLayout, ⟨by decide, by decide, by decide⟩, by decide +kernel⟩
  · have h3 := Script.cons (blanks := []) (s := .declare fileNodes fileLayout) (by decide) (.nil (blanks := []) (by decide))
    rw [List.append_nil] at h3
    exact h3
  · intro ss hss; obtain rfl := List.mem_singleton.mp hss
    refine ⟨?_, by simp [nodesScript]⟩
    intro s hs; obtain rfl := List.mem_singleton.mp hs
    exact ⟨fileNodes_ok, by decide, by decide, by decide⟩
  · intro n; exact List.nodup_nil
  · rintro ⟨_, _, _, _, _, _, _, _, _, _, _, a', ha', k, hk, _⟩
    obtain rfl := List.mem_singleton.mp ha'
    cases hk
  · intro d hd c hc _ v hv
    obtain rfl := List.mem_singleton.mp hd
    have hall : ∀ c ∈ liveNodes.table.columns.values, c.default = none ∨ c.default = some py"0" := by decide
    rcases hall c hc with h | h <;> rw [h] at hv <;> cases hv
    exact ⟨(⟨0, 0⟩ : Dec), rfl, rfl⟩
  · intro t _ hne; exact absurd rfl hne

/-- **C15 fails** if a foreign key uses a column whose width differs: the foreign key is dropped and added again, each time. -/
theorem C15_refuted :
    (Mygration.process [(py"nodes", wideNodes [(py"nodes_fk", parentFk)])] (some [(py"nodes", slimNodes [(py"nodes_fk", parentFk)])]) false).map (·.map Op.render) =
      .ok [py"ALTER TABLE `nodes` DROP FOREIGN KEY `nodes_fk`;",
        py"ALTER TABLE `nodes` ADD CONSTRAINT `nodes_fk` FOREIGN KEY (`parent`) REFERENCES `nodes` (`id`) ON DELETE CASCADE ON UPDATE CASCADE;"] ∧
    Agree Table.AgreesButWidths ([(py"nodes", slimNodes [(py"nodes_fk", parentFk)])] : Dict Table) [(py"nodes", wideNodes [(py"nodes_fk", parentFk)])] :=
  ⟨by decide +kernel, nodes_agree _⟩

end

end Mygrations
